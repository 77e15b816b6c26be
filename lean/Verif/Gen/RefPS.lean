import Verif.Gen.Inc
import Verif.Gen.PS
import Verif.Proofs.Extrema

/-! # PS in any arithmetic -/

namespace Verif.Gen
open Py

variable {F : Type} [Arith F] {d : ℕ}

/-- The attributes after the samples `S`. -/
structure RepPS (d : ℕ) (S : Samples F) (s : Core F) : Prop where
  nv : NV d S s
  nSamples : s.nSamples = S.length
  isSetup : s.isSetup = true
  D : Dist .PS S s

namespace PS

theorem start {S : Samples F} {s : Core F} {x : List F} (hx : x.length = d) (h : Start init (RepPS d) S s) :
    s.nSamples = S.length ∧ ∃ s', setupIfFirst setup x s = .ok () s' ∧ NV d S s' ∧ s'.isSetup = true ∧
      (order S ≠ [] → Dist .PS S s') := by
  rcases h with ⟨rfl, rfl⟩ | ⟨hne, h⟩
  · subst hx
    refine ⟨rfl, _, rfl, ⟨?_, rfl, rfl, ?_⟩, rfl, fun h => absurd rfl h⟩ <;> simp; rfl
  · have hl : s.nSamples ≠ 0 := by rw [h.nSamples]; simpa using hne
    refine ⟨h.nSamples, s, ?_, h.nv, h.isSetup, fun _ => h.D⟩
    rw [setupIfFirst]
    apply get_bind
    rw [if_neg hl, pure_apply]

theorem dist_eq {S : Samples F} {s : Core F} {a : ℤ} (hS : S.Dim d) (nv : NV d S s) {w : List F} (hw : w.length = d)
    (ha : a ∈ order S) : dist s w ((order S).idxOf a) =
      .ok (Arith.npSum ((List.zipWith (· - ·) w (stat S a).v).map Arith.sq)) := by
  simp only [dist, nv.v, row_rep ha, except_bind_ok, sqDist_eq hw (stat_v_length S ha hS)]

theorem branch {S : Samples F} {s : Core F} {x : List F} {c : ℤ} (hS : S.Dim d) (hx : x.length = d)
    (nv : NV d S s) (hD : order S ≠ [] → Dist .PS S s) :
    (if ((order S).idxOf c : ℤ) > (s.nClusters : ℤ) - 1 then incNew x ((order S).idxOf c)
      else incOld x ((order S).idxOf c)) s =
      .ok () { withNV d (S ++ [(x, c)]) s with D := sqMat (order (S ++ [(x, c)])) (table .PS (S ++ [(x, c)])) } := by
  by_cases hc : c ∈ order S
  · rw [if_neg (by rw [isNew_iff nv.k]; simpa using hc), incOld]
    have hc' : c ∈ order (S ++ [(x, c)]) := by rw [order_old S x hc]; exact hc
    have hv := stat_v_length _ hc' (hS.append hx)
    have e := stat_old S x hc
    refine get_bind (lift_bind (by rw [nv.n]; exact get_rep hc) (lift_bind (by rw [nv.v]; exact row_rep hc)
      (lift_bind (a := (stat (S ++ [(x, c)]) c).v) (by rw [runningMean_eq (stat_v_length S hc hS) hx, e]; rfl) ?_)))
    refine lift_bind (columnOld_eq (I := .PS) (x := x) nv.k fun a ha _ => dist_eq hS nv hv ha) ?_
    refine bind_ok_of (setN_rep (order_nodup S) hc nv.n (f' := fun a => (stat (S ++ [(x, c)]) a).n) (by rw [e]; rfl)
      fun a _ ha => by rw [stat_ne S x ha]) ?_
    refine bind_ok_of (setV_rep (order_nodup S) hc nv.v (f' := fun a => (stat (S ++ [(x, c)]) a).v) rfl hv
      fun a _ ha => by rw [stat_ne S x ha]) ?_
    refine (setD_eq (x := x) hc (by exact hD (List.ne_nil_of_mem hc))).trans ?_
    simp [withNV, ← nv.k, order_old S x hc]
  · have e := stat_new S x hc
    rw [if_pos (by rw [isNew_iff nv.k]; exact hc), incNew]
    refine get_bind (lift_bind (distNew_eq (I := .PS) (x := x) hc nv.k hD fun a ha => ?_) ?_)
    · rw [dist_eq hS nv hx ha, stat_new S x hc]; rfl
    refine modify_bind ?_
    refine bind_ok_of (appendN_rep hc nv.n (f' := fun a => (stat (S ++ [(x, c)]) a).n) (by rw [e]; rfl)
      fun a _ ha => by rw [stat_ne S x ha]) ?_
    refine bind_ok_of (vstackV_rep hc nv.v (f' := fun a => (stat (S ++ [(x, c)]) a).v) (by rw [e]; rfl) hx
      fun a _ ha => by rw [stat_ne S x ha]) ?_
    simp [withNV, nv.k, order_new S x hc]

theorem step (S : Samples F) (s : Core F) (x : List F) (c : ℤ) (hS : S.Dim d) (hx : x.length = d)
    (h : Start init (RepPS d) S s) :
    ∃ s', incBody x ((order S).idxOf c) s = .ok () s' ∧ RepPS d (S ++ [(x, c)]) s' := by
  obtain ⟨hn, s1, h1, nv, hi, hD⟩ := start hx h
  refine ⟨_, get_bind (bind_ok_of h1 (get_bind (bind_ok_of (branch hS hx nv hD) rfl))), ?_⟩
  refine ⟨⟨nv.dim, rfl, rfl, rfl⟩, ?_, hi, rfl⟩
  simp [hn]

/-! ## Evaluation -/

theorem max?_eq {l : List ℕ} (h : l ≠ []) : l.max? = some (l.foldl max 0) := by
  cases l with
  | nil => exact absurd rfl h
  | cons a l => simp [List.max?]

theorem foldl_max_pos {l : List ℕ} {a : ℕ} (h : a ∈ l) (ha : 0 < a) : l.foldl max 0 ≠ 0 := by
  have : a ≤ l.foldl max 0 := by
    have := List.max?_eq_some_iff.mp (max?_eq (List.ne_nil_of_mem h))
    exact this.2 a h
  omega

omit [Arith F] in
theorem eraseIdx_keys {ks : List ℤ} (hn : ks.Nodup) (c : ℤ) (f : ℤ → F) :
    (ks.map f).eraseIdx (ks.idxOf c) = (ks.filter (· ≠ c)).map f := by
  rw [List.eraseIdx_map]
  congr 1
  rw [← List.erase_eq_eraseIdx_of_idxOf rfl, List.Nodup.erase_eq_filter hn]
  congr 1
  funext x
  by_cases e : x = c <;> simp [e]

theorem psTerm_eq {S : Samples F} {s : Core F} (h : RepPS d S s) (hS : S.Dim d) (hk : 1 < (order S).length)
    {w : List F} {c : ℤ} (hc : c ∈ order S) :
    psTerm { s with vBar := w, betaT := betaT S d } (((order S).map fun c => (stat S c).n).foldl max 0)
      ((order S).idxOf c) = .ok (Gen.psTerm S d c) := by
  have hm : (((order S).map fun c => (stat S c).n).foldl max 0) ≠ 0 :=
    foldl_max_pos (List.mem_map.mpr ⟨c, hc, rfl⟩) (stat_n_pos S hc hS)
  have hne : ((order S).filter (· ≠ c)).map (table .PS S c) ≠ [] := by
    rw [Ne, List.map_eq_nil_iff]
    obtain ⟨b, hb, hbc⟩ := exists_other (order_nodup S) hk c
    exact List.ne_nil_of_mem (a := b) (by simp [hb, hbc])
  have hD : s.D = sqMat (order S) (table .PS S) := h.D
  rw [psTerm]
  simp only [hD, h.nv.n]
  rw [sqMat_row hc, except_bind_ok, Vec.delete, if_pos (by simpa using List.idxOf_lt_length_of_mem hc), except_bind_ok,
    get_rep hc, except_bind_ok, pyDiv, if_neg (by exact_mod_cast hm), except_bind_ok, eraseIdx_keys (order_nodup S),
    amin_eq hne]
  rfl

theorem vBar_length (S : Samples F) : (vBar S d).length = d := by simp [vBar]

theorem mean0_eq (S : Samples F) : Arr2.mean0 ⟨d, (order S).map fun c => (stat S c).v⟩ = vBar S d := by
  simp [Arr2.mean0, vBar, Function.comp_def]

theorem evaluate_eq {S : Samples F} {s : Core F} (hS : S.Dim d) (h : RepPS d S s) :
    ∃ s', evaluate s = .ok () s' ∧ s'.criterion = value d .PS S ∧ RepPS d S s' := by
  rw [evaluate, bind_apply, get_apply, Res.bind_ok]
  by_cases hk : s.nClusters > 1
  · have hk' : 1 < (order S).length := h.nv.k ▸ hk
    rw [if_pos hk]
    have h1 : mapE (devSq { s with vBar := Arr2.mean0 s.v }) (List.range s.nClusters) =
        .ok ((order S).map fun c => Arith.dot (List.zipWith (· - ·) (stat S c).v (vBar S d))
          (List.zipWith (· - ·) (stat S c).v (vBar S d))) := by
      rw [h.nv.k]
      apply mapE_range_keys (order_nodup S)
      intro c hc
      have hl := stat_v_length S hc hS
      simp only [devSq, h.nv.v, mean0_eq]
      have hz := zip_length (f := (· - ·)) hl (vBar_length S)
      rw [row_rep hc, except_bind_ok, sub_eq hl (vBar_length S), except_bind_ok, inner_eq hz hz]
    have hb : Arith.pySum ((order S).map fun c => Arith.dot (List.zipWith (· - ·) (stat S c).v (vBar S d))
        (List.zipWith (· - ·) (stat S c).v (vBar S d))) / Arith.ofNat s.nClusters = betaT S d := by
      rw [h.nv.k]; rfl
    have hmx : (match s.n.items.max? with
        | some m => (.ok m : Except PyErr ℕ)
        | none => .error .valueError) = .ok (((order S).map fun c => (stat S c).n).foldl max 0) := by
      rw [h.nv.n, max?_eq]
      intro e
      rw [List.map_eq_nil_iff] at e
      simp [e] at hk'
    have h2 : mapE (psTerm { s with vBar := Arr2.mean0 s.v, betaT := betaT S d }
        (((order S).map fun c => (stat S c).n).foldl max 0)) (List.range s.nClusters) =
        .ok ((order S).map (Gen.psTerm S d)) := by
      rw [h.nv.k]
      apply mapE_range_keys (order_nodup S)
      intro c hc
      exact psTerm_eq (w := Arr2.mean0 s.v) h hS hk' hc
    refine ⟨{ s with vBar := Arr2.mean0 s.v, betaT := betaT S d, PSi := (order S).map (Gen.psTerm S d)
                     criterion := Arith.npSum ((order S).map (Gen.psTerm S d)) },
      modify_bind (get_bind (lift_bind h1 (modify_bind (get_bind ?_)))), ?_, ?_⟩
    · simp only [hb]
      exact lift_bind hmx (lift_bind h2 rfl)
    · simp [value, Nat.not_le.mpr hk']
    · exact ⟨⟨h.nv.dim, h.nv.k, h.nv.n, h.nv.v⟩, h.nSamples, h.isSetup, h.D⟩
  · rw [if_neg hk]
    refine ⟨_, rfl, ?_, ⟨h.nv.dim, h.nv.k, h.nv.n, h.nv.v⟩, h.nSamples, h.isSetup, h.D⟩
    simp [value, ← h.nv.k, Nat.not_lt.mp hk]

theorem refines : Refines d (PSmod (F := F)) (RepPS d) fun S r => r = value d .PS S where
  concrete := rfl
  step := step
  eval _ _ _ hS h := evaluate_eq hS h

end PS
end Verif.Gen
