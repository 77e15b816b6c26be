import Verif.Gen.RefXB
import Verif.Gen.DB

/-! # DB in any arithmetic -/

namespace Verif.Gen
open Py

variable {F : Type} [Arith F] {d : ℕ}

/-- The attributes after the samples `S`. -/
structure RepDB (d : ℕ) (S : Samples F) (s : Core F) : Prop extends RepD d .DB S s where
  Sv : s.Sv = ⟨false, (order S).map fun c => spread (stat S c)⟩

namespace DB

theorem start {S : Samples F} {s : Core F} {x : List F} (c : ℤ)
    (hS : S.Dim d) (hx : x.length = d) (h : Start init (RepDB d) S s) :
    s.nSamples = S.length ∧ ∃ s', setupOrMu setup x s = .ok () s' ∧ Mid d S x c s' ∧ (order S ≠ [] → Dist .DB S s') ∧
      s'.Sv = ⟨false, (order S).map fun c => spread (stat S c)⟩ := by
  rcases h with ⟨rfl, rfl⟩ | ⟨hne, h⟩
  · subst hx
    refine ⟨rfl, _, rfl, mid_first ?_ rfl rfl ?_ rfl ?_ rfl rfl, fun h => absurd rfl h, rfl⟩ <;> simp
  · obtain ⟨h1, h2⟩ := mid_mu (setupC := setup) hne c hS hx h.toCommon
    exact ⟨h.nSamples, _, h1, h2, fun _ => h.D, h.Sv⟩

theorem dist_eq {S : Samples F} {s : Core F} {a : ℤ} (hS : S.Dim d) (nv : NV d S s) {w : List F} (hw : w.length = d)
    (ha : a ∈ order S) : dist s w ((order S).idxOf a) =
      .ok (Arith.npSum ((List.zipWith (· - ·) w (stat S a).v).map Arith.sq)) := by
  simp only [dist, nv.v, row_rep ha, except_bind_ok, sqDist_eq hw (stat_v_length S ha hS)]

omit [Arith F] in
theorem appendS_rep {s : Core F} {ks : List ℤ} {c : ℤ} {f f' : ℤ → F} {x : F}
    (hc : c ∉ ks) (h : s.Sv = ⟨false, ks.map f⟩) (hx : x = f' c) (hf : ∀ a ∈ ks, a ≠ c → f' a = f a) :
    Verif.DB.appendS x s = .ok () { s with Sv := ⟨false, (ks ++ [c]).map f'⟩ } := by
  simp only [Verif.DB.appendS, bind_apply, get_apply, Res.bind_ok, h, Seq.append, map_append_new hc f f' x hx hf]
  rfl

omit [Arith F] in
theorem setS_rep {s : Core F} {b : Bool} {ks : List ℤ} {c : ℤ} {f f' : ℤ → F} {x : F}
    (hn : ks.Nodup) (hc : c ∈ ks) (h : s.Sv = ⟨b, ks.map f⟩) (hx : x = f' c) (hf : ∀ a ∈ ks, a ≠ c → f' a = f a) :
    Verif.DB.setS (ks.idxOf c) x s = .ok () { s with Sv := ⟨b, ks.map f'⟩ } := by
  have hl := List.idxOf_lt_length_of_mem hc
  simp [Verif.DB.setS, h, Seq.set, hl, map_set hn f f' x hx hf]

theorem branch {S : Samples F} {s : Core F} {x : List F} {c : ℤ} (hS : S.Dim d) (hx : x.length = d)
    (h : Mid d S x c s) (hD : order S ≠ [] → Dist .DB S s)
    (hSv : s.Sv = ⟨false, (order S).map fun c => spread (stat S c)⟩) :
    (if ((order S).idxOf c : ℤ) > (s.nClusters : ℤ) - 1 then incNew x ((order S).idxOf c)
      else incOld x ((order S).idxOf c)) s =
      .ok () { withTables d (S ++ [(x, c)]) s with
        D := sqMat (order (S ++ [(x, c)])) (table .DB (S ++ [(x, c)]))
        Sv := ⟨false, (order (S ++ [(x, c)])).map fun a => spread (stat (S ++ [(x, c)]) a)⟩ } := by
  have hne : ∀ a, a ≠ c → spread (stat (S ++ [(x, c)]) a) = spread (stat S a) := fun a ha => by rw [stat_ne S x ha]
  by_cases hc : c ∈ order S
  · rw [if_neg (by rw [isNew_iff h.nv.k]; simpa using hc), incOld]
    have hv := stat_v_length (S ++ [(x, c)]) (c := c) (by rw [order_old S x hc]; exact hc) (hS.append hx)
    have hn : (stat (S ++ [(x, c)]) c).n ≠ 1 := by
      have := stat_n_pos S hc hS
      rw [stat_old S x hc]
      show (stat S c).n + 1 ≠ 1
      omega
    refine get_bind (lift_bind (oldStats_eq hS hx hc h.nv h.cg) ?_)
    refine lift_bind (columnOld_eq (I := .DB) (x := x) h.nv.k fun a ha _ => dist_eq hS h.nv hv ha) ?_
    rw [set_tables hS hx hc h.nv h.cg]
    refine bind_ok_of (setS_rep (order_nodup S) hc hSv (f' := fun a => spread (stat (S ++ [(x, c)]) a))
      (by rw [spread, if_neg hn]) fun a _ ha => hne a ha) ?_
    refine (setD_eq (x := x) hc (by exact hD (List.ne_nil_of_mem hc))).trans ?_
    simp [order_old S x hc]
  · have e := stat_new S x hc
    rw [if_pos (by rw [isNew_iff h.nv.k]; exact hc), incNew]
    refine get_bind (lift_bind (distNew_eq (I := .DB) (x := x) hc h.nv.k hD fun a ha => ?_) ?_)
    · rw [dist_eq hS h.nv hx ha, stat_new S x hc]; rfl
    refine modify_bind ?_
    refine bind_ok_of (appendN_rep hc h.nv.n (f' := fun a => (stat (S ++ [(x, c)]) a).n) (by rw [e]; rfl)
      fun a _ ha => by rw [stat_ne S x ha]) ?_
    refine bind_ok_of (appendCP_rep hc h.cg.cp (f' := fun a => (stat (S ++ [(x, c)]) a).cp) (by rw [e]; rfl)
      fun a _ ha => by rw [stat_ne S x ha]) ?_
    refine bind_ok_of (appendS_rep hc hSv (f' := fun a => spread (stat (S ++ [(x, c)]) a)) (by rw [e]; rfl)
      fun a _ ha => hne a ha) ?_
    refine bind_ok_of (vstackV_rep hc h.nv.v (f' := fun a => (stat (S ++ [(x, c)]) a).v) (by rw [e]; rfl) hx
      fun a _ ha => by rw [stat_ne S x ha]) ?_
    refine bind_ok_of (vstackG_rep hc h.cg.g (f' := fun a => (stat (S ++ [(x, c)]) a).g)
      (by rw [e, h.nv.dim, zeros_eq hx]; rfl) (by simp [Vec.zeros, h.nv.dim]) fun a _ ha => by rw [stat_ne S x ha]) ?_
    simp [withTables, withNV, h.nv.k, order_new S x hc]

theorem step (S : Samples F) (s : Core F) (x : List F) (c : ℤ) (hS : S.Dim d) (hx : x.length = d)
    (h : Start init (RepDB d) S s) :
    ∃ s', incBody x ((order S).idxOf c) s = .ok () s' ∧ RepDB d (S ++ [(x, c)]) s' := by
  obtain ⟨hn, s1, h1, hm, hD, hSv⟩ := start c hS hx h
  refine ⟨_, get_bind (bind_ok_of h1 (get_bind (bind_ok_of (branch hS hx hm hD hSv) rfl))), ?_⟩
  refine ⟨⟨⟨⟨hm.nv.dim, rfl, rfl, rfl⟩, ⟨rfl, rfl⟩, ?_, hm.mu, hm.isSetup⟩, rfl⟩, rfl⟩
  simp [hn]

/-! ## Evaluation -/

theorem ratios_eq {S : Samples F} {s : Core F} (h : RepDB d S s) : ratios s = .ok (sqMat (order S) (quotients S)) := by
  have hf : ∀ i j, i < j → j < (order S).length → ratio s i j =
      .ok (quotient S ((order S).getD i 0) ((order S).getD j 0)) := by
    intro i j hij hj
    have hi := hij.trans hj
    have ei : (order S).idxOf (order S)[i] = i := (order_nodup S).idxOf_getElem i hi
    have ej : (order S).idxOf (order S)[j] = j := (order_nodup S).idxOf_getElem j hj
    have g1 := get_rep (b := false) (f := fun c => spread (stat S c)) (List.getElem_mem hi)
    have g2 := get_rep (b := false) (f := fun c => spread (stat S c)) (List.getElem_mem hj)
    rw [ei] at g1
    rw [ej] at g2
    have e1 : (order S).getD i 0 = (order S)[i] := by simp [hi]
    have e2 : (order S).getD j 0 = (order S)[j] := by simp [hj]
    rw [ratio, h.Sv, g1, except_bind_ok, g2, except_bind_ok, h.D, sqMat_get_getElem hj hi, except_bind_ok, e1, e2]
    rfl
  rw [ratios, h.nv.k, upperTri_ok hf, except_bind_ok]
  have e : (⟨(order S).length, (List.range (order S).length).map fun i => (List.range (order S).length).map fun j =>
      if i < j then quotient S ((order S).getD i 0) ((order S).getD j 0) else (0 : F)⟩ : Arr2 F) =
      natMat (order S).length fun i j => if i < j then quotient S ((order S).getD i 0) ((order S).getD j 0) else 0 := rfl
  rw [e, natMat_transpose, natMat_transpose, Arr2.add, natMat_bin, sqMat_eq_natMat]
  congr 1
  apply natMat_congr
  intro i j hi hj
  have ei : (order S).idxOf (order S)[i] = i := (order_nodup S).idxOf_getElem i hi
  have ej : (order S).idxOf (order S)[j] = j := (order_nodup S).idxOf_getElem j hj
  have e1 : (order S).getD i 0 = (order S)[i] := by simp [hi]
  have e2 : (order S).getD j 0 = (order S)[j] := by simp [hj]
  rw [e1, e2, quotients, ei, ej]

theorem evaluate_eq {S : Samples F} {s : Core F} (h : RepDB d S s) :
    ∃ s', evaluate s = .ok () s' ∧ s'.criterion = value d .DB S ∧ RepDB d S s' := by
  rw [evaluate, bind_apply, get_apply, Res.bind_ok]
  by_cases hk : s.nClusters > 1
  · have hk' : 1 < (order S).length := h.nv.k ▸ hk
    rw [if_pos hk]
    have hm : mapE (fun j => do let c ← (sqMat (order S) (quotients S)).col j; Vec.amax c)
        (List.range (sqMat (order S) (quotients S)).cols) =
        .ok ((order S).map fun b => high ((order S).map fun a => quotients S a b)) := by
      rw [sqMat_cols]
      apply mapE_range_keys (order_nodup S)
      intro c hc
      rw [sqMat_col hc, except_bind_ok, amax_eq]
      intro e
      rw [List.map_eq_nil_iff] at e
      simp [e] at hk'
    refine ⟨_, lift_bind (ratios_eq h) (modify_bind (lift_bind hm rfl)), ?_, ?_⟩
    · simp [value, Nat.not_le.mpr hk', h.nv.k]
    · exact ⟨h.toRepD.congr rfl rfl rfl rfl rfl rfl rfl rfl rfl rfl, h.Sv⟩
  · rw [if_neg hk]
    refine ⟨_, rfl, ?_, h.toRepD.congr rfl rfl rfl rfl rfl rfl rfl rfl rfl rfl, h.Sv⟩
    simp [value, ← h.nv.k, Nat.not_lt.mp hk]

theorem refines : Refines d (DBmod (F := F)) (RepDB d) fun S r => r = value d .DB S where
  concrete := rfl
  step := step
  eval _ _ _ _ h := evaluate_eq h

end DB
end Verif.Gen
