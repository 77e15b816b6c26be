import Verif.Proofs.Sim
import Verif.Proofs.Extrema
import Verif.Model.GD43

/-! # GD43 refines its specification -/

namespace Verif.GD43
open Spec Py Verif

variable {d : ℕ}

/-- The object after the samples `S`. -/
structure Rep (S : Stream d) (s : Core) : Prop extends RepMu S s where
  D : s.D = sqMat (keys S) fun a b => .fin (Real.sqrt (sep S a b))

theorem start {S : Stream d} {s : Core} (x : Pt d) (c : ℤ) (h : Start Core.init Rep S s) :
    s.nSamples = S.length ∧ ∃ s', setupOrMu setup (enc x) s = .ok () s' ∧ MidMu S x c s' ∧
      (keys S ≠ [] → s'.D = sqMat (keys S) fun a b => .fin (Real.sqrt (sep S a b))) := by
  rcases h with ⟨rfl, rfl⟩ | ⟨hne, h⟩
  · refine ⟨rfl, _, rfl, mid_of_init ?_ rfl rfl ?_ rfl ?_ rfl rfl, fun h => absurd rfl h⟩ <;> simp
  · obtain ⟨h1, h2⟩ := mid_of_mu (setupC := setup) hne x c h.toRepMu
    exact ⟨h.nSamples, _, h1, h2, fun _ => h.D⟩

theorem dist_rep {S : Stream d} {s : Core} {b : Bool} {ks : List ℤ} {a : ℤ} (nv : RepNV b ks S s) (w : Pt d)
    (ha : a ∈ ks) : dist s (enc w) (ks.idxOf a) = .ok (.fin (Real.sqrt (dist2 w (centroid S a)))) := by
  simp only [dist, nv.v, row_rep ha, except_bind_ok, sqDist_enc, XR.sqrt_fin_of_nonneg (dist2_nonneg _ _), except_pure]

theorem branch {S : Stream d} {s : Core} {x : Pt d} {c : ℤ} (h : MidMu S x c s)
    (hD : keys S ≠ [] → s.D = sqMat (keys S) fun a b => .fin (Real.sqrt (sep S a b))) :
    (if ((keys S).idxOf c : ℤ) > (s.nClusters : ℤ) - 1 then incNew (enc x) ((keys S).idxOf c)
      else incOld (enc x) ((keys S).idxOf c)) s =
      .ok () { tabled false (keys (S ++ [(x, c)])) (S ++ [(x, c)]) s with
        D := sqMat (keys (S ++ [(x, c)])) fun a b => .fin (Real.sqrt (sep (S ++ [(x, c)]) a b)) } := by
  rw [keys_append]
  by_cases hc : c ∈ keys S
  · rw [if_neg (by rw [isNew_iff h.nv.k]; simpa using hc), addKey_old hc, incOld]
    refine get_bind (lift_bind (oldStats_rep x (keysOf_keys S) hc h.nv h.cp h.g) ?_)
    refine lift_bind (a := (keys S).map fun a => if a = c then 0 else
      .fin (Real.sqrt (dist2 (centroid (S ++ [(x, c)]) c) (centroid S a)))) ?_ ?_
    · rw [h.nv.k]
      exact columnOld_keys (keys_nodup S) fun a ha _ => dist_rep h.nv _ ha
    · rw [set_tables (x := x) (keysOf_keys S) hc h.nv h.cp h.g]
      refine setD_rep (keys_nodup S) hc (hD (List.ne_nil_of_mem hc)) ?_ ?_ ?_
      · intro a ha
        by_cases e : a = c
        · subst e; simp [sep, dist2_self, XR.zero_def]
        · simp [e, sep, centroid_append_ne S x e]
      · intro a ha
        by_cases e : a = c
        · subst e; simp [sep, dist2_self, XR.zero_def]
        · simp [e, sep, centroid_append_ne S x e, dist2_comm]
      · intro a _ b _ ha hb
        simp [sep, centroid_append_ne S x ha, centroid_append_ne S x hb]
  · have hcl : c ∉ labels S := fun h => hc (mem_keys.mpr h)
    rw [if_pos (by rw [isNew_iff h.nv.k]; exact hc), addKey_new hc, incNew]
    refine get_bind (lift_bind (a := sqMat (keys S ++ [c]) fun a b => .fin (Real.sqrt (sep (S ++ [(x, c)]) a b))) ?_ ?_)
    · rw [h.nv.k, List.idxOf_eq_length hc]
      refine distNew_sqMat (keys_nodup S) hc hD ?_ ?_ ?_ ?_
      · intro a ha
        have e : a ≠ c := fun e => hc (e ▸ ha)
        rw [dist_rep h.nv _ ha, sep, centroid_append_new S x hcl, centroid_append_ne S x e]
      · intro a _; rw [sep_comm]
      · simp [sep, dist2_self, XR.zero_def]
      · intro a ha b hb
        have ea : a ≠ c := fun e => hc (e ▸ ha)
        have eb : b ≠ c := fun e => hc (e ▸ hb)
        simp [sep, centroid_append_ne S x ea, centroid_append_ne S x eb]
    · rw [append_tables (x := x) (keysOf_keys S) hc h.nv h.cp h.g]
      rfl

theorem step (S : Stream d) (s : Core) (x : Pt d) (c : ℤ) (h : Start GD43mod.init Rep S s) :
    ∃ s', incBody (enc x) ((keys S).idxOf c) s = .ok () s' ∧ Rep (S ++ [(x, c)]) s' := by
  obtain ⟨hn, s1, h1, hm, hD⟩ := start x c h
  refine ⟨_, get_bind (bind_ok_of h1 (get_bind (bind_ok_of (branch hm hD) rfl))), ?_⟩
  refine ⟨⟨⟨hm.nv.dim, rfl, rfl, rfl⟩, rfl, rfl, ?_, hm.mu, hm.isSetup⟩, rfl⟩
  simp [hn]

theorem maxScatter_rep {S : Stream d} {ks : List ℤ} (hks : KeysOf ks S) (hk : ks ≠ []) :
    maxScatter (ks.map fun c => XR.fin (scatter S c)) (ks.map (size S)) =
      .ok (.fin (sSup {r | ∃ c ∈ labels S, r = meanScatter S c})) := by
  rw [maxScatter, Vec.bin, if_pos (by simp)]
  have : List.zipWith (· / ·) (ks.map fun c => XR.fin (scatter S c))
      ((ks.map (size S)).map fun m : ℕ => XR.fin (m : ℝ)) = ks.map fun c => XR.fin (meanScatter S c) := by
    rw [List.map_map, List.zipWith_map, List.zipWith_self]
    apply List.map_congr_left
    intro c hc
    have := size_pos_real ((hks.mem c).mp hc)
    exact XR.fin_div_of_ne _ this.ne'
  rw [this, except_bind_ok, amax_keys hks hk]

theorem minUpper_rep {S : Stream d} {ks : List ℤ} {D : Arr2} {g : ℤ → ℤ → ℝ} (hks : KeysOf ks S) (hk : 1 < ks.length)
    (hs : ∀ a b, g a b = g b a) (hD : Upper ks (fun a b => .fin (g a b)) D) :
    minUpper ks.length D = .ok (.fin (sInf (pairValues S g))) := by
  rw [minUpper, if_pos ⟨hD.1, hD.2.1⟩, triu_upper hD, except_bind_ok, amin_upperVals hks hk g hs]

/-- The value computed from the tables. -/
theorem evaluate_rep {S : Stream d} {s : Core} {b : Bool} {ks : List ℤ} (hks : KeysOf ks S) (nv : RepNV b ks S s)
    (cp : RepCP b ks S s) (hD : Upper ks (fun a b => .fin (Real.sqrt (sep S a b))) s.D) :
    ∃ w g, evaluate s = .ok () { s with intra := w, inter := g, criterion := Spec.GD43 S } := by
  rw [evaluate, bind_apply, get_apply, Res.bind_ok]
  have hk := hks.length
  have hk' := hk
  rw [← nv.k] at hk
  by_cases h : s.nClusters > 1
  · refine ⟨.fin (2 * sSup {r | ∃ c ∈ labels S, r = meanScatter S c}),
      .fin (sInf (pairValues S fun a b => Real.sqrt (sep S a b))), ?_⟩
    rw [if_pos h]
    refine lift_bind (a := ⟨b, ks.map fun c => XR.fin (scatter S c)⟩) (by rw [cp]; rfl) ?_
    refine lift_bind (by rw [nv.n]; exact maxScatter_rep hks (by rintro rfl; simp at hk'; omega)) ?_
    refine modify_bind (lift_bind (by rw [nv.k]; exact minUpper_rep hks (by omega) (fun a b => by rw [sep_comm]) hD) ?_)
    rw [modify_apply, Spec.GD43, if_neg (by omega)]
    simp only [XR.fin_mul, ratio_eq (sInf_pairValues_nonneg S (g := fun a b => Real.sqrt (sep S a b)) (fun _ _ => Real.sqrt_nonneg _))]
  · refine ⟨s.intra, s.inter, ?_⟩
    rw [if_neg h, modify_apply, Spec.GD43, if_pos (by omega)]

theorem refines : Refines GD43mod (Rep (d := d)) Spec.GD43 where
  concrete := rfl
  step := step
  eval S s _ h := by
    obtain ⟨w, g, e⟩ := evaluate_rep (keysOf_keys S) h.nv h.cp (h.D ▸ upper_sqMat _ _)
    exact ⟨_, e, rfl, ⟨⟨⟨h.nv.dim, h.nv.k, h.nv.n, h.nv.v⟩, h.cp, h.g, h.nSamples, h.mu, h.isSetup⟩, h.D⟩⟩

end Verif.GD43
