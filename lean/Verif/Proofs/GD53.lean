import Verif.Proofs.GD43
import Verif.Proofs.Extrema
import Verif.Model.GD53

/-! # GD53 refines its specification -/

namespace Verif.GD53
open Spec Py Verif

variable {d : ℕ}

/-- Pooled mean scatter of two clusters. -/
noncomputable def pooled (S : Stream d) (a b : ℤ) : ℝ := (scatter S a + scatter S b) / ((size S a : ℝ) + size S b)

theorem pooled_comm (S : Stream d) (a b : ℤ) : pooled S a b = pooled S b a := by
  unfold pooled; rw [add_comm (scatter S a), add_comm (size S a : ℝ)]

theorem pooled_nonneg (S : Stream d) (a b : ℤ) : 0 ≤ pooled S a b :=
  div_nonneg (add_nonneg (scatter_nonneg S a) (scatter_nonneg S b)) (by positivity)

theorem pooled_append_ne (S : Stream d) (x : Pt d) {a b c : ℤ} (ha : a ≠ c) (hb : b ≠ c) :
    pooled (S ++ [(x, c)]) a b = pooled S a b := by
  simp only [pooled, scatter_append_ne S x ha, scatter_append_ne S x hb, size_append_ne S x ha, size_append_ne S x hb]

/-- The matrix `_D`: pooled mean scatters, zero on the diagonal. -/
noncomputable def entry (S : Stream d) (a b : ℤ) : XR := if a = b then 0 else .fin (pooled S a b)

/-- The object after the samples `S`. -/
structure Rep (S : Stream d) (s : Core) : Prop extends RepMu S s where
  D : s.D = sqMat (keys S) (entry S)

theorem start {S : Stream d} {s : Core} (x : Pt d) (c : ℤ) (h : Start Core.init Rep S s) :
    s.nSamples = S.length ∧ ∃ s', setupOrMu setup (enc x) s = .ok () s' ∧ MidMu S x c s' ∧
      (keys S ≠ [] → s'.D = sqMat (keys S) (entry S)) := by
  rcases h with ⟨rfl, rfl⟩ | ⟨hne, h⟩
  · refine ⟨rfl, _, rfl, mid_of_init ?_ rfl rfl ?_ rfl ?_ rfl rfl, fun h => absurd rfl h⟩ <;> simp
  · obtain ⟨h1, h2⟩ := mid_of_mu (setupC := setup) hne x c h.toRepMu
    exact ⟨h.nSamples, _, h1, h2, fun _ => h.D⟩

theorem dist_rep {S : Stream d} {s : Core} {b b' : Bool} {ks : List ℤ} {a c : ℤ} (nv : RepNV b ks S s)
    (cp : RepCP b' ks S s) (x : Pt d) (ha : a ∈ ks) (hac : a ≠ c) :
    dist s (.fin (scatter (S ++ [(x, c)]) c)) (size (S ++ [(x, c)]) c) (ks.idxOf a) =
      .ok (.fin (pooled (S ++ [(x, c)]) c a)) := by
  have hp : ((size (S ++ [(x, c)]) c + size S a : ℕ) : ℝ) ≠ 0 := by
    rw [size_append_self]; positivity
  rw [dist, cp, attr, except_bind_ok, get_rep ha, except_bind_ok, nv.n, get_rep ha, except_bind_ok, XR.fin_add,
    XR.fin_div_of_ne _ hp, except_pure, pooled, scatter_append_ne S x hac, size_append_ne S x hac]
  push_cast
  rfl

theorem branch {S : Stream d} {s : Core} {x : Pt d} {c : ℤ} (h : MidMu S x c s)
    (hD : keys S ≠ [] → s.D = sqMat (keys S) (entry S)) :
    (if ((keys S).idxOf c : ℤ) > (s.nClusters : ℤ) - 1 then incNew (enc x) ((keys S).idxOf c)
      else incOld (enc x) ((keys S).idxOf c)) s =
      .ok () { tabled false (keys (S ++ [(x, c)])) (S ++ [(x, c)]) s with
        D := sqMat (keys (S ++ [(x, c)])) (entry (S ++ [(x, c)])) } := by
  rw [keys_append]
  by_cases hc : c ∈ keys S
  · rw [if_neg (by rw [isNew_iff h.nv.k]; simpa using hc), addKey_old hc, incOld]
    refine get_bind (lift_bind (oldStats_rep x (keysOf_keys S) hc h.nv h.cp h.g) ?_)
    refine lift_bind (a := (keys S).map fun a => if a = c then 0 else .fin (pooled (S ++ [(x, c)]) c a)) ?_ ?_
    · rw [h.nv.k]
      exact columnOld_keys (keys_nodup S) fun a ha hac => dist_rep h.nv h.cp x ha hac
    · rw [set_tables (x := x) (keysOf_keys S) hc h.nv h.cp h.g]
      refine setD_rep (keys_nodup S) hc (hD (List.ne_nil_of_mem hc)) ?_ ?_ ?_
      · intro a ha
        by_cases e : a = c
        · subst e; simp [entry]
        · simp [e, entry, Ne.symm e]
      · intro a ha
        by_cases e : a = c
        · subst e; simp [entry]
        · simp [e, entry, pooled_comm _ a c]
      · intro a _ b _ ha hb
        simp [entry, pooled_append_ne S x ha hb]
  · have hcl : c ∉ labels S := fun h => hc (mem_keys.mpr h)
    rw [if_pos (by rw [isNew_iff h.nv.k]; exact hc), addKey_new hc, incNew]
    refine get_bind (lift_bind (a := sqMat (keys S ++ [c]) (entry (S ++ [(x, c)]))) ?_ ?_)
    · rw [h.nv.k, List.idxOf_eq_length hc]
      refine distNew_sqMat (keys_nodup S) hc hD ?_ ?_ ?_ ?_
      · intro a ha
        have e : a ≠ c := fun e => hc (e ▸ ha)
        have := dist_rep h.nv h.cp x ha e
        rw [scatter_append_new S x hcl, size_append_new S x hcl] at this
        rw [XR.zero_def, this, entry, if_neg (Ne.symm e)]
      · intro a ha
        have e : a ≠ c := fun e => hc (e ▸ ha)
        rw [entry, entry, if_neg e, if_neg (Ne.symm e), pooled_comm]
      · simp [entry]
      · intro a ha b hb
        have ea : a ≠ c := fun e => hc (e ▸ ha)
        have eb : b ≠ c := fun e => hc (e ▸ hb)
        simp [entry, pooled_append_ne S x ea eb]
    · rw [append_tables (x := x) (keysOf_keys S) hc h.nv h.cp h.g]
      rfl

theorem step (S : Stream d) (s : Core) (x : Pt d) (c : ℤ) (h : Start GD53mod.init Rep S s) :
    ∃ s', incBody (enc x) ((keys S).idxOf c) s = .ok () s' ∧ Rep (S ++ [(x, c)]) s' := by
  obtain ⟨hn, s1, h1, hm, hD⟩ := start x c h
  refine ⟨_, get_bind (bind_ok_of h1 (get_bind (bind_ok_of (branch hm hD) rfl))), ?_⟩
  refine ⟨⟨⟨hm.nv.dim, rfl, rfl, rfl⟩, rfl, rfl, ?_, hm.mu, hm.isSetup⟩, rfl⟩
  simp [hn]

/-- The value computed from the tables. -/
theorem evaluate_tables {S : Stream d} {s : Core} {b : Bool} {ks : List ℤ} (hks : KeysOf ks S) (hkl : s.nClusters = ks.length)
    (hn : s.n = ⟨b, ks.map (size S)⟩) (cp : RepCP b ks S s) (hD : Upper ks (fun a b => .fin (pooled S a b)) s.D) :
    ∃ w g, evaluate s = .ok () { s with intra := w, inter := g, criterion := Spec.GD53 S } := by
  rw [evaluate, bind_apply, get_apply, Res.bind_ok]
  have hk := hks.length
  have hk' := hk
  rw [← hkl] at hk
  by_cases h : s.nClusters > 1
  · refine ⟨.fin (2 * sSup {r | ∃ c ∈ labels S, r = meanScatter S c}),
      .fin (sInf (pairValues S fun a b => pooled S a b)), ?_⟩
    rw [if_pos h]
    refine lift_bind (a := ⟨b, ks.map fun c => XR.fin (scatter S c)⟩) (by rw [cp]; rfl) ?_
    refine lift_bind (by rw [hn]; exact GD43.maxScatter_rep hks (by rintro rfl; simp at hk'; omega)) ?_
    refine modify_bind (lift_bind (by rw [hkl]; exact GD43.minUpper_rep hks (by omega) (pooled_comm S) hD) ?_)
    rw [modify_apply, Spec.GD53, if_neg (by omega)]
    simp only [XR.fin_mul]
    rw [ratio_eq (sInf_pairValues_nonneg S (g := fun a b => pooled S a b) (pooled_nonneg S))]
    rfl
  · refine ⟨s.intra, s.inter, ?_⟩
    rw [if_neg h, modify_apply, Spec.GD53, if_pos (by omega)]

theorem evaluate_rep {S : Stream d} {s : Core} {b : Bool} {ks : List ℤ} (hks : KeysOf ks S) (nv : RepNV b ks S s)
    (cp : RepCP b ks S s) (hD : Upper ks (fun a b => .fin (pooled S a b)) s.D) :
    ∃ w g, evaluate s = .ok () { s with intra := w, inter := g, criterion := Spec.GD53 S } := evaluate_tables hks nv.k nv.n cp hD

theorem refines : Refines GD53mod (Rep (d := d)) Spec.GD53 where
  concrete := rfl
  step := step
  eval S s _ h := by
    obtain ⟨w, g, e⟩ := evaluate_rep (keysOf_keys S) h.nv h.cp (Upper.congr (keys_nodup S) (h.D ▸ upper_sqMat _ _)
      fun a _ b _ hab => by simp [entry, hab])
    exact ⟨_, e, rfl, ⟨⟨⟨h.nv.dim, h.nv.k, h.nv.n, h.nv.v⟩, h.cp, h.g, h.nSamples, h.mu, h.isSetup⟩, h.D⟩⟩

end Verif.GD53
