import Verif.Proofs.Sim
import Verif.Proofs.Extrema
import Verif.Model.PS

/-! # PS refines its specification -/

namespace Verif.PS
open Spec Py Verif

variable {d : ℕ}

/-- The object after the samples `S`. -/
structure Rep (S : Stream d) (s : Core) : Prop where
  nv : RepNV false (keys S) S s
  D : s.D = sqMat (keys S) fun a b => .fin (sep S a b)
  nSamples : s.nSamples = S.length
  isSetup : s.isSetup = true

/-- The object when the branch on label novelty is reached. -/
structure Mid (S : Stream d) (s : Core) : Prop where
  nv : RepNV false (keys S) S s
  D : keys S ≠ [] → s.D = sqMat (keys S) fun a b => .fin (sep S a b)
  isSetup : s.isSetup = true

theorem start {S : Stream d} {s : Core} (x : Pt d) (h : Start Core.init Rep S s) :
    s.nSamples = S.length ∧ ∃ s', setupIfFirst setup (enc x) s = .ok () s' ∧ Mid S s' := by
  rcases h with ⟨rfl, rfl⟩ | ⟨hne, h⟩
  · refine ⟨rfl, _, rfl, ⟨?_, rfl, rfl, ?_⟩, fun h => absurd rfl h, rfl⟩ <;> simp; rfl
  · have hl : s.nSamples ≠ 0 := by rw [h.nSamples]; simpa using hne
    refine ⟨h.nSamples, s, ?_, h.nv, fun _ => h.D, h.isSetup⟩
    rw [setupIfFirst]
    apply get_bind
    rw [if_neg hl, pure_apply]

/-- The state after the branch. -/
noncomputable def tabledD (ks : List ℤ) (S : Stream d) (s : Core) : Core :=
  { s with
    nClusters := ks.length
    n := ⟨false, ks.map (size S)⟩
    v := ⟨d, ks.map fun c => enc (centroid S c)⟩
    D := sqMat ks fun a b => .fin (sep S a b) }

theorem dist_rep {S : Stream d} {s : Core} {b : Bool} {ks : List ℤ} {a : ℤ} (nv : RepNV b ks S s) (w : Pt d)
    (ha : a ∈ ks) : dist s (enc w) (ks.idxOf a) = .ok (.fin (dist2 w (centroid S a))) := by
  simp only [dist, nv.v, row_rep ha, except_bind_ok, sqDist_enc]

theorem branch {S : Stream d} {s : Core} {x : Pt d} {c : ℤ} (h : Mid S s) :
    (if ((keys S).idxOf c : ℤ) > (s.nClusters : ℤ) - 1 then incNew (enc x) ((keys S).idxOf c)
      else incOld (enc x) ((keys S).idxOf c)) s =
      .ok () (tabledD (keys (S ++ [(x, c)])) (S ++ [(x, c)]) s) := by
  rw [keys_append]
  by_cases hc : c ∈ keys S
  · rw [if_neg (by rw [isNew_iff h.nv.k]; simpa using hc), addKey_old hc, incOld]
    refine get_bind (lift_bind (by rw [h.nv.n]; exact get_rep hc) (lift_bind (by rw [h.nv.v]; exact row_rep hc)
      (lift_bind (centroid_step S x c) ?_)))
    refine lift_bind (a := (keys S).map fun a => if a = c then 0 else
      .fin (dist2 (centroid (S ++ [(x, c)]) c) (centroid S a))) ?_ ?_
    · rw [h.nv.k]
      exact columnOld_keys (keys_nodup S) fun a ha _ => dist_rep h.nv _ ha
    · refine bind_ok_of (setN_rep (keys_nodup S) hc h.nv.n (f' := size (S ++ [(x, c)])) (size_append_self S x c).symm
        fun a _ ha => size_append_ne S x ha) ?_
      refine bind_ok_of (setV_rep (keys_nodup S) hc h.nv.v (f' := fun a => enc (centroid (S ++ [(x, c)]) a))
        rfl (by simp) fun a _ ha => by rw [centroid_append_ne S x ha]) ?_
      have := setD_rep (s := { s with
          n := ⟨false, (keys S).map (size (S ++ [(x, c)]))⟩
          v := ⟨d, (keys S).map fun a => enc (centroid (S ++ [(x, c)]) a)⟩ })
        (g' := fun a b => .fin (sep (S ++ [(x, c)]) a b))
        (r := fun a => if a = c then 0 else .fin (dist2 (centroid (S ++ [(x, c)]) c) (centroid S a)))
        (keys_nodup S) hc (h.D (List.ne_nil_of_mem hc)) ?_ ?_ ?_
      · rw [this]; simp [tabledD, ← h.nv.k]
      · intro a ha
        by_cases e : a = c
        · subst e; simp [sep, dist2_self, XR.zero_def]
        · simp [e, sep, centroid_append_ne S x e]
      · intro a ha
        by_cases e : a = c
        · subst e; simp [sep, dist2_self, XR.zero_def]
        · simp [e, sep, centroid_append_ne S x e, dist2_comm]
      · intro a _ b _ ha hb
        simp [sep, centroid_append_ne S x ha, centroid_append_ne S x hb]
  · have hcl : c ∉ labels S := fun h => hc (mem_keys.mpr h)
    rw [if_pos (by rw [isNew_iff h.nv.k]; exact hc), addKey_new hc, incNew]
    refine get_bind (lift_bind (a := sqMat (keys S ++ [c]) fun a b => .fin (sep (S ++ [(x, c)]) a b)) ?_ ?_)
    · rw [h.nv.k, List.idxOf_eq_length hc]
      refine distNew_sqMat (keys_nodup S) hc h.D ?_ ?_ ?_ ?_
      · intro a ha
        have e : a ≠ c := fun e => hc (e ▸ ha)
        rw [dist_rep h.nv _ ha, sep, centroid_append_new S x hcl, centroid_append_ne S x e]
      · intro a _; rw [sep_comm]
      · simp [sep, dist2_self, XR.zero_def]
      · intro a ha b hb
        have ea : a ≠ c := fun e => hc (e ▸ ha)
        have eb : b ≠ c := fun e => hc (e ▸ hb)
        simp [sep, centroid_append_ne S x ea, centroid_append_ne S x eb]
    · refine modify_bind ?_
      refine bind_ok_of (appendN_rep hc h.nv.n (f' := size (S ++ [(x, c)])) (size_append_new S x hcl).symm
        fun a _ ha => size_append_ne S x ha) ?_
      refine bind_ok_of (vstackV_rep hc h.nv.v (f' := fun a => enc (centroid (S ++ [(x, c)]) a))
        (by rw [centroid_append_new S x hcl]) (by simp) fun a _ ha => by rw [centroid_append_ne S x ha]) ?_
      simp [tabledD, h.nv.k]

theorem step (S : Stream d) (s : Core) (x : Pt d) (c : ℤ) (h : Start PSmod.init Rep S s) :
    ∃ s', incBody (enc x) ((keys S).idxOf c) s = .ok () s' ∧ Rep (S ++ [(x, c)]) s' := by
  obtain ⟨hn, s1, h1, hm⟩ := start x h
  refine ⟨_, get_bind (bind_ok_of h1 (get_bind (bind_ok_of (branch hm) rfl))), ?_⟩
  refine ⟨⟨hm.nv.dim, rfl, rfl, rfl⟩, rfl, ?_, hm.isSetup⟩
  simp [hn]

/-! ## Evaluation -/

theorem max_size {S : Stream d} {ks : List ℤ} (hks : KeysOf ks S) (hk : ks ≠ []) :
    (ks.map (size S)).max? = some (maxSize S) := by
  rw [List.max?_eq_some_iff]
  have hne : (labels S).Nonempty := by
    obtain ⟨c, hc⟩ := List.exists_mem_of_ne_nil ks hk
    exact ⟨c, (hks.mem c).mp hc⟩
  constructor
  · obtain ⟨c, hc, e⟩ := Finset.exists_mem_eq_sup (labels S) hne (size S)
    exact List.mem_map.mpr ⟨c, (hks.mem c).mpr hc, e.symm⟩
  · intro b hb
    obtain ⟨c, hc, rfl⟩ := List.mem_map.mp hb
    exact Finset.le_sup (f := size S) ((hks.mem c).mp hc)

theorem maxSize_pos {S : Stream d} (h : S ≠ []) : 0 < maxSize S := by
  obtain ⟨⟨x, c⟩, hc⟩ := List.exists_mem_of_ne_nil S h
  have hcl : c ∈ labels S := mem_labels.mpr ⟨x, hc⟩
  exact (size_pos hcl).trans_le (Finset.le_sup (f := size S) hcl)

theorem centroidMean_rep {S : Stream d} {ks : List ℤ} (hks : KeysOf ks S) (hk : ks ≠ []) :
    Arr2.mean0 ⟨d, ks.map fun c => enc (centroid S c)⟩ = enc (centroidMean S) := by
  have h := mean0_encRows (ks.map (centroid S)) (by simpa using hk)
  have e : encRows (ks.map (centroid S)) = ⟨d, ks.map fun c => enc (centroid S c)⟩ := by
    simp [encRows, Function.comp_def]
  rw [← e, h]
  apply enc_congr
  intro i
  have := hks.sum fun c => centroid S c i
  simp only [meanOf, centroidMean, List.map_map, List.length_map, hks.length, Function.comp_def, this]

/-- If the centroids have no spread they coincide. -/
theorem sep_of_beta {S : Stream d} (h : beta S = 0) {a b : ℤ} (ha : a ∈ labels S) (hb : b ∈ labels S) : sep S a b = 0 := by
  have hk : (numClusters S : ℝ) ≠ 0 := by
    have : 0 < numClusters S := Finset.card_pos.mpr ⟨a, ha⟩
    positivity
  rw [beta, div_eq_zero_iff] at h
  have h := h.resolve_right hk
  have h := (Finset.sum_eq_zero_iff_of_nonneg fun c _ => dist2_nonneg _ _).mp h
  have e1 := dist2_eq_zero.mp (h a ha)
  have e2 := dist2_eq_zero.mp (h b hb)
  rw [sep, e1, e2, dist2_self]

theorem beta_nonneg (S : Stream d) : 0 ≤ beta S :=
  div_nonneg (Finset.sum_nonneg fun _ _ => dist2_nonneg _ _) (Nat.cast_nonneg _)

/-- The term of cluster `c`. -/
noncomputable def term (S : Stream d) (c : ℤ) : XR :=
  if beta S = 0 then .nan
  else .fin ((size S c : ℝ) / maxSize S - Real.exp (-sInf (otherValues S c fun b => sep S c b) / beta S))

theorem psTerm_rep {S : Stream d} {s : Core} {b : Bool} {ks : List ℤ} (hks : KeysOf ks S) (hk : 1 < ks.length)
    (hS : S ≠ []) (hn : s.n = ⟨b, ks.map (size S)⟩) {g : ℤ → ℤ → XR} (hD : s.D = sqMat ks g)
    (hg : ∀ a ∈ ks, ∀ b ∈ ks, a ≠ b → g a b = .fin (sep S a b)) (hb : s.betaT = .fin (beta S)) {c : ℤ} (hc : c ∈ ks) :
    psTerm s (maxSize S) (ks.idxOf c) = .ok (term S c) := by
  have hm := maxSize_pos hS
  have hcl := (hks.mem c).mp hc
  have key := amin_delete hks hk hc (fun b => sep S c b) (g c) fun b hb hbc => hg c hc b hb (Ne.symm hbc)
  rw [Vec.delete, if_pos (by simpa using List.idxOf_lt_length_of_mem hc), except_bind_ok] at key
  have hdel : Vec.delete (ks.map (g c)) (ks.idxOf c) = .ok ((ks.map (g c)).eraseIdx (ks.idxOf c)) := by
    rw [Vec.delete, if_pos (by simpa using List.idxOf_lt_length_of_mem hc)]
  have hpy : pyDiv (size S c : ℕ) (maxSize S : ℕ) = .ok (.fin ((size S c : ℝ) / maxSize S)) := by
    rw [pyDiv, if_neg (by exact_mod_cast hm.ne')]; push_cast; rfl
  rw [psTerm, hD, sqMat_row hc, except_bind_ok, hdel, except_bind_ok, hn, get_rep hc, except_bind_ok, hpy, except_bind_ok,
    key, except_bind_ok, except_pure, hb, XR.fin_neg, XR.fin_div, term]
  by_cases h0 : beta S = 0
  · have : sInf (otherValues S c fun b => sep S c b) = 0 := by
      have hs : otherValues S c (fun b => sep S c b) = {0} := by
        ext r
        simp only [otherValues, Set.mem_ofPred_eq, Set.mem_singleton_iff]
        constructor
        · rintro ⟨b, hb, _, rfl⟩; exact sep_of_beta h0 hcl hb
        · rintro rfl
          obtain ⟨b, hb, hbc⟩ := exists_other hks.nodup hk c
          have hbl := (hks.mem b).mp hb
          exact ⟨b, hbl, hbc, (sep_of_beta h0 hcl hbl).symm⟩
      rw [hs, csInf_singleton]
    rw [if_pos h0, this, h0, neg_zero, XR.idiv_zero_zero, XR.exp_nan, XR.sub_nan]
  · rw [if_neg h0, XR.idiv_of_ne _ h0, XR.exp_fin, XR.fin_sub]

/-- The value computed from the tables. -/
theorem evaluate_rep {S : Stream d} {s : Core} {b : Bool} {ks : List ℤ} (hks : KeysOf ks S) (nv : RepNV b ks S s)
    {g : ℤ → ℤ → XR} (hD : s.D = sqMat ks g) (hg : ∀ a ∈ ks, ∀ b ∈ ks, a ≠ b → g a b = .fin (sep S a b)) :
    ∃ w t p, evaluate s = .ok () { s with vBar := w, betaT := t, PSi := p, criterion := Spec.PS S } := by
  rw [evaluate, bind_apply, get_apply, Res.bind_ok]
  have hk := hks.length
  have hk' := hk
  rw [← nv.k] at hk
  by_cases h : s.nClusters > 1
  · have hne : ks ≠ [] := by rintro rfl; simp at hk'; omega
    have hS : S ≠ [] := by
      rintro rfl
      obtain ⟨c, hc⟩ := List.exists_mem_of_ne_nil ks hne
      exact absurd ((hks.mem c).mp hc) (by simp [labels])
    have hk0 : (numClusters S : ℝ) ≠ 0 := by
      have : 0 < numClusters S := by omega
      positivity
    refine ⟨enc (centroidMean S), .fin (beta S), ks.map (term S), ?_⟩
    rw [if_pos h]
    refine modify_bind (get_bind (lift_bind (a := ks.map fun c => .fin (dist2 (centroid S c) (centroidMean S))) ?_ ?_))
    · simp only [nv.k]
      apply mapE_range_keys hks.nodup
      intro c hc
      simp only [devSq, nv.v, centroidMean_rep hks hne]
      rw [row_rep hc, except_bind_ok, sub_enc, except_bind_ok, inner_enc]
      simp only [dist2, pow_two]
    · have e1 : (ks.map fun c => XR.fin (dist2 (centroid S c) (centroidMean S))).sum / .fin (s.nClusters : ℝ) =
          .fin (beta S) := by
        rw [hks.sumX, hk, XR.fin_div_of_ne _ hk0, beta]
      refine modify_bind (get_bind ?_)
      simp only [e1, nv.n, max_size hks hne]
      refine lift_bind rfl (lift_bind (a := ks.map (term S)) ?_ ?_)
      · simp only [nv.k]
        apply mapE_range_keys hks.nodup
        intro c hc
        refine psTerm_rep (b := b) (g := g) hks (by omega) hS ?_ ?_ hg ?_ hc
        · rfl
        · exact hD
        · rfl
      · have e2 : (ks.map (term S)).sum = Spec.PS S := by
          rw [Spec.PS, if_neg (by omega)]
          by_cases h0 : beta S = 0
          · rw [if_pos h0]
            apply XR.sum_eq_nan
            obtain ⟨c, hc⟩ := List.exists_mem_of_ne_nil ks hne
            exact List.mem_map.mpr ⟨c, hc, if_pos h0⟩
          · rw [if_neg h0]
            have : ks.map (term S) = ks.map fun c => XR.fin ((size S c : ℝ) / maxSize S -
                Real.exp (-sInf (otherValues S c fun b => sep S c b) / beta S)) :=
              List.map_congr_left fun c _ => if_neg h0
            rw [this, hks.sumX]
        simp only [modify_apply, e2, nv.v, centroidMean_rep hks hne]
  · refine ⟨s.vBar, s.betaT, s.PSi, ?_⟩
    rw [if_neg h, modify_apply, Spec.PS, if_pos (by omega)]

theorem refines : Refines PSmod (Rep (d := d)) Spec.PS where
  concrete := rfl
  step := step
  eval S s _ h := by
    obtain ⟨w, t, p, e⟩ := evaluate_rep (keysOf_keys S) h.nv h.D fun _ _ _ _ _ => rfl
    exact ⟨_, e, rfl, ⟨⟨h.nv.dim, h.nv.k, h.nv.n, h.nv.v⟩, h.D, h.nSamples, h.isSetup⟩⟩

end Verif.PS
