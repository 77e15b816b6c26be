import Verif.Proofs.Run
import Verif.SpecDegenerate

/-!
# Facts about the specification: signs, degenerate cases, conservation of scatter
-/

namespace Verif
open Spec

variable {d : ℕ}

/-! ## Sums over all samples -/

theorem sum_by_label (S : Stream d) (f : Pt d → ℝ) :
    (S.map fun p => f p.1).sum = ∑ c ∈ labels S, ((cluster S c).map f).sum := by
  suffices h : ∀ K : Finset ℤ, labels S ⊆ K → (S.map fun p => f p.1).sum = ∑ c ∈ K, ((cluster S c).map f).sum from
    h _ (Finset.Subset.refl _)
  intro K
  induction S with
  | nil => intro _; simp [cluster]
  | cons p S ih =>
    intro hK
    have hp : p.2 ∈ K := hK (by simp [labels])
    have hS : labels S ⊆ K := fun c hc => hK (by
      rw [labels, List.mem_toFinset] at hc ⊢; simp only [List.map_cons, List.mem_cons]; exact .inr hc)
    rw [List.map_cons, List.sum_cons, ih hS]
    have e : ∀ c, ((cluster (p :: S) c).map f).sum = (if p.2 = c then f p.1 else 0) + ((cluster S c).map f).sum := by
      intro c
      by_cases h : p.2 = c <;> simp [cluster, h]
    simp only [e, Finset.sum_add_distrib, Finset.sum_ite_eq, if_pos hp]

theorem length_by_label (S : Stream d) : (S.length : ℝ) = ∑ c ∈ labels S, (size S c : ℝ) := by
  have := sum_by_label S fun _ => 1
  simpa [size] using this

theorem scatter_conserved (S : Stream d) : WGSS S + BGSS S = totalScatter S := by
  rw [totalScatter, sum_by_label S fun p => dist2 p (mean S), WGSS, BGSS, ← Finset.sum_add_distrib]
  exact Finset.sum_congr rfl fun c hc => (sum_dist2_cluster hc _).symm

theorem sum_cluster {S : Stream d} {c : ℤ} (hc : c ∈ labels S) (i : Fin d) :
    ((cluster S c).map fun p => p i).sum = size S c * centroid S c i := by
  have := (size_pos_real hc).ne'
  rw [centroid, meanOf, size]
  rw [size] at this
  field_simp

theorem mean_weighted {S : Stream d} (i : Fin d) :
    mean S i = (∑ c ∈ labels S, size S c * centroid S c i) / S.length := by
  rw [mean, meanOf, List.map_map, List.length_map]
  congr 1
  have := sum_by_label S fun p => p i
  simp only [Function.comp_def]
  rw [this]
  exact Finset.sum_congr rfl fun c hc => sum_cluster hc i

/-! ## Equal centroids -/

theorem ne_nil_of_two {S : Stream d} (hk : 2 ≤ numClusters S) : S ≠ [] := by
  rintro rfl; simp [numClusters, labels] at hk

theorem BGSS_eq_zero {S : Stream d} : BGSS S = 0 ↔ ¬ CentroidsDiffer S := by
  have h0 : BGSS S = 0 ↔ ∀ c ∈ labels S, centroid S c = mean S := by
    rw [BGSS, Finset.sum_eq_zero_iff_of_nonneg fun c _ => mul_nonneg (Nat.cast_nonneg _) (dist2_nonneg _ _)]
    refine forall₂_congr fun c hc => ?_
    rw [mul_eq_zero, or_iff_right (size_pos_real hc).ne', dist2_eq_zero]
  rw [h0]
  constructor
  · rintro h ⟨a, ha, b, hb, hab⟩
    exact hab (by rw [h a ha, h b hb])
  · intro h c hc
    have he : ∀ b ∈ labels S, centroid S b = centroid S c := by
      intro b hb; by_contra hne; exact h ⟨b, hb, c, hc, hne⟩
    have hS : S ≠ [] := by rintro rfl; simp [labels] at hc
    have hn : (S.length : ℝ) ≠ 0 := by
      have := List.length_pos_iff.2 hS; positivity
    funext i
    rw [mean_weighted, Finset.sum_congr rfl fun b hb => by rw [he b hb], ← Finset.sum_mul, ← length_by_label,
      mul_div_cancel_left₀ _ hn]

theorem beta_eq_zero {S : Stream d} (hk : 2 ≤ numClusters S) : beta S = 0 ↔ ¬ CentroidsDiffer S := by
  have hkr : (numClusters S : ℝ) ≠ 0 := by
    have : 0 < numClusters S := by omega
    positivity
  have h0 : beta S = 0 ↔ ∀ c ∈ labels S, centroid S c = centroidMean S := by
    rw [beta, div_eq_zero_iff, or_iff_left hkr, Finset.sum_eq_zero_iff_of_nonneg fun c _ => dist2_nonneg _ _]
    exact forall₂_congr fun c hc => dist2_eq_zero
  rw [h0]
  constructor
  · rintro h ⟨a, ha, b, hb, hab⟩
    exact hab (by rw [h a ha, h b hb])
  · intro h c hc
    have he : ∀ b ∈ labels S, centroid S b = centroid S c := by
      intro b hb; by_contra hne; exact h ⟨b, hb, c, hc, hne⟩
    funext i
    rw [centroidMean, Finset.sum_congr rfl fun b hb => by rw [he b hb], Finset.sum_const, nsmul_eq_mul,
      show ((labels S).card : ℝ) = numClusters S from rfl, mul_div_cancel_left₀ _ hkr]

theorem beta_nonneg (S : Stream d) : 0 ≤ beta S :=
  div_nonneg (Finset.sum_nonneg fun _ _ => dist2_nonneg _ _) (Nat.cast_nonneg _)

theorem sep_eq_zero {S : Stream d} {a b : ℤ} : sep S a b = 0 ↔ centroid S a = centroid S b := dist2_eq_zero

theorem sInf_pairs_eq_zero {S : Stream d} (hk : 2 ≤ numClusters S) {g : ℤ → ℤ → ℝ} (hg : ∀ a b, 0 ≤ g a b) :
    sInf (pairValues S g) = 0 ↔ ∃ a ∈ labels S, ∃ b ∈ labels S, a ≠ b ∧ g a b = 0 := by
  constructor
  · intro h
    have hm := (pairValues_nonempty (show 1 < numClusters S by omega) g).csInf_mem (pairValues_finite S g)
    rw [h] at hm
    obtain ⟨a, ha, b, hb, hab, he⟩ := hm
    exact ⟨a, ha, b, hb, hab, he.symm⟩
  · rintro ⟨a, ha, b, hb, hab, he⟩
    refine le_antisymm ?_ (sInf_pairValues_nonneg S hg)
    exact csInf_le (pairValues_finite S g).bddBelow ⟨a, ha, b, hb, hab, he.symm⟩

/-- The largest mean scatter. -/
noncomputable def worstScatter (S : Stream d) : ℝ := sSup {r | ∃ c ∈ labels S, r = meanScatter S c}

theorem labelValues_finite (S : Stream d) (g : ℤ → ℝ) : {r | ∃ c ∈ labels S, r = g c}.Finite := by
  apply Set.Finite.subset ((labels S).image g).finite_toSet
  rintro r ⟨b, hb, rfl⟩
  simp only [Finset.coe_image, Set.mem_image, Finset.mem_coe]
  exact ⟨b, hb, rfl⟩

theorem worstScatter_nonneg (S : Stream d) : 0 ≤ worstScatter S := by
  apply Real.sSup_nonneg
  rintro r ⟨c, _, rfl⟩
  exact meanScatter_nonneg S c

theorem meanScatter_eq_zero {S : Stream d} {c : ℤ} (hc : c ∈ labels S) : meanScatter S c = 0 ↔ scatter S c = 0 := by
  rw [meanScatter, div_eq_zero_iff, or_iff_left (size_pos_real hc).ne']

theorem worstScatter_eq_zero (S : Stream d) : worstScatter S = 0 ↔ ∀ c ∈ labels S, scatter S c = 0 := by
  constructor
  · intro h c hc
    have : meanScatter S c ≤ worstScatter S := le_csSup (labelValues_finite S _).bddAbove ⟨c, hc, rfl⟩
    exact (meanScatter_eq_zero hc).1 (le_antisymm (h ▸ this) (meanScatter_nonneg S c))
  · intro h
    refine le_antisymm (Real.sSup_le ?_ le_rfl) (worstScatter_nonneg S)
    rintro r ⟨c, hc, rfl⟩
    exact ((meanScatter_eq_zero hc).2 (h c hc)).le

theorem WGSS_eq_zero (S : Stream d) : WGSS S = 0 ↔ ∀ c ∈ labels S, scatter S c = 0 := by
  rw [WGSS, Finset.sum_eq_zero_iff_of_nonneg fun c _ => scatter_nonneg S c]

/-- A cluster has no scatter when all its points are equal. -/
theorem scatter_eq_zero {S : Stream d} {c : ℤ} (hc : c ∈ labels S) :
    scatter S c = 0 ↔ ∀ x y, (x, c) ∈ S → (y, c) ∈ S → x = y := by
  have hmem : ∀ x, x ∈ cluster S c ↔ (x, c) ∈ S := by
    intro x
    simp only [cluster, List.mem_map, List.mem_filter, decide_eq_true_eq, Prod.exists, exists_and_right, exists_eq_right]
  have h0 : scatter S c = 0 ↔ ∀ x ∈ cluster S c, x = centroid S c := by
    rw [scatter]
    constructor
    · intro h x hx
      have hn : ∀ r ∈ (cluster S c).map fun p => dist2 p (centroid S c), 0 ≤ r := by
        intro r hr
        obtain ⟨p, _, rfl⟩ := List.mem_map.1 hr
        exact dist2_nonneg _ _
      have := List.all_zero_of_le_zero_le_of_sum_eq_zero hn h (List.mem_map.2 ⟨x, hx, rfl⟩)
      exact dist2_eq_zero.1 this
    · intro h
      apply List.sum_eq_zero
      intro r hr
      obtain ⟨p, hp, rfl⟩ := List.mem_map.1 hr
      rw [h p hp, dist2_self]
  rw [h0]
  constructor
  · intro h x y hx hy
    rw [h x ((hmem x).2 hx), h y ((hmem y).2 hy)]
  · intro h x hx
    funext i
    have hall : ∀ y ∈ cluster S c, y i = x i := fun y hy => by
      rw [h y x ((hmem y).1 hy) ((hmem x).1 hx)]
    have hs := sum_cluster hc i
    have h1 : ((cluster S c).map fun p => p i).sum = size S c * x i := by
      rw [List.map_congr_left hall]
      simp [size]
    rw [h1] at hs
    exact mul_left_cancel₀ (size_pos_real hc).ne' hs

/-! ## Values -/

theorem actual_one (I : Index) {S : Stream d} (h : numClusters S ≤ 1) : I.actual S = .fin 0 := by
  cases I
  · exact if_pos h
  · exact if_pos h
  · exact if_pos h
  · exact if_pos h
  · exact if_pos h
  · exact if_pos h
  · exact if_pos h
  · show Spec.rCIP S = _
    rw [Spec.rCIP]
    congr 1
    refine Finset.sum_eq_zero fun a ha => Finset.sum_eq_zero fun b hb => ?_
    rw [Finset.mem_filter] at hb
    exact absurd (Finset.card_le_one.1 h a ha b hb.1) hb.2.ne
  · exact if_pos h

theorem not_isNeg_ratio {a b : ℝ} (ha : 0 ≤ a) (hb : 0 ≤ b) : ¬ (ratio a b).IsNeg := by
  unfold ratio
  split
  · exact not_lt.2 (div_nonneg ha hb)
  · split <;> exact id

theorem not_isNeg_ite {c : Prop} [Decidable c] {x y : XR} (hx : c → ¬ x.IsNeg) (hy : ¬ c → ¬ y.IsNeg) :
    ¬ (if c then x else y).IsNeg := by
  split
  · exact hx ‹_›
  · exact hy ‹_›

theorem not_isNeg_fin {a : ℝ} (h : 0 ≤ a) : ¬ (XR.fin a).IsNeg := not_lt.2 h

theorem cip_pos (S : Stream d) (a b : ℤ) : 0 < cip S a b := by
  rw [cip, gauss]
  have h1 : (0 : ℝ) < Real.sqrt ((2 * Real.pi) ^ d) := Real.sqrt_pos.2 (by positivity)
  have h2 : 0 < Real.sqrt (regCov S a + regCov S b).det := Real.sqrt_pos.2 (pair_det_pos S a b)
  positivity

theorem value_not_neg {I : Index} (h1 : I ≠ .PS) (h2 : I ≠ .cSIL) (S : Stream d) : ¬ (Spec.value I S).IsNeg := by
  have hle := numClusters_le S
  cases I
  · refine not_isNeg_ite (fun _ => not_isNeg_fin le_rfl) fun hk => not_isNeg_ite (fun _ => not_isNeg_fin ?_) fun _ =>
      not_isNeg_ite (fun _ => id) fun _ => id
    have h3 : (0 : ℝ) ≤ (S.length : ℝ) - numClusters S := by
      have : (numClusters S : ℝ) ≤ S.length := by exact_mod_cast hle
      linarith
    have h4 : (0 : ℝ) ≤ (numClusters S : ℝ) - 1 := by
      have : (1 : ℝ) ≤ numClusters S := by exact_mod_cast (by omega : 1 ≤ numClusters S)
      linarith
    exact mul_nonneg (div_nonneg (BGSS_nonneg S) (WGSS_nonneg S)) (div_nonneg h3 h4)
  · refine not_isNeg_ite (fun _ => not_isNeg_fin le_rfl) fun hk => not_isNeg_ite (fun _ => not_isNeg_fin ?_) fun _ =>
      not_isNeg_ite (fun _ => id) fun _ => id
    exact mul_nonneg (div_nonneg (WGSS_nonneg S) (BGSS_nonneg S)) (Nat.cast_nonneg _)
  · refine not_isNeg_ite (fun _ => not_isNeg_fin le_rfl) fun hk => not_isNeg_ratio (WGSS_nonneg S) ?_
    exact mul_nonneg (Nat.cast_nonneg _) (sInf_pairValues_nonneg S (sep_nonneg S))
  · refine not_isNeg_ite (fun _ => not_isNeg_fin le_rfl) fun hk => not_isNeg_ite (fun _ => id) fun _ =>
      not_isNeg_ite (fun _ => id) fun _ => not_isNeg_fin ?_
    refine div_nonneg (Finset.sum_nonneg fun c _ => Real.sSup_nonneg ?_) (Nat.cast_nonneg _)
    rintro r ⟨b, _, _, rfl⟩
    exact div_nonneg (add_nonneg (meanScatter_nonneg _ _) (meanScatter_nonneg _ _)) (sep_nonneg _ _ _)
  · refine not_isNeg_ite (fun _ => not_isNeg_fin le_rfl) fun hk => not_isNeg_ratio ?_ ?_
    · exact sInf_pairValues_nonneg S fun _ _ => Real.sqrt_nonneg _
    · exact mul_nonneg two_pos.le (worstScatter_nonneg S)
  · refine not_isNeg_ite (fun _ => not_isNeg_fin le_rfl) fun hk => not_isNeg_ratio ?_ ?_
    · exact sInf_pairValues_nonneg S fun _ _ => div_nonneg (add_nonneg (scatter_nonneg _ _) (scatter_nonneg _ _))
        (add_nonneg (Nat.cast_nonneg _) (Nat.cast_nonneg _))
    · exact mul_nonneg two_pos.le (worstScatter_nonneg S)
  · exact absurd rfl h1
  · exact not_isNeg_fin (Finset.sum_nonneg fun a _ => Finset.sum_nonneg fun b _ => (cip_pos S a b).le)
  · exact absurd rfl h2

theorem rCIP_pos {S : Stream d} (hk : 2 ≤ numClusters S) : ∃ v, 0 < v ∧ Spec.rCIP S = .fin v := by
  refine ⟨_, ?_, rfl⟩
  obtain ⟨a, ha, b, hb, hab⟩ := Finset.one_lt_card.1 (show 1 < (labels S).card from hk)
  have key : ∀ a ∈ labels S, ∀ b ∈ labels S, a < b →
      0 < ∑ a ∈ labels S, ∑ b ∈ (labels S).filter (fun b => a < b), cip S a b := by
    intro a ha b hb hab
    refine Finset.sum_pos' (fun a _ => Finset.sum_nonneg fun b _ => (cip_pos S a b).le) ⟨a, ha, ?_⟩
    exact Finset.sum_pos (fun b _ => cip_pos S a b) ⟨b, Finset.mem_filter.2 ⟨hb, hab⟩⟩
  rcases lt_or_gt_of_ne hab with h | h
  · exact key a ha b hb h
  · exact key b hb a ha h

theorem isFin_ratio {a b : ℝ} : (ratio a b).IsFin ↔ b ≠ 0 := by
  unfold ratio
  by_cases hb : b = 0
  · rw [if_neg (by simpa using hb)]
    simp only [hb, ne_eq, not_true, iff_false]
    split <;> exact id
  · rw [if_pos hb]; simp [hb, XR.IsFin]

theorem some_scatter (S : Stream d) : (¬ ∀ c ∈ labels S, scatter S c = 0) ↔ ∃ x y c, (x, c) ∈ S ∧ (y, c) ∈ S ∧ x ≠ y := by
  constructor
  · intro h
    simp only [not_forall] at h
    obtain ⟨c, hc, hne⟩ := h
    rw [scatter_eq_zero hc] at hne
    simp only [not_forall] at hne
    obtain ⟨x, y, hx, hy, hxy⟩ := hne
    exact ⟨x, y, c, hx, hy, hxy⟩
  · rintro ⟨x, y, c, hx, hy, hxy⟩ h
    have hc : c ∈ labels S := mem_labels.2 ⟨x, hx⟩
    exact hxy ((scatter_eq_zero hc).1 (h c hc) x y hx hy)

theorem crossScatter_nonneg (S : Stream d) (a b : ℤ) : 0 ≤ crossScatter S a b := by
  refine div_nonneg (List.sum_nonneg ?_) (Nat.cast_nonneg _)
  intro r hr
  obtain ⟨p, _, rfl⟩ := List.mem_map.1 hr
  exact dist2_nonneg _ _

theorem silOther_eq_zero {S : Stream d} (hk : 2 ≤ numClusters S) (c : ℤ) :
    silOther S c = 0 ↔ ∃ b ∈ labels S, b ≠ c ∧ crossScatter S b c = 0 := by
  constructor
  · intro h
    have hm := (otherValues_nonempty (show 1 < numClusters S by omega) c fun b => crossScatter S b c).csInf_mem
      (otherValues_finite S c _)
    rw [show sInf (otherValues S c fun b => crossScatter S b c) = 0 from h] at hm
    obtain ⟨b, hb, hbc, he⟩ := hm
    exact ⟨b, hb, hbc, he.symm⟩
  · rintro ⟨b, hb, hbc, he⟩
    refine le_antisymm ?_ (sInf_otherValues_nonneg S c fun b => crossScatter_nonneg S b c)
    exact csInf_le (otherValues_finite S c _).bddBelow ⟨b, hb, hbc, he.symm⟩

theorem isFin_ite_fin {c : Prop} [Decidable c] {a : ℝ} {y : XR} (hy : ¬ y.IsFin) : (if c then XR.fin a else y).IsFin ↔ c := by
  split
  · simp [XR.IsFin, *]
  · simp [*]

theorem value_isFin {I : Index} {S : Stream d} (hk : 2 ≤ numClusters S) : (Spec.value I S).IsFin ↔ NonDegenerate I S := by
  have hk' : ¬ numClusters S ≤ 1 := by omega
  have hdist : (∃ a ∈ labels S, ∃ b ∈ labels S, a ≠ b ∧ sep S a b = 0) ↔ ¬ CentroidsDistinct S := by
    simp only [CentroidsDistinct, sep_eq_zero, not_forall, not_not, exists_prop]
  cases I
  · show (Spec.CH S).IsFin ↔ _
    rw [Spec.CH, if_neg hk', isFin_ite_fin (by split <;> exact id), NonDegenerate, ← some_scatter, Ne, WGSS_eq_zero]
  · show (Spec.WB S).IsFin ↔ _
    rw [Spec.WB, if_neg hk', isFin_ite_fin (by split <;> exact id), NonDegenerate, Ne, BGSS_eq_zero, not_not]
  · show (Spec.XB S).IsFin ↔ _
    have hn : (S.length : ℝ) ≠ 0 := by
      have := List.length_pos_iff.2 (ne_nil_of_two hk); positivity
    rw [Spec.XB, if_neg hk', isFin_ratio, Ne, mul_eq_zero, or_iff_right hn, sInf_pairs_eq_zero hk (sep_nonneg S), hdist,
      not_not]
    rfl
  · show (Spec.DB S).IsFin ↔ _
    rw [Spec.DB, if_neg hk']
    by_cases h : CentroidsDistinct S
    · have h2 : ¬ ∃ a ∈ labels S, ∃ b ∈ labels S, a ≠ b ∧ sep S a b = 0 := by rw [hdist]; exact not_not.2 h
      have h1 : ¬ ∃ a ∈ labels S, ∃ b ∈ labels S, a ≠ b ∧ sep S a b = 0 ∧ meanScatter S a + meanScatter S b = 0 := by
        rintro ⟨a, ha, b, hb, hab, hs, _⟩; exact h2 ⟨a, ha, b, hb, hab, hs⟩
      rw [if_neg h1, if_neg h2]
      exact iff_of_true trivial h
    · have h2 := hdist.2 h
      refine iff_of_false ?_ h
      split
      · exact id
      · exact id
  · show (Spec.GD43 S).IsFin ↔ _
    rw [Spec.GD43, if_neg hk', isFin_ratio, NonDegenerate, ← some_scatter, Ne, mul_eq_zero, or_iff_right two_ne_zero,
      ← worstScatter_eq_zero]
    rfl
  · show (Spec.GD53 S).IsFin ↔ _
    rw [Spec.GD53, if_neg hk', isFin_ratio, NonDegenerate, ← some_scatter, Ne, mul_eq_zero, or_iff_right two_ne_zero,
      ← worstScatter_eq_zero]
    rfl
  · show (Spec.PS S).IsFin ↔ _
    rw [Spec.PS, if_neg hk', NonDegenerate]
    by_cases h : CentroidsDiffer S
    · rw [if_neg (by rw [beta_eq_zero hk]; exact not_not.2 h)]; exact iff_of_true trivial h
    · rw [if_pos ((beta_eq_zero hk).2 h)]; exact iff_of_false id h
  · exact iff_of_true trivial trivial
  · show (Spec.cSIL S).IsFin ↔ _
    rw [Spec.cSIL, if_neg hk', NonDegenerate]
    by_cases h0 : ∀ a ∈ labels S, ∀ b ∈ labels S, crossScatter S a b = 0
    · rw [if_pos h0]; exact iff_of_true trivial (.inl h0)
    · rw [if_neg h0, or_iff_right h0]
      by_cases h1 : ∃ c ∈ labels S, crossScatter S c c = 0 ∧ silOther S c = 0
      · rw [if_pos h1]
        refine iff_of_false id ?_
        obtain ⟨c, hc, h2, h3⟩ := h1
        obtain ⟨b, hb, hbc, he⟩ := (silOther_eq_zero hk c).1 h3
        intro h
        rcases h c hc with h | h
        · exact h h2
        · exact h b hb hbc he
      · rw [if_neg h1]
        refine iff_of_true trivial ?_
        intro c hc
        by_contra hcon
        rw [not_or, not_not] at hcon
        obtain ⟨h2, h3⟩ := hcon
        simp only [not_forall, not_not] at h3
        obtain ⟨b, hb, hbc, he⟩ := h3
        exact h1 ⟨c, hc, h2, (silOther_eq_zero hk c).2 ⟨b, hb, hbc, he⟩⟩

/-! ## PS and cSIL ranges -/

theorem PS_range {S : Stream d} (hk : 2 ≤ numClusters S) (h : CentroidsDiffer S) :
    ∃ v, Spec.PS S = .fin v ∧ -(numClusters S : ℝ) < v ∧ v < numClusters S := by
  have hb : beta S ≠ 0 := by rw [Ne, beta_eq_zero hk]; exact not_not.2 h
  have hbp : 0 < beta S := lt_of_le_of_ne (beta_nonneg S) (Ne.symm hb)
  refine ⟨_, by rw [Spec.PS, if_neg (by omega), if_neg hb], ?_, ?_⟩
  · have hcard : (numClusters S : ℝ) = ∑ c ∈ labels S, (1 : ℝ) := by simp [numClusters]
    have hne : (labels S).Nonempty := Finset.card_pos.1 (by unfold numClusters at hk; omega)
    rw [hcard, ← Finset.sum_neg_distrib]
    refine Finset.sum_lt_sum_of_nonempty hne fun c hc => ?_
    have h1 : 0 < (size S c : ℝ) / maxSize S := by
      have hm : size S c ≤ maxSize S := Finset.le_sup (f := size S) hc
      have : 0 < maxSize S := lt_of_lt_of_le (size_pos hc) hm
      have h2 := size_pos_real hc
      positivity
    have h2 : Real.exp (-sInf (otherValues S c fun b => sep S c b) / beta S) ≤ 1 := by
      apply Real.exp_le_one_iff.2
      apply div_nonpos_of_nonpos_of_nonneg _ hbp.le
      exact neg_nonpos.2 (sInf_otherValues_nonneg S c fun b => sep_nonneg S c b)
    linarith
  · have hcard : (numClusters S : ℝ) = ∑ c ∈ labels S, (1 : ℝ) := by simp [numClusters]
    have hne : (labels S).Nonempty := Finset.card_pos.1 (by unfold numClusters at hk; omega)
    rw [hcard]
    refine Finset.sum_lt_sum_of_nonempty hne fun c hc => ?_
    have hm : size S c ≤ maxSize S := Finset.le_sup (f := size S) hc
    have h1 : (size S c : ℝ) / maxSize S ≤ 1 := div_le_one_of_le₀ (by exact_mod_cast hm) (Nat.cast_nonneg _)
    have h2 := Real.exp_pos (-sInf (otherValues S c fun b => sep S c b) / beta S)
    linarith

theorem sil_range {a b : ℝ} (ha : 0 ≤ a) (hb : 0 ≤ b) : |(b - a) / max a b| ≤ 1 := by
  rw [abs_div, abs_of_nonneg (le_max_of_le_left ha)]
  apply div_le_one_of_le₀ _ (le_max_of_le_left ha)
  rw [abs_le]
  constructor
  · have := le_max_left a b; linarith
  · have := le_max_right a b; linarith

theorem cSIL_range (S : Stream d) (v : ℝ) (h : Spec.cSIL S = .fin v) : -1 ≤ v ∧ v ≤ 1 := by
  rw [Spec.cSIL] at h
  split at h
  · rw [XR.fin_inj] at h; subst h; norm_num
  · rename_i hk
    split at h
    · rw [XR.fin_inj] at h; subst h; norm_num
    · split at h
      · cases h
      · rw [XR.fin_inj] at h
        subst h
        rw [← abs_le]
        have hkp : (0 : ℝ) < numClusters S := by exact_mod_cast (by omega : 0 < numClusters S)
        rw [abs_div, abs_of_pos hkp, div_le_one hkp]
        refine (Finset.abs_sum_le_sum_abs _ _).trans ?_
        refine (Finset.sum_le_sum fun c _ => sil_range (crossScatter_nonneg S c c)
          (sInf_otherValues_nonneg S c fun b => crossScatter_nonneg S b c)).trans ?_
        simp [numClusters]

end Verif
