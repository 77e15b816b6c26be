import Verif.Proofs.Degenerate
import Mathlib.Analysis.Matrix.Spectrum

/-! # Upper bounds of GD53 and rCIP; PS of two clusters -/

namespace Verif
open Spec

variable {d : ℕ}

/-! ## GD53 -/

theorem meanScatter_le_worst {S : Stream d} {c : ℤ} (hc : c ∈ labels S) : meanScatter S c ≤ worstScatter S :=
  le_csSup (labelValues_finite S _).bddAbove ⟨c, hc, rfl⟩

theorem scatter_le {S : Stream d} {c : ℤ} (hc : c ∈ labels S) : scatter S c ≤ size S c * worstScatter S := by
  have h := meanScatter_le_worst hc
  rw [meanScatter, div_le_iff₀ (size_pos_real hc)] at h
  linarith

theorem pooled_le {S : Stream d} (hk : 2 ≤ numClusters S) :
    sInf (pairValues S fun a b => (scatter S a + scatter S b) / ((size S a : ℝ) + size S b)) ≤ worstScatter S := by
  obtain ⟨a, ha, b, hb, hab⟩ := Finset.one_lt_card.1 (show 1 < (labels S).card from hk)
  have hbdd : BddBelow (pairValues S fun a b => (scatter S a + scatter S b) / ((size S a : ℝ) + size S b)) := by
    refine ⟨0, ?_⟩
    rintro r ⟨a, _, b, _, _, rfl⟩
    exact div_nonneg (add_nonneg (scatter_nonneg S a) (scatter_nonneg S b)) (by positivity)
  refine (csInf_le hbdd ⟨a, ha, b, hb, hab, rfl⟩).trans ?_
  · have h1 := size_pos_real ha
    have h2 := size_pos_real hb
    rw [div_le_iff₀ (by linarith)]
    have := scatter_le ha
    have := scatter_le hb
    linarith

theorem GD53_le (S : Stream d) (v : ℝ) (h : Spec.GD53 S = .fin v) : v ≤ 1 / 2 := by
  rw [Spec.GD53] at h
  split at h
  · rw [XR.fin_inj] at h; subst h; norm_num
  · rename_i hk
    rw [ratio] at h
    split at h
    · rename_i hw
      rw [XR.fin_inj] at h
      subst h
      have h0 : 0 ≤ worstScatter S := worstScatter_nonneg S
      have hw' : worstScatter S ≠ 0 := fun e => hw (by rw [show sSup _ = worstScatter S from rfl, e, mul_zero])
      have hp : 0 < worstScatter S := lt_of_le_of_ne h0 (Ne.symm hw')
      have := pooled_le (S := S) (by omega)
      rw [show sSup {r | ∃ c ∈ labels S, r = meanScatter S c} = worstScatter S from rfl, div_le_iff₀ (by linarith)]
      linarith
    · split at h <;> cases h

/-! ## rCIP -/

theorem shift_hermitian {P : Matrix (Fin d) (Fin d) ℝ} (hP : P.PosSemidef) (c : ℝ) :
    (P + c • (1 : Matrix (Fin d) (Fin d) ℝ)).IsHermitian := by
  refine hP.1.add ?_
  simp [Matrix.IsHermitian]

theorem eigenvalue_ge {P : Matrix (Fin d) (Fin d) ℝ} (hP : P.PosSemidef) {c : ℝ}
    (hM : (P + c • (1 : Matrix (Fin d) (Fin d) ℝ)).IsHermitian) (j : Fin d) : c ≤ hM.eigenvalues j := by
  have h1 := hM.mulVec_eigenvectorBasis j
  set v : Fin d → ℝ := ⇑(hM.eigenvectorBasis j)
  set μ := hM.eigenvalues j
  have h2 : P.mulVec v = (μ - c) • v := by
    rw [Matrix.add_mulVec, Matrix.smul_mulVec, Matrix.one_mulVec] at h1
    rw [sub_smul, ← h1]; simp
  have h3 := hP.dotProduct_mulVec_nonneg v
  rw [h2] at h3
  have h4 : 0 < dotProduct v v := by
    have hv : v ≠ 0 := by
      intro h0
      have := hM.eigenvectorBasis.orthonormal.ne_zero j
      apply this
      ext i
      exact congrFun h0 i
    refine lt_of_le_of_ne (Finset.sum_nonneg fun i _ => mul_self_nonneg _) (fun h => hv ?_)
    exact dotProduct_self_eq_zero.1 h.symm
  have h5 : star v = v := by ext; simp
  rw [h5, dotProduct_smul, smul_eq_mul] at h3
  have := nonneg_of_mul_nonneg_left h3 h4
  linarith

theorem det_ge {P : Matrix (Fin d) (Fin d) ℝ} (hP : P.PosSemidef) {c : ℝ} (hc : 0 ≤ c) : c ^ d ≤ (P + c • 1).det := by
  have hM := shift_hermitian hP c
  rw [hM.det_eq_prod_eigenvalues]
  have e : c ^ d = ∏ _i : Fin d, c := by simp
  rw [e]
  exact Finset.prod_le_prod (fun _ _ => hc) fun j _ => eigenvalue_ge hP hM j

/-- A large trace makes a large determinant. -/
theorem det_ge_trace {P : Matrix (Fin d) (Fin d) ℝ} (hP : P.PosSemidef) {c : ℝ} (hc : 0 ≤ c) :
    c ^ (d - 1) * P.trace ≤ d * (P + c • 1).det := by
  have hM := shift_hermitian hP c
  have h1 : ∀ j : Fin d, c ^ (d - 1) * hM.eigenvalues j ≤ (P + c • (1 : Matrix (Fin d) (Fin d) ℝ)).det := by
    intro j
    rw [hM.det_eq_prod_eigenvalues]
    have e : c ^ (d - 1) = ∏ _i ∈ (Finset.univ : Finset (Fin d)).erase j, c := by simp [Finset.card_erase_of_mem]
    rw [e, mul_comm]
    have : ∏ i, ((hM.eigenvalues i : ℝ)) = hM.eigenvalues j * ∏ i ∈ Finset.univ.erase j, hM.eigenvalues i :=
      (Finset.mul_prod_erase _ _ (Finset.mem_univ j)).symm
    change _ ≤ ∏ i, (hM.eigenvalues i : ℝ)
    rw [this]
    refine mul_le_mul_of_nonneg_left ?_ (hc.trans (eigenvalue_ge hP hM j))
    exact Finset.prod_le_prod (fun _ _ => hc) fun i _ => eigenvalue_ge hP hM i
  have h2 : (P + c • (1 : Matrix (Fin d) (Fin d) ℝ)).trace = ∑ j, hM.eigenvalues j := by
    have := hM.trace_eq_sum_eigenvalues
    simpa using this
  have h3 : P.trace ≤ ∑ j, hM.eigenvalues j := by
    rw [← h2, Matrix.trace_add, Matrix.trace_smul]
    have : 0 ≤ c • (1 : Matrix (Fin d) (Fin d) ℝ).trace := by simp; positivity
    linarith
  calc c ^ (d - 1) * P.trace ≤ c ^ (d - 1) * ∑ j, hM.eigenvalues j := mul_le_mul_of_nonneg_left h3 (by positivity)
    _ = ∑ j, c ^ (d - 1) * hM.eigenvalues j := by rw [Finset.mul_sum]
    _ ≤ ∑ _j : Fin d, (P + c • (1 : Matrix (Fin d) (Fin d) ℝ)).det := Finset.sum_le_sum fun j _ => h1 j
    _ = _ := by simp

theorem delta_pow (hd : 0 < d) : delta d ^ d = (10 : ℝ) ^ (-12 : ℤ) := by
  rw [delta, ← Real.rpow_natCast, ← Real.rpow_mul (by norm_num), ← Real.rpow_intCast]
  congr 1
  have : (d : ℝ) ≠ 0 := by positivity
  field_simp
  norm_num

theorem pair_det_ge (hd : 0 < d) (S : Stream d) (a b : ℤ) :
    2 ^ d * (10 : ℝ) ^ (-12 : ℤ) ≤ (regCov S a + regCov S b).det := by
  have e : regCov S a + regCov S b = (cov S a + cov S b) + (2 * delta d) • (1 : Matrix (Fin d) (Fin d) ℝ) := by
    rw [regCov_eq, regCov_eq, two_mul, add_smul]; abel
  rw [e]
  refine le_trans (le_of_eq ?_) (det_ge (cov_posSemidef.add cov_posSemidef) (by have := delta_pos d; linarith))
  rw [mul_pow, delta_pow hd]

/-- The largest possible cross information potential. -/
noncomputable def cipMax (d : ℕ) : ℝ := 10 ^ 6 / Real.sqrt ((4 * Real.pi) ^ d)

theorem cip_le (hd : 0 < d) (S : Stream d) (a b : ℤ) : cip S a b ≤ cipMax d := by
  have hpi := Real.pi_pos
  have hdet := pair_det_ge hd S a b
  have hpos := pair_det_pos S a b
  have hq : 0 ≤ ∑ i, ∑ j, (centroid S a i - centroid S b i) * (regCov S a + regCov S b)⁻¹ i j *
      (centroid S a j - centroid S b j) := by
    have := (pair_posDef S a b).inv.posSemidef.dotProduct_mulVec_nonneg (fun i => centroid S a i - centroid S b i)
    refine this.trans (le_of_eq ?_)
    simp only [dotProduct, Matrix.mulVec, star_trivial, Finset.mul_sum, mul_assoc, Pi.star_apply]
  have hexp : Real.exp (-(1 / 2) * ∑ i, ∑ j, (centroid S a i - centroid S b i) * (regCov S a + regCov S b)⁻¹ i j *
      (centroid S a j - centroid S b j)) ≤ 1 := by
    rw [Real.exp_le_one_iff]; linarith
  have hs : Real.sqrt (2 ^ d * (10 : ℝ) ^ (-12 : ℤ)) ≤ Real.sqrt (regCov S a + regCov S b).det := Real.sqrt_le_sqrt hdet
  have hs0 : 0 < Real.sqrt (2 ^ d * (10 : ℝ) ^ (-12 : ℤ)) := Real.sqrt_pos.2 (by positivity)
  have e : cipMax d = 1 / Real.sqrt ((2 * Real.pi) ^ d) * (1 / Real.sqrt (2 ^ d * (10 : ℝ) ^ (-12 : ℤ))) * 1 := by
    have h12 : Real.sqrt ((10 : ℝ) ^ (-12 : ℤ)) = 1 / 10 ^ 6 := by
      rw [show ((10 : ℝ) ^ (-12 : ℤ)) = (1 / 10 ^ 6) ^ 2 by norm_num, Real.sqrt_sq (by positivity)]
    have hA : Real.sqrt ((4 * Real.pi) ^ d) = Real.sqrt ((2 * Real.pi) ^ d) * Real.sqrt (2 ^ d) := by
      rw [← Real.sqrt_mul (by positivity), ← mul_pow]; ring_nf
    rw [cipMax, Real.sqrt_mul (by positivity), h12, hA]
    have h1 : Real.sqrt ((2 * Real.pi) ^ d) ≠ 0 := (Real.sqrt_pos.2 (by positivity)).ne'
    have h2 : Real.sqrt ((2 : ℝ) ^ d) ≠ 0 := (Real.sqrt_pos.2 (by positivity)).ne'
    field_simp
  rw [cip, gauss, e]
  have h1 : (0 : ℝ) ≤ 1 / Real.sqrt ((2 * Real.pi) ^ d) := by positivity
  exact mul_le_mul (mul_le_mul_of_nonneg_left (one_div_le_one_div_of_le hs0 hs) h1) hexp (Real.exp_pos _).le (by positivity)

/-- The number of unordered pairs. -/
theorem card_pairs (s : Finset ℤ) : (∑ a ∈ s, ∑ _b ∈ s.filter (fun b => a < b), (1 : ℝ)) = s.card * (s.card - 1) / 2 := by
  have h := sum_pairs s (fun _ _ => (1 : ℝ)) (fun _ _ => rfl)
  have h' : ∑ a ∈ s, ∑ b ∈ s with a ≠ b, (1 : ℝ) = s.card * (s.card - 1) := by
    rw [Finset.sum_congr rfl (g := fun _ => (s.card : ℝ) - 1)]
    · simp; ring
    · intro a ha
      have : s.filter (fun b => a ≠ b) = s.erase a := by
        ext b; simp [and_comm, eq_comm]
      rw [this, Finset.sum_const, Finset.card_erase_of_mem ha, nsmul_eq_mul, mul_one, Nat.cast_sub (Finset.card_pos.2 ⟨a, ha⟩)]
      simp
  linarith

theorem rCIP_le (hd : 0 < d) (S : Stream d) (v : ℝ) (h : Spec.rCIP S = .fin v) :
    v ≤ numClusters S * (numClusters S - 1) / 2 * cipMax d := by
  rw [Spec.rCIP, XR.fin_inj] at h
  rw [← h, show (numClusters S : ℝ) = (labels S).card from rfl, ← card_pairs, Finset.sum_mul]
  refine Finset.sum_le_sum fun a _ => ?_
  rw [Finset.sum_mul]
  refine Finset.sum_le_sum fun b _ => ?_
  rw [one_mul]
  exact cip_le hd S a b

/-! ## PS of two clusters -/

theorem PS_two {S : Stream d} {a b : ℤ} (hl : labels S = {a, b}) (hab : a ≠ b) (hc : centroid S a ≠ centroid S b) :
    Spec.PS S = .fin (1 + (min (size S a) (size S b) : ℕ) / (max (size S a) (size S b) : ℕ) - 2 * Real.exp (-4)) := by
  have hk : numClusters S = 2 := by rw [numClusters, hl, Finset.card_pair hab]
  have hs : sep S a b ≠ 0 := fun h => hc (sep_eq_zero.1 h)
  have hm : ∀ i, centroidMean S i = (centroid S a i + centroid S b i) / 2 := by
    intro i; rw [centroidMean, hk, hl, Finset.sum_pair hab]; norm_num
  have hb : beta S = sep S a b / 4 := by
    rw [beta, hk, hl, Finset.sum_pair hab, sep, dist2, dist2, dist2, ← Finset.sum_add_distrib]
    simp only [hm]
    push_cast
    rw [Finset.sum_div, Finset.sum_div]
    refine Finset.sum_congr rfl fun i _ => ?_
    ring
  have hmax : maxSize S = max (size S a) (size S b) := by
    rw [maxSize, hl]; simp
  have oa : otherValues S a (fun c => sep S a c) = {sep S a b} := by
    ext r; simp only [otherValues, hl, Set.mem_ofPred_eq, Finset.mem_insert, Finset.mem_singleton, Set.mem_singleton_iff]
    constructor
    · rintro ⟨c, rfl | rfl, h1, rfl⟩
      · exact absurd rfl h1
      · rfl
    · rintro rfl; exact ⟨b, .inr rfl, hab.symm, rfl⟩
  have ob : otherValues S b (fun c => sep S b c) = {sep S a b} := by
    ext r; simp only [otherValues, hl, Set.mem_ofPred_eq, Finset.mem_insert, Finset.mem_singleton, Set.mem_singleton_iff]
    constructor
    · rintro ⟨c, rfl | rfl, h1, rfl⟩
      · exact sep_comm S b c
      · exact absurd rfl h1
    · rintro rfl; exact ⟨a, .inl rfl, hab, (sep_comm S b a).symm⟩
  rw [Spec.PS, if_neg (by omega), if_neg (by rw [hb]; intro h; exact hs (by linarith)), hl, Finset.sum_pair hab, oa, ob,
    csInf_singleton, hb, hmax]
  congr 1
  have e : -sep S a b / (sep S a b / 4) = -4 := by field_simp
  rw [e]
  have ha' := size_pos (S := S) (c := a) (by rw [hl]; simp)
  rcases le_total (size S a) (size S b) with h | h
  · have hb0 : (size S b : ℝ) ≠ 0 := by
      have : 0 < size S b := by omega
      positivity
    rw [max_eq_right h, min_eq_left h, div_self hb0]; ring
  · have ha0 : (size S a : ℝ) ≠ 0 := by positivity
    rw [max_eq_left h, min_eq_right h, div_self ha0]; ring

end Verif
