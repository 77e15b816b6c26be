import Verif.Props.RCIPAccuracy

/-! # C84, C85: an example -/

namespace Verif.Gen
open Py Rounding

section
open B64

/-- Four corners of the unit square (one of them twice), in two clusters. -/
def cornerNats : List ((ℕ × ℕ) × ℤ) := [((0, 0), 0), ((0, 1), 0), ((0, 1), 1), ((1, 1), 1)]

def corners (L : Lib) : Samples (F64 L) := cornerNats.map fun p => ([B64.ofNat p.1.1, B64.ofNat p.1.2], p.2)

def cornerPts : Spec.Stream 2 := cornerNats.map fun p => (![(p.1.1 : ℝ), (p.1.2 : ℝ)], p.2)

theorem cornerNats_le : ∀ p ∈ cornerNats, p.1.1 ≤ 1 ∧ p.1.2 ≤ 1 := by decide

variable {L : Lib}

theorem getD_two {α : Type} (a b z : α) (i : _root_.Fin 2) : [a, b].getD i z = ![a, b] i := by fin_cases i <;> rfl

theorem val_two {a b : B64} {x y : ℝ} (h1 : val a = x) (h2 : val b = y) (i : _root_.Fin 2) : val (![a, b] i) = ![x, y] i := by
  rcases i with ⟨_ | _ | i, hi⟩
  · exact h1
  · exact h2
  · omega

theorem corners_real : real (F := F64 L) val 2 (corners L) = cornerPts := by
  refine (List.map_map (l := cornerNats)).trans (List.map_congr_left fun p hp => ?_)
  have h := cornerNats_le p hp
  refine Prod.ext (funext fun i => ?_) rfl
  exact (congrArg val (getD_two _ _ _ i)).trans (val_two (ofNat_val (n := p.1.1) (by omega)).2 (ofNat_val (n := p.1.2) (by omega)).2 i)

theorem corners_dim : (corners L).Dim 2 := by
  intro p hp
  obtain ⟨q, -, rfl⟩ := List.mem_map.mp hp
  rfl

theorem corners_le : ∀ p ∈ corners L, ∀ a ∈ p.1, Fin a ∧ |val a| ≤ 1 := by
  intro p hp a ha
  obtain ⟨q, hq, rfl⟩ := List.mem_map.mp hp
  have h4 := cornerNats_le q hq
  have key : ∀ n ≤ 1, Fin (B64.ofNat n) ∧ |val (B64.ofNat n)| ≤ 1 := by
    intro n hn
    have h := ofNat_val (n := n) (by omega)
    refine ⟨h.1.isFin, ?_⟩
    rw [h.2, Nat.abs_cast]
    exact_mod_cast hn
  rcases List.mem_cons.mp ha with rfl | ha
  · exact key _ h4.1
  · rw [List.mem_singleton.mp ha]
    exact key _ h4.2

theorem cornerPts_labels : Spec.labels cornerPts = {0, 1} := by simp [Spec.labels, cornerPts, cornerNats]

theorem cornerPts_cluster : Spec.cluster cornerPts 0 = [![0, 0], ![0, 1]] ∧ Spec.cluster cornerPts 1 = [![0, 1], ![1, 1]] := by
  constructor <;> simp [Spec.cluster, cornerPts, cornerNats]

theorem cornerPts_size : Spec.size cornerPts 0 = 2 ∧ Spec.size cornerPts 1 = 2 := by
  constructor <;> simp [Spec.size, cornerPts_cluster]

theorem cornerPts_centroid : Spec.centroid cornerPts 0 = ![0, 1 / 2] ∧ Spec.centroid cornerPts 1 = ![1 / 2, 1] := by
  constructor <;> funext i <;> fin_cases i <;> norm_num [Spec.centroid, Spec.meanOf, cornerPts_cluster]

theorem cornerPts_cov : Spec.cov cornerPts 0 = !![0, 0; 0, 1 / 2] ∧ Spec.cov cornerPts 1 = !![1 / 2, 0; 0, 0] := by
  constructor <;> ext i j <;> fin_cases i <;> fin_cases j <;>
    norm_num [Spec.cov, cornerPts_cluster, cornerPts_size, cornerPts_centroid]

theorem delta_two : (10 : ℝ) ^ (-(12 : ℝ) / ((2 : ℕ) : ℝ)) = (10 : ℝ) ^ (-6 : ℤ) := by
  rw [← Real.rpow_intCast]
  norm_num

/-- The covariances add up to a multiple of the identity. -/
theorem cornerPts_pair : Spec.regCov cornerPts 0 + Spec.regCov cornerPts 1 = !![(1 / 2 + 2 * 10 ^ (-6 : ℤ) : ℝ), 0; 0, 1 / 2 + 2 * 10 ^ (-6 : ℤ)] := by
  rw [Spec.regCov, Spec.regCov, cornerPts_cov.1, cornerPts_cov.2, delta_two]
  ext i j
  fin_cases i <;> fin_cases j <;> norm_num

theorem gauss_scalar {r : ℝ} (hr : 0 < r) (w : Spec.Pt 2) :
    Spec.gauss !![r, 0; 0, r] w = 1 / (2 * Real.pi * r) * Real.exp (-(w 0 ^ 2 + w 1 ^ 2) / (2 * r)) := by
  have hdet : (!![r, 0; 0, r] : Matrix _ _ ℝ).det = r ^ 2 := by rw [Matrix.det_fin_two_of]; ring
  have hinv : (!![r, 0; 0, r] : Matrix _ _ ℝ)⁻¹ = !![1 / r, 0; 0, 1 / r] := by
    refine Matrix.inv_eq_right_inv ?_
    rw [Matrix.mul_fin_two, Matrix.one_fin_two]
    congr <;> field_simp <;> simp
  have hpi := Real.pi_pos
  rw [Spec.gauss, hdet, hinv, Real.sqrt_sq hr.le, Real.sqrt_sq (by positivity)]
  simp only [Fin.sum_univ_two, Matrix.of_apply, Matrix.cons_val', Matrix.cons_val_zero, Matrix.cons_val_one, Matrix.cons_val_fin_one]
  congr 1
  · field_simp
  · congr 1
    field_simp
    ring

/-- `1 / 2` and the two diagonal terms. -/
noncomputable def cornerVar : ℝ := 1 / 2 + 2 * 10 ^ (-6 : ℤ)

theorem cornerVar_pos : 0 < cornerVar := by unfold cornerVar; positivity

theorem cornerPts_rCIP : Spec.value .rCIP cornerPts = .fin (1 / (2 * Real.pi * cornerVar) * Real.exp (-1 / (4 * cornerVar))) := by
  have h0 : (({0, 1} : Finset ℤ).filter fun b => 0 < b) = {1} := by decide
  have h1 : (({0, 1} : Finset ℤ).filter fun b => 1 < b) = ∅ := by decide
  rw [Spec.value, Spec.rCIP, cornerPts_labels, Finset.sum_pair (by norm_num), h0, h1, Finset.sum_singleton, Finset.sum_empty, add_zero,
    Spec.cip, cornerPts_pair, show (1 / 2 + 2 * 10 ^ (-6 : ℤ) : ℝ) = cornerVar from rfl, gauss_scalar cornerVar_pos, cornerPts_centroid.1,
    cornerPts_centroid.2]
  have := cornerVar_pos
  congr 3
  simp only [Matrix.cons_val_zero, Matrix.cons_val_one]
  field_simp
  norm_num

theorem cornerPts_peaks : peaks cornerPts = 1 / (2 * Real.pi * cornerVar) := by
  have h0 : (({0, 1} : Finset ℤ).filter fun b => 0 < b) = {1} := by decide
  have h1 : (({0, 1} : Finset ℤ).filter fun b => 1 < b) = ∅ := by decide
  rw [peaks, cornerPts_labels, Finset.sum_pair (by norm_num), h0, h1, Finset.sum_singleton, Finset.sum_empty, add_zero,
    cornerPts_pair, show (1 / 2 + 2 * 10 ^ (-6 : ℤ) : ℝ) = cornerVar from rfl, gauss_scalar cornerVar_pos]
  simp

theorem corners_fits : Fits 2 4 1 ((2 : ℝ) ^ (-51 : ℤ)) ((2 : ℝ) ^ (-13 : ℤ)) := by
  have hδ : Rounding.delta 2 = (10 : ℝ) ^ (-6 : ℤ) := delta_two
  have hs : √(6 * (1 ^ 2 + (10 : ℝ) ^ (-6 : ℤ)) / (10 : ℝ) ^ (-6 : ℤ)) ≤ 2500 := by
    refine Real.sqrt_le_iff.mpr ⟨by norm_num, by norm_num⟩
  refine ⟨?_, ?_, by norm_num, ?_⟩
  · rw [hδ]; norm_num
  · rw [hδ]
    refine (mul_le_mul_of_nonneg_left hs (by positivity)).trans ?_
    norm_num
  · refine le_trans ?_ (two_zpow_le (a := 14) (by norm_num))
    norm_num

/-- In binary64, incremental mode and batch mode both return the exact value up to `2 ^ -7`; it is about `0.19`. -/
theorem corners_rCIP : ∃ vs a b s, (feed (mod (F64 .rounded) .rCIP) (corners .rounded) (mod (F64 .rounded) .rCIP).fresh).val = .ok (vs ++ [a]) ∧
    batchCall 2 .rCIP (corners .rounded) [] (mod (F64 .rounded) .rCIP).fresh = .ok b { (mod (F64 .rounded) .rCIP).fresh with core := s } ∧
    |val a - 1 / (2 * Real.pi * cornerVar) * Real.exp (-1 / (4 * cornerVar))| ≤ (2 : ℝ) ^ (-7 : ℤ) ∧
    |val b - 1 / (2 * Real.pi * cornerVar) * Real.exp (-1 / (4 * cornerVar))| ≤ (2 : ℝ) ^ (-7 : ℤ) := by
  have hn : Spec.numClusters (real (F := F64 .rounded) val 2 (corners .rounded)) = 2 := by
    rw [corners_real, Spec.numClusters, cornerPts_labels, Finset.card_pair (by norm_num)]
  have hc : Spec.Consecutive (real (F := F64 .rounded) val 2 (corners .rounded)) := by
    rw [corners_real]
    intro c
    rw [Spec.numClusters, cornerPts_labels, Finset.card_pair (by norm_num)]
    simp only [Finset.mem_insert, Finset.mem_singleton]
    push_cast
    omega
  have hM0 : (2 : ℝ) ^ (-400 : ℤ) ≤ 1 := zpow_le_one_of_nonpos₀ (by norm_num) (by norm_num)
  have hk : (Spec.numClusters (real (F := F64 .rounded) val 2 (corners .rounded)) : ℝ) ^ 2 * (2 : ℝ) ^ (-53 : ℤ) ≤ (2 : ℝ) ^ (-13 : ℤ) := by
    rw [hn]; norm_num
  obtain ⟨vs, a, y, a1, -, a3, a4⟩ := C85_rCIP64 (Lib.rounded_dots 2) Lib.rounded_sums (Lib.rounded_batchSums 2) Lib.rounded_products
    (Lib.rounded_delta (by norm_num)) Lib.withExp_near (Lib.rounded_linalg (by norm_num)) (by positivity) (Lib.rounded_invShape 2) (by norm_num)
    (corners .rounded) corners_dim (by simp [corners, cornerNats]) hM0 corners_le corners_fits hk
  obtain ⟨b, s, z, b1, -, b3, b4⟩ := C85_rCIP64_batch (Lib.rounded_dots 2) Lib.rounded_sums (Lib.rounded_batchSums 2) Lib.rounded_products
    (Lib.rounded_delta (by norm_num)) Lib.withExp_near (Lib.rounded_linalg (by norm_num)) (by positivity) (Lib.rounded_invShape 2) (by norm_num)
    (corners .rounded) corners_dim (by simp [corners, cornerNats]) hM0 corners_le corners_fits hk hn.ge hc (mod (F64 .rounded) .rCIP).fresh rfl
  rw [corners_real, cornerPts_rCIP] at a3 b3
  rw [corners_real, cornerPts_peaks] at a4 b4
  obtain rfl := XR.fin.inj a3
  obtain rfl := XR.fin.inj b3
  clear hM0 hk
  have h5 : 174 * (2 : ℝ) ^ (-13 : ℤ) * (1 / (2 * Real.pi * cornerVar)) ≤ (2 : ℝ) ^ (-7 : ℤ) := by
    have h6 : 1 / (2 * Real.pi * cornerVar) ≤ 1 / 3 := by
      refine one_div_le_one_div_of_le (by norm_num) ?_
      have h7 : 1 / 2 ≤ cornerVar := by unfold cornerVar; norm_num
      have := mul_le_mul_of_nonneg_left h7 (show 0 ≤ 2 * Real.pi by positivity)
      have := Real.pi_gt_three
      linarith
    refine (mul_le_mul_of_nonneg_left h6 (by positivity)).trans ?_
    norm_num
  exact ⟨vs, a, b, s, a1, b1, a4.trans h5, b4.trans h5⟩

/-- The covariances of both clusters are right up to `2 ^ -41`. -/
theorem corners_cov : ∃ vs o, feed (mod (F64 .rounded) .rCIP) (corners .rounded) (mod (F64 .rounded) .rCIP).fresh = .ok vs o ∧
    ∀ c ∈ ({0, 1} : Finset ℤ), ∃ A, o.page c = some A ∧
      CovClose (F := F64 .rounded) val Fin ((2 : ℝ) ^ (-41 : ℤ)) A (Spec.regCov cornerPts c) := by
  obtain ⟨vs, a, -, -, h1, -⟩ := corners_rCIP
  obtain ⟨o, h2⟩ : ∃ o, feed (mod (F64 .rounded) .rCIP) (corners .rounded) (mod (F64 .rounded) .rCIP).fresh = .ok (vs ++ [a]) o := by
    revert h1
    cases feed (mod (F64 .rounded) .rCIP) (corners .rounded) (mod (F64 .rounded) .rCIP).fresh with
    | ok v o => intro h; exact ⟨o, by cases h; rfl⟩
    | err e o => intro h; cases h
  refine ⟨_, o, h2, fun c hc => ?_⟩
  have hM0 : (2 : ℝ) ^ (-400 : ℤ) ≤ 1 := zpow_le_one_of_nonpos₀ (by norm_num) (by norm_num)
  have hM : (1 : ℝ) ≤ (2 : ℝ) ^ (450 : ℤ) := one_le_zpow₀ (by norm_num) (by norm_num)
  have hx : ∃ x, (x, c) ∈ corners .rounded := by
    rw [Finset.mem_insert, Finset.mem_singleton] at hc
    rcases hc with rfl | rfl
    · exact ⟨_, List.mem_cons_self⟩
    · exact ⟨_, List.mem_cons_of_mem _ (List.mem_cons_of_mem _ List.mem_cons_self)⟩
  obtain ⟨x, hx⟩ := hx
  obtain ⟨A, h3, h4⟩ := C84_incremental64 (Lib.rounded_dots 2) Lib.rounded_sums Lib.rounded_products (Lib.rounded_delta (by norm_num))
    (Lib.rounded_invShape 2) (by norm_num) (corners .rounded) corners_dim (by simp [corners, cornerNats]) hM0 hM corners_le h2 hx
  rw [corners_real] at h4
  refine ⟨A, h3, h4.mono ?_⟩
  clear hM0 hM
  rw [show delta 2 = (10 : ℝ) ^ (-6 : ℤ) from delta_two, show (corners .rounded).length = 4 from rfl]
  norm_num

/-- The same after one call with all samples. -/
theorem corners_cov_batch : ∃ r o, batchCall 2 .rCIP (corners .rounded) [] (mod (F64 .rounded) .rCIP).fresh = .ok r o ∧
    ∀ c : ℕ, c < 2 → ∃ A, o.core.sigma[c]? = some A ∧
      CovClose (F := F64 .rounded) val Fin ((2 : ℝ) ^ (-41 : ℤ)) A (Spec.regCov cornerPts c) := by
  obtain ⟨-, -, b, s, -, h2, -⟩ := corners_rCIP
  refine ⟨b, _, h2, fun c hc => ?_⟩
  have hM0 : (2 : ℝ) ^ (-400 : ℤ) ≤ 1 := zpow_le_one_of_nonpos₀ (by norm_num) (by norm_num)
  have hM : (1 : ℝ) ≤ (2 : ℝ) ^ (450 : ℤ) := one_le_zpow₀ (by norm_num) (by norm_num)
  have hn : Spec.numClusters (real (F := F64 .rounded) val 2 (corners .rounded)) = 2 := by
    rw [corners_real, Spec.numClusters, cornerPts_labels, Finset.card_pair (by norm_num)]
  have hcon : Spec.Consecutive (real (F := F64 .rounded) val 2 (corners .rounded)) := by
    rw [corners_real]
    intro c
    rw [Spec.numClusters, cornerPts_labels, Finset.card_pair (by norm_num)]
    simp only [Finset.mem_insert, Finset.mem_singleton]
    push_cast
    omega
  obtain ⟨A, h3, h4⟩ := C84_batch64 (Lib.rounded_dots 2) Lib.rounded_sums (Lib.rounded_batchSums 2) Lib.rounded_products
    (Lib.rounded_delta (by norm_num)) (Lib.rounded_invShape 2) (by norm_num) (corners .rounded) corners_dim (by simp [corners, cornerNats])
    hM0 hM corners_le hn.ge hcon rfl h2 (hc.trans_eq hn.symm)
  rw [corners_real] at h4
  refine ⟨A, h3, h4.mono ?_⟩
  clear hM0 hM
  rw [show delta 2 = (10 : ℝ) ^ (-6 : ℤ) from delta_two, show (corners .rounded).length = 4 from rfl]
  norm_num

end
end Verif.Gen
