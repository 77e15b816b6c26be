import Verif.Proofs.Bounds
import Verif.Props.Ranges
import Verif.Props.State

/-!
# C54–C57: upper bounds, PS of two clusters, compactness over time
-/

namespace Verif
open Spec

variable {d : ℕ}

/-! ## C54: GD53 is at most one half -/

/-- **C54**: a GD53 value that is a number lies in `[0, 1/2]`, in either mode. -/
theorem C54_GD53_range (hd : 0 < d) (S : Stream d) (v : ℝ) (h : Returned .GD53 S (.fin v)) : 0 ≤ v ∧ v ≤ 1 / 2 := by
  refine ⟨not_lt.1 (C27_nonneg .GD53 (by decide) (by decide) hd S _ h), ?_⟩
  rcases returned_value (by decide) hd h with e | e
  · exact GD53_le S v e.symm
  · cases e

/-- Two clusters with the same mean scatter attain the bound. -/
def evenStream : Stream 1 := [(![0], 0), (![2], 0), (![5], 1), (![7], 1)]

theorem even_labels : labels evenStream = {0, 1} := by ext; simp [labels, evenStream]

theorem even_GD53 : Returned .GD53 evenStream (.fin (1 / 2)) := by
  have hk : numClusters evenStream = 2 := by rw [numClusters, even_labels]; rfl
  have c0 : cluster evenStream 0 = [![0], ![2]] := by simp [cluster, evenStream]
  have c1 : cluster evenStream 1 = [![5], ![7]] := by simp [cluster, evenStream]
  have m0 : centroid evenStream 0 = ![1] := by funext i; fin_cases i; norm_num [centroid, c0, meanOf]
  have m1 : centroid evenStream 1 = ![6] := by funext i; fin_cases i; norm_num [centroid, c1, meanOf]
  have s0 : scatter evenStream 0 = 2 := by norm_num [scatter, c0, m0, dist2]
  have s1 : scatter evenStream 1 = 2 := by norm_num [scatter, c1, m1, dist2]
  have n0 : size evenStream 0 = 2 := by simp [size, c0]
  have n1 : size evenStream 1 = 2 := by simp [size, c1]
  have hw : {r | ∃ c ∈ labels evenStream, r = meanScatter evenStream c} = {1} := by
    ext r; simp [even_labels, meanScatter, s0, s1, n0, n1]
  have hp : pairValues evenStream (fun a b => (scatter evenStream a + scatter evenStream b) /
      ((size evenStream a : ℝ) + size evenStream b)) = {1} := by
    ext r; norm_num [pairValues, even_labels, s0, s1, n0, n1]
  refine .inl ((incLast_eq (by simp) (by simp [DimOk]) (by simp [evenStream])).trans ?_)
  show Except.ok (some (Spec.GD53 evenStream)) = _
  rw [Spec.GD53, if_neg (by omega), hw, hp, csInf_singleton, csSup_singleton, ratio, if_pos (by norm_num)]
  norm_num

example : (1 / 2 : ℝ) ≤ 1 / 2 := (C54_GD53_range Nat.one_pos evenStream _ even_GD53).2

/-! ## C55: rCIP is bounded -/

/-- **C55**: an rCIP value that is a number is at most `k (k - 1) / 2 * 10^6 / sqrt((4 π)^d)`, in either mode. -/
theorem C55_rCIP_bound (hd : 0 < d) (S : Stream d) (v : ℝ) (h : Returned .rCIP S (.fin v)) :
    0 ≤ v ∧ v ≤ numClusters S * (numClusters S - 1) / 2 * (10 ^ 6 / Real.sqrt ((4 * Real.pi) ^ d)) := by
  refine ⟨not_lt.1 (C27_nonneg .rCIP (by decide) (by decide) hd S _ h), ?_⟩
  rcases returned_value (by decide) hd h with e | e
  · exact rCIP_le hd S v e.symm
  · cases e

/-- Two coinciding single samples in one dimension. -/
def twins : Stream 1 := [(![3], 0), (![3], 1)]

theorem twins_rCIP : Returned .rCIP twins (.fin (10 ^ 6 / Real.sqrt ((4 * Real.pi) ^ 1))) := by
  have hl : labels twins = {0, 1} := by ext; simp [labels, twins]
  have c0 : cluster twins 0 = [![3]] := by simp [cluster, twins]
  have c1 : cluster twins 1 = [![3]] := by simp [cluster, twins]
  have m0 : centroid twins 0 = ![3] := by funext i; fin_cases i; norm_num [centroid, c0, meanOf]
  have m1 : centroid twins 1 = ![3] := by funext i; fin_cases i; norm_num [centroid, c1, meanOf]
  have r : ∀ c : ℤ, c = 0 ∨ c = 1 → regCov twins c = delta 1 • 1 := by
    have hz : ∀ c : ℤ, c = 0 ∨ c = 1 → cov twins c = 0 := by
      rintro c (rfl | rfl) <;> ext i j <;> fin_cases i <;> fin_cases j <;> simp [cov, c0, c1, m0, m1]
    intro c hc
    rw [regCov_eq, hz c hc, zero_add]
  refine .inl ((incLast_eq (by simp) (fun _ => Nat.one_pos) (by simp [twins])).trans ?_)
  have hdel : delta 1 = 10 ^ (-12 : ℤ) := by have := delta_pow (d := 1) Nat.one_pos; simpa using this
  have hv : cip twins 0 1 = 10 ^ 6 / Real.sqrt ((4 * Real.pi) ^ 1) := by
    have hpi := Real.pi_pos
    rw [cip, gauss, r 0 (by simp), r 1 (by simp), m0, m1, ← add_smul, ← two_mul, Matrix.det_smul, hdel]
    have e1 : Real.sqrt (4 * Real.pi) = Real.sqrt (2 * Real.pi) * Real.sqrt 2 := by
      rw [← Real.sqrt_mul (by positivity)]; ring_nf
    have e2 : Real.sqrt (2 * (10 : ℝ) ^ (-12 : ℤ)) = Real.sqrt 2 / 10 ^ 6 := by
      rw [Real.sqrt_mul (by norm_num), show ((10 : ℝ) ^ (-12 : ℤ)) = (1 / 10 ^ 6) ^ 2 by norm_num,
        Real.sqrt_sq (by positivity)]
      ring
    simp only [Fintype.card_fin, pow_one, Matrix.det_one, mul_one, sub_self, zero_mul, mul_zero, Finset.sum_const_zero,
      Real.exp_zero, e1, e2]
    have h1 : Real.sqrt (2 * Real.pi) ≠ 0 := (Real.sqrt_pos.2 (by positivity)).ne'
    have h2 : Real.sqrt 2 ≠ 0 := (Real.sqrt_pos.2 (by norm_num)).ne'
    field_simp
  show Except.ok (some (Spec.rCIP twins)) = _
  rw [Spec.rCIP, hl, Finset.sum_pair (by decide), ← hv]
  have f0 : ({0, 1} : Finset ℤ).filter (fun b => (0 : ℤ) < b) = {1} := by decide
  have f1 : ({0, 1} : Finset ℤ).filter (fun b => (1 : ℤ) < b) = ∅ := by decide
  rw [f0, f1, Finset.sum_singleton, Finset.sum_empty, add_zero]

/-- The bound is attained. -/
example : ∃ v, Returned .rCIP twins (.fin v) ∧
    v = numClusters twins * (numClusters twins - 1) / 2 * (10 ^ 6 / Real.sqrt ((4 * Real.pi) ^ 1)) := by
  refine ⟨_, twins_rCIP, ?_⟩
  have hk : numClusters twins = 2 := by
    rw [numClusters, show labels twins = {0, 1} by ext; simp [labels, twins]]; rfl
  rw [hk]; norm_num

/-! ## C56: PS of two clusters -/

/-- **C56**: with exactly two clusters, whose centroids differ, PS only depends on the two sizes. -/
theorem C56_PS_two (hd : 0 < d) (S : Stream d) (a b : ℤ) (hl : labels S = {a, b}) (hab : a ≠ b)
    (hc : centroid S a ≠ centroid S b) (v : ℝ) (h : Returned .PS S (.fin v)) :
    v = 1 + (min (size S a) (size S b) : ℕ) / (max (size S a) (size S b) : ℕ) - 2 * Real.exp (-4) := by
  rcases returned_value (by decide) hd h with e | e
  · exact XR.fin_inj.1 (e.trans (PS_two hl hab hc))
  · cases e

theorem demo_centroids : centroid demo 0 ≠ centroid demo 1 := by
  rw [demo_centroid0, demo_centroid1]; intro h; have := congrFun h 0; norm_num at this

example : ∃ v, Returned .PS demo (.fin v) ∧ v = 3 / 2 - 2 * Real.exp (-4) := by
  obtain ⟨v, hv⟩ := C29_PS_returned demo demo_two ⟨0, by simp [demo_labels], 1, by simp [demo_labels], demo_centroids⟩
  refine ⟨v, hv, ?_⟩
  rw [C56_PS_two Nat.one_pos demo 0 1 demo_labels (by decide) demo_centroids v hv]
  norm_num [size, demo_cluster0, demo_cluster1]

/-! ## C57: the recorded compactness -/

theorem scatter_mono (S : Stream d) (x : Pt d) {c b : ℤ} (hb : b ∈ labels S) : scatter S b ≤ scatter (S ++ [(x, c)]) b := by
  by_cases h : b = c
  · subst h
    rw [scatter_append_old S x hb]
    have := dist2_nonneg x (centroid (S ++ [(x, b)]) b)
    have := mul_nonneg (Nat.cast_nonneg (α := ℝ) (size S b)) (dist2_nonneg (centroid S b) (centroid (S ++ [(x, b)]) b))
    linarith
  · rw [scatter_append_ne S x h]

theorem scatter_mono_append (S T : Stream d) {b : ℤ} (hb : b ∈ labels S) : scatter S b ≤ scatter (S ++ T) b := by
  induction T using List.reverseRecOn with
  | nil => simp
  | append_singleton T p ih =>
    rw [← List.append_assoc]
    refine ih.trans (scatter_mono _ p.1 ?_)
    rw [labels, List.map_append, List.toFinset_append, Finset.mem_union]
    exact .inl hb

/-- **C57**: after any stream the compactness recorded for a label is the scatter of its samples (sum of squared distances to
their mean); other labels have none; and no further samples, of whatever labels, make it smaller.  CH, WB, XB, DB, GD43, GD53. -/
theorem C57_compactness (I : Index) (h1 : I ≠ .PS) (h2 : I ≠ .rCIP) (h3 : I ≠ .cSIL) (S : Stream d) :
    (∀ c ∈ labels S, (objAfter I S).compactness c = some (.fin (scatter S c))) ∧
    (∀ c ∉ labels S, (objAfter I S).compactness c = none) ∧
    ∀ T : Stream d, ∀ c ∈ labels S, ∃ a b, (objAfter I S).compactness c = some (.fin a) ∧
      (objAfter I (S ++ T)).compactness c = some (.fin b) ∧ 0 ≤ a ∧ a ≤ b := by
  have key : ∀ (S : Stream d), ∀ c ∈ labels S, (objAfter I S).compactness c = some (.fin (scatter S c)) := by
    intro S c hc
    rw [objAfter_compactness h1 h2, if_pos hc, if_neg h3]
  refine ⟨key S, fun c hc => by rw [objAfter_compactness h1 h2, if_neg hc], fun T c hc => ?_⟩
  refine ⟨_, _, key S c hc, key (S ++ T) c ?_, scatter_nonneg S c, scatter_mono_append S T hc⟩
  rw [labels, List.map_append, List.toFinset_append, Finset.mem_union]
  exact .inl hc

example : (objAfter .XB demo).compactness 0 = some (.fin 2) := by
  rw [(C57_compactness .XB (by decide) (by decide) (by decide) demo).1 0 (by simp [demo_labels]), demo_scatter0]

/-- **C57** for rCIP: the covariance page recorded for a label is the regularised sample covariance of its samples. -/
theorem C57_covariance (hd : 0 < d) (S : Stream d) (c : ℤ) :
    (objAfter .rCIP S).page c = if c ∈ labels S then some (Arr2.ofMatrix (regCov S c)) else none := objAfter_page hd S c

/-- **C57** for cSIL: the compactness recorded for a label is the sum of the squared norms of its samples. -/
theorem C57_cSIL (S : Stream d) (c : ℤ) :
    (objAfter .cSIL S).compactness c = if c ∈ labels S then some (.fin (sumSqNorm S c)) else none :=
  objAfter_compactness (by decide) (by decide) S c

example : (objAfter .cSIL demo).compactness 0 = some (.fin 4) := by
  rw [C57_cSIL, if_pos (by simp [demo_labels])]
  norm_num [sumSqNorm, demo_cluster0]

end Verif
