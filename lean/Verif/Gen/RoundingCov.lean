import Verif.Gen.RoundingPS
import Verif.Gen.BatchRef2

/-!
# Error of the covariances of rCIP

The running covariance, with the multiple of the unit matrix that is taken off and put back at every sample, and the covariance of a batch,
which is a difference of two sums.
-/

set_option linter.unusedSectionVars false

namespace Verif.Gen

/-- The standard model for the covariances.  `κ` bounds the relative error of `10 ** (-12 / d)`. -/
structure StandardCov (F : Type) [Arith F] (val : F → ℝ) (fin : F → Prop) (u η Ω κ : ℝ) (N d : ℕ) : Prop where
  /-- `(n - 1) / n` -/
  ratio : ∀ n : ℕ, 1 ≤ n → n ≤ N → fin (Arith.intDiv ((n : ℤ) - 1) n : F) ∧
    |val (Arith.intDiv ((n : ℤ) - 1) n : F) - (1 - 1 / n)| ≤ u * (1 - 1 / n)
  /-- `1 / (n - 1)` -/
  pred : ∀ n : ℕ, 2 ≤ n → n ≤ N → fin (Arith.invPred n : F) ∧ |val (Arith.invPred n : F) - 1 / ((n : ℝ) - 1)| ≤ u * (1 / ((n : ℝ) - 1))
  diag : fin (Arith.one * Arith.delta d : F) ∧
    |val (Arith.one * Arith.delta d : F) - (10 : ℝ) ^ (-(12 : ℝ) / (d : ℝ))| ≤ κ * (10 : ℝ) ^ (-(12 : ℝ) / (d : ℝ))
  off : fin (0 * Arith.delta d : F) ∧ val (0 * Arith.delta d : F) = 0
  /-- an entry of a product of matrices: a sum of products in some order -/
  mm : ∀ (A B : Arr2 F) (i j : ℕ) (a b : List F), A.rows.getD i [] = a → (∀ r ∈ B.rows, j < r.length) →
    (B.rows.map fun r => r.getD j 0) = b → a.length = b.length →
    a.length ≤ N → (∀ x ∈ a, fin x) → (∀ x ∈ b, fin x) →
    ((List.range a.length).map fun k => |val (a.getD k 0) * val (b.getD k 0)|).sum ≤ Ω / 2 →
    fin (Arith.mm A B i j) ∧
      |val (Arith.mm A B i j) - ((List.range a.length).map fun k => val (a.getD k 0) * val (b.getD k 0)).sum| ≤
        2 * (a.length * u) * ((List.range a.length).map fun k => |val (a.getD k 0) * val (b.getD k 0)|).sum + 2 * (a.length * η)

namespace Rounding

/-- The arithmetic of one step of an entry of the running covariance; `t = 1 / n` and `s = 1 / (n + 1)`. -/
theorem cov_real {u ε η M ρ W E t s C p r D q P x y m m' v v' a b o c Q R T : ℝ} (hu : 0 ≤ u) (hue : u ≤ ε) (hε : 128 * ε ≤ 1)
    (hη0 : 0 ≤ η) (hη : η ≤ ε * M ^ 2) (hM : 0 ≤ M) (hW : W = M ^ 2 + ρ) (ht0 : 0 ≤ t) (ht1 : t ≤ 1) (hs0 : 0 ≤ s) (hs1 : s ≤ 1 / 2)
    (hE0 : 0 ≤ E) (hE : E ≤ W) (hr : |r| ≤ ρ) (hC : |C| ≤ 4 * M ^ 2) (hp : |p - (C + r)| ≤ E) (hD : |D - (p - r)| ≤ u * |p - r|)
    (hq : |q - (1 - t)| ≤ u * (1 - t)) (hP : |P - q * D| ≤ u * |q * D| + η)
    (hx : |x| ≤ M) (hy : |y| ≤ M) (hm : |m| ≤ M) (hm' : |m'| ≤ M) (hv : |v - m| ≤ 7 * (ε * M)) (hv' : |v' - m'| ≤ 7 * (ε * M))
    (ha : |a - (x - v)| ≤ u * |x - v|) (hb : |b - (y - v')| ≤ u * |y - v'|) (ho : |o - a * b| ≤ u * |a * b| + η)
    (hc : |c - s| ≤ u * s) (hQ : |Q - c * o| ≤ u * |c * o| + η) (hR : |R - (P + Q)| ≤ u * |P + Q|)
    (hT : |T - (R + r)| ≤ u * |R + r|) :
    |p - r| ≤ 5 * W ∧ |q * D| ≤ 7 * W ∧ |x - v| ≤ 3 * M ∧ |y - v'| ≤ 3 * M ∧ |a * b| ≤ 5 * W ∧ |c * o| ≤ 5 * W ∧ |P + Q| ≤ 12 * W ∧
      |R + r| ≤ 14 * W ∧
      |T - ((1 - t) * C + s * ((x - m) * (y - m')) + r)| ≤ (1 - t) * E + 58 * (s * (ε * M ^ 2)) + (44 * (u * W) + 2 * η) := by
  have hρ : 0 ≤ ρ := (abs_nonneg _).trans hr
  have hMM : 0 ≤ M ^ 2 := by positivity
  have hMW : M ^ 2 ≤ W := by linarith
  have hW0 : 0 ≤ W := by linarith
  have hε0 : 0 ≤ ε := hu.trans hue
  have huW : 128 * (u * W) ≤ W := by
    have := mul_le_mul_of_nonneg_right (show 128 * u ≤ 1 by linarith) hW0
    linarith
  have huW0 : 0 ≤ u * W := by positivity
  have hεM : 128 * (ε * M) ≤ M := by have := mul_le_mul_of_nonneg_right hε hM; linarith
  have hεM0 : 0 ≤ ε * M := by positivity
  have hεMM : 128 * (ε * M ^ 2) ≤ M ^ 2 := by have := mul_le_mul_of_nonneg_right hε hMM; linarith
  have hεMM0 : 0 ≤ ε * M ^ 2 := by positivity
  have huM : u * M ≤ ε * M := mul_le_mul_of_nonneg_right hue hM
  have huMM : u * M ^ 2 ≤ ε * M ^ 2 := mul_le_mul_of_nonneg_right hue hMM
  have huMM0 : 0 ≤ u * M ^ 2 := by positivity
  have hηW : 128 * η ≤ W := by linarith
  -- the part from before
  have k1 : |p - r - C| ≤ E := by rwa [show p - r - C = p - (C + r) by ring]
  have k2 : |p - r| ≤ 5 * W := by have := abs_le_of_err k1; linarith
  have k3 : u * |p - r| ≤ 5 * (u * W) := by have := mul_le_mul_of_nonneg_left k2 hu; linarith
  have k4 : |D - C| ≤ E + 5 * (u * W) := by
    have := abs_add_le (D - (p - r)) (p - r - C)
    rw [sub_add_sub_cancel] at this
    linarith
  have k5 : |D| ≤ 6 * W := by have := abs_le_of_err k4; linarith
  have hτ0 : 0 ≤ 1 - t := by linarith
  have k6 : |q - (1 - t)| ≤ u := hq.trans (by have := mul_le_mul_of_nonneg_left (show 1 - t ≤ 1 by linarith) hu; linarith)
  have k7 : |q * D - (1 - t) * C| ≤ (1 - t) * E + 11 * (u * W) := by
    have e : q * D - (1 - t) * C = (1 - t) * (D - C) + (q - (1 - t)) * D := by ring
    rw [e]
    refine (abs_add_le _ _).trans ?_
    rw [abs_mul, abs_mul, abs_of_nonneg hτ0]
    have h1 := mul_le_mul_of_nonneg_left k4 hτ0
    have h2 := mul_le_mul k6 k5 (abs_nonneg _) hu
    have h3 := mul_le_mul_of_nonneg_right (show 1 - t ≤ 1 by linarith) (show 0 ≤ 5 * (u * W) by positivity)
    linarith
  have hτE : (1 - t) * E ≤ E := by have := mul_le_mul_of_nonneg_right (show 1 - t ≤ 1 by linarith) hE0; linarith
  have hτC : |(1 - t) * C| ≤ 4 * M ^ 2 := by
    rw [abs_mul, abs_of_nonneg hτ0]
    have := mul_le_mul (show 1 - t ≤ 1 by linarith) hC (abs_nonneg _) zero_le_one
    linarith
  have k8 : |q * D| ≤ 6 * W := by have := abs_le_of_err k7; linarith
  have k9 : |P - (1 - t) * C| ≤ (1 - t) * E + 17 * (u * W) + η := by
    have := abs_add_le (P - q * D) (q * D - (1 - t) * C)
    rw [sub_add_sub_cancel] at this
    have := mul_le_mul_of_nonneg_left k8 hu
    linarith
  -- the new sample
  have dev : ∀ {x m v a : ℝ}, |x| ≤ M → |m| ≤ M → |v - m| ≤ 7 * (ε * M) → |a - (x - v)| ≤ u * |x - v| →
      |x - v| ≤ 3 * M ∧ |x - m| ≤ 2 * M ∧ |a - (x - m)| ≤ 10 * (ε * M) := by
    intro x m v a hx hm hv ha
    have h1 : |x - m| ≤ 2 * M := (abs_sub _ _).trans (by linarith)
    have h2 : |x - v - (x - m)| ≤ 7 * (ε * M) := by
      rw [show x - v - (x - m) = -(v - m) by ring, abs_neg]
      exact hv
    have h3 : |x - v| ≤ 2 * M + 7 * (ε * M) := by have := abs_le_of_err h2; linarith
    refine ⟨by linarith, h1, ?_⟩
    have h4 := abs_add_le (a - (x - v)) (x - v - (x - m))
    rw [sub_add_sub_cancel] at h4
    have h5 := mul_le_mul_of_nonneg_left h3 hu
    have h6 := mul_le_mul_of_nonneg_left (show 7 * (ε * M) ≤ M by linarith) hu
    linarith
  obtain ⟨x1, x2, x3⟩ := dev hx hm hv ha
  obtain ⟨y1, y2, y3⟩ := dev hy hm' hv' hb
  obtain ⟨Δ, hΔ⟩ : ∃ Δ, Δ = (x - m) * (y - m') := ⟨_, rfl⟩
  have hΔ4 : |Δ| ≤ 4 * M ^ 2 := by
    rw [hΔ, abs_mul]
    have := mul_le_mul x2 y2 (abs_nonneg _) (by positivity)
    linarith
  have o1 : |a * b - Δ| ≤ 41 * (ε * M ^ 2) := by
    have e : a * b - Δ = (a - (x - m)) * (y - m') + (x - m) * (b - (y - m')) + (a - (x - m)) * (b - (y - m')) := by rw [hΔ]; ring
    rw [e]
    refine (abs_add_le _ _).trans ((add_le_add_left (abs_add_le _ _) _).trans ?_)
    rw [abs_mul, abs_mul, abs_mul]
    have h1 := mul_le_mul x3 y2 (abs_nonneg _) (by positivity)
    have h2 := mul_le_mul x2 y3 (abs_nonneg _) (by positivity)
    have h3 := mul_le_mul x3 y3 (abs_nonneg _) (by positivity)
    have h4 := mul_le_mul_of_nonneg_right hε (show 0 ≤ ε * M ^ 2 by positivity)
    linarith
  have o2 : |a * b| ≤ 5 * M ^ 2 := by have := abs_le_of_err o1; linarith
  have o3 : |o - Δ| ≤ 47 * (ε * M ^ 2) := by
    have := abs_add_le (o - a * b) (a * b - Δ)
    rw [sub_add_sub_cancel] at this
    have := mul_le_mul_of_nonneg_left o2 hu
    linarith
  have o4 : |o| ≤ 5 * M ^ 2 := by have := abs_le_of_err o3; linarith
  have hsM : 0 ≤ s * (ε * M ^ 2) := by positivity
  have hsu : s * (u * M ^ 2) ≤ s * (ε * M ^ 2) := mul_le_mul_of_nonneg_left huMM hs0
  have q1 : |c * o - s * Δ| ≤ 52 * (s * (ε * M ^ 2)) := by
    have e : c * o - s * Δ = s * (o - Δ) + (c - s) * o := by ring
    rw [e]
    refine (abs_add_le _ _).trans ?_
    rw [abs_mul, abs_mul, abs_of_nonneg hs0]
    have h1 := mul_le_mul_of_nonneg_left o3 hs0
    have h2 := mul_le_mul hc o4 (abs_nonneg _) (by positivity)
    linarith
  have hsΔ : |s * Δ| ≤ 4 * (s * M ^ 2) := by
    rw [abs_mul, abs_of_nonneg hs0]
    have := mul_le_mul_of_nonneg_left hΔ4 hs0
    linarith
  have hsεM : 128 * (s * (ε * M ^ 2)) ≤ s * M ^ 2 := by have := mul_le_mul_of_nonneg_left hεMM hs0; linarith
  have hsMM : s * M ^ 2 ≤ 1 / 2 * M ^ 2 := mul_le_mul_of_nonneg_right hs1 hMM
  have hsMM0 : 0 ≤ s * M ^ 2 := by positivity
  have q2 : |c * o| ≤ 5 * (s * M ^ 2) := by have := abs_le_of_err q1; linarith
  have q3 : |Q - s * Δ| ≤ 58 * (s * (ε * M ^ 2)) + η := by
    have := abs_add_le (Q - c * o) (c * o - s * Δ)
    rw [sub_add_sub_cancel] at this
    have := mul_le_mul_of_nonneg_left q2 hu
    linarith
  -- together
  have r1 : |P + Q - ((1 - t) * C + s * Δ)| ≤ (1 - t) * E + 58 * (s * (ε * M ^ 2)) + 17 * (u * W) + 2 * η := by
    have := abs_add_le (P - (1 - t) * C) (Q - s * Δ)
    rw [show P - (1 - t) * C + (Q - s * Δ) = P + Q - ((1 - t) * C + s * Δ) by ring] at this
    linarith
  have r2 : |(1 - t) * C + s * Δ| ≤ 6 * M ^ 2 := (abs_add_le _ _).trans (by linarith)
  have r3 : |P + Q| ≤ 12 * W := by have := abs_le_of_err r1; linarith
  have r4 : |R - ((1 - t) * C + s * Δ)| ≤ (1 - t) * E + 58 * (s * (ε * M ^ 2)) + 29 * (u * W) + 2 * η := by
    have := abs_add_le (R - (P + Q)) (P + Q - ((1 - t) * C + s * Δ))
    rw [sub_add_sub_cancel] at this
    have := mul_le_mul_of_nonneg_left r3 hu
    linarith
  have r5 : |R + r| ≤ 14 * W := by
    have := abs_le_of_err r4
    have := abs_add_le R r
    linarith
  refine ⟨k2, by linarith, x1, y1, by linarith, by linarith, r3, r5, ?_⟩
  rw [← hΔ]
  have := abs_add_le (T - (R + r)) (R - ((1 - t) * C + s * Δ))
  rw [show T - (R + r) + (R - ((1 - t) * C + s * Δ)) = T - ((1 - t) * C + s * Δ + r) by ring] at this
  have := mul_le_mul_of_nonneg_left r5 hu
  linarith

variable {F : Type} [Arith F] {val : F → ℝ} {fin : F → Prop} {u η Ω M γ κ : ℝ} {N d : ℕ}

/-! ## Covariances of lists -/

/-- The sample covariance of two features. -/
noncomputable def covOf (val : F → ℝ) (l : List (List F)) (i j : ℕ) : ℝ :=
  (l.map fun x => (val (x.getD i 0) - mean val l i) * (val (x.getD j 0) - mean val l j)).sum / ((l.length : ℝ) - 1)

theorem cov_real_eq (S : Samples F) (c : ℤ) (i j : Fin d) : Spec.cov (real val d S) c i j = covOf val (own S c) i j := by
  rw [Spec.cov, Matrix.of_apply, covOf, size_real, cluster_real, List.map_map]
  simp only [Function.comp_def, centroid_real]

omit [Arith F] in
theorem sum_codev {ι : Type} (l : List ι) (f g : ι → ℝ) (a b : ℝ) : (l.map fun x => (f x - a) * (g x - b)).sum =
    (l.map fun x => f x * g x).sum - a * (l.map g).sum - b * (l.map f).sum + l.length * (a * b) := by
  induction l with
  | nil => simp
  | cons x l ih =>
    simp only [List.map_cons, List.sum_cons, ih, List.length_cons]
    push_cast
    ring

/-- The sum of products of deviations is a difference. -/
theorem sum_codev_mean {l : List (List F)} (hl : l ≠ []) (i j : ℕ) :
    (l.map fun x => (val (x.getD i 0) - mean val l i) * (val (x.getD j 0) - mean val l j)).sum =
      (l.map fun x => val (x.getD i 0) * val (x.getD j 0)).sum - l.length * (mean val l i * mean val l j) := by
  have hn : (l.length : ℝ) ≠ 0 := by exact_mod_cast (List.length_pos_iff.mpr hl).ne'
  have e : ∀ j, (l.map fun x => val (x.getD j 0)).sum = l.length * mean val l j := fun j => by rw [mean]; field_simp
  rw [sum_codev, e, e]
  ring

theorem covOf_mul {l : List (List F)} (hl : l ≠ []) (i j : ℕ) : ((l.length : ℝ) - 1) * covOf val l i j =
    (l.map fun x => val (x.getD i 0) * val (x.getD j 0)).sum - l.length * (mean val l i * mean val l j) := by
  rw [← sum_codev_mean hl, covOf]
  by_cases h1 : (l.length : ℝ) - 1 = 0
  · rw [h1, zero_mul]
    have hl1 : l.length = 1 := by
      have : (l.length : ℝ) = 1 := by linarith
      exact_mod_cast this
    obtain ⟨x, rfl⟩ := List.length_eq_one_iff.mp hl1
    simp [mean]
  · field_simp

theorem sum_prod_abs {l : List (List F)} {i j : ℕ} (hi : ∀ x ∈ l, |val (x.getD i 0)| ≤ M) (hj : ∀ x ∈ l, |val (x.getD j 0)| ≤ M) :
    (l.map fun x => |val (x.getD i 0) * val (x.getD j 0)|).sum ≤ l.length * M ^ 2 := by
  rw [← map_sum_const]
  refine List.sum_le_sum fun x hx => ?_
  rw [abs_mul]
  have h1 := mul_le_mul (hi x hx) (hj x hx) (abs_nonneg _) ((abs_nonneg _).trans (hi x hx))
  linarith

theorem sum_prod_le {l : List (List F)} {i j : ℕ} (hi : ∀ x ∈ l, |val (x.getD i 0)| ≤ M) (hj : ∀ x ∈ l, |val (x.getD j 0)| ≤ M) :
    |(l.map fun x => val (x.getD i 0) * val (x.getD j 0)).sum| ≤ l.length * M ^ 2 := by
  refine (abs_list_sum _).trans (le_trans (le_of_eq ?_) (sum_prod_abs hi hj))
  rw [List.map_map]
  rfl

theorem mean_prod_le {l : List (List F)} (hl : l ≠ []) {i j : ℕ} (hi : ∀ x ∈ l, |val (x.getD i 0)| ≤ M)
    (hj : ∀ x ∈ l, |val (x.getD j 0)| ≤ M) : |mean val l i * mean val l j| ≤ M ^ 2 := by
  rw [abs_mul]
  have := mul_le_mul (mean_abs hi hl) (mean_abs hj hl) (abs_nonneg _) ((abs_nonneg _).trans (mean_abs hi hl))
  linarith

theorem covOf_abs {l : List (List F)} (hl : l ≠ []) {i j : ℕ} (hi : ∀ x ∈ l, |val (x.getD i 0)| ≤ M)
    (hj : ∀ x ∈ l, |val (x.getD j 0)| ≤ M) : |covOf val l i j| ≤ 4 * M ^ 2 := by
  by_cases h1 : l.length = 1
  · rw [covOf, h1, Nat.cast_one, sub_self, div_zero, abs_zero]
    positivity
  have h2 : 2 ≤ l.length := by have := List.length_pos_iff.mpr hl; omega
  have h2' : (2 : ℝ) ≤ l.length := by exact_mod_cast h2
  have h0 : (0 : ℝ) < (l.length : ℝ) - 1 := by linarith
  have hMM : 0 ≤ M ^ 2 := by positivity
  refine le_of_mul_le_mul_left ?_ h0
  rw [← abs_of_pos h0, ← abs_mul, covOf_mul hl, abs_of_pos h0]
  refine (abs_sub _ _).trans ?_
  rw [abs_mul, Nat.abs_cast]
  have e1 := sum_prod_le hi hj
  have e2 := mul_le_mul_of_nonneg_left (mean_prod_le hl hi hj) (show (0 : ℝ) ≤ l.length by linarith)
  have e3 := mul_le_mul_of_nonneg_right h2' hMM
  linarith

/-- One more sample. -/
theorem covOf_append {l : List (List F)} {x : List F} (hl : l ≠ []) (i j : ℕ) : covOf val (l ++ [x]) i j =
    (1 - 1 / (l.length : ℝ)) * covOf val l i j +
      1 / ((l.length : ℝ) + 1) * ((val (x.getD i 0) - mean val l i) * (val (x.getD j 0) - mean val l j)) := by
  have hn : (0 : ℝ) < l.length := by exact_mod_cast List.length_pos_iff.mpr hl
  have h1 := covOf_mul (val := val) (l := l ++ [x]) (by simp) i j
  have h2 := covOf_mul (val := val) hl i j
  have e : (((l ++ [x]).length : ℕ) : ℝ) = l.length + 1 := by simp
  rw [e, add_sub_cancel_right, List.map_append, List.sum_append, mean_append hl, mean_append hl] at h1
  simp only [List.map_cons, List.map_nil, List.sum_cons, List.sum_nil, add_zero] at h1
  push_cast at h1
  refine mul_left_cancel₀ hn.ne' (h1.trans ?_)
  have e2 : (l.map fun x => val (x.getD i 0) * val (x.getD j 0)).sum =
      ((l.length : ℝ) - 1) * covOf val l i j + l.length * (mean val l i * mean val l j) := by rw [h2]; ring
  rw [e2]
  field_simp
  ring

/-! ## Entries -/

/-- Entry `i, j` of an array -/
def ent (A : Arr2 F) (i j : ℕ) : F := (A.rows.getD i []).getD j 0

section
variable {A B : Arr2 F} {i j : ℕ} (hi : i < d) (hj : j < d)
include hi hj

theorem ent_zip2 {f : F → F → F} (hA : Sq d A) (hB : Sq d B) : ent (zip2 f A B) i j = f (ent A i j) (ent B i j) := by
  have a1 : i < A.rows.length := by rw [hA.2.1]; exact hi
  have b1 : i < B.rows.length := by rw [hB.2.1]; exact hi
  have e : (zip2 f A B).rows.getD i [] = List.zipWith f (A.rows.getD i []) (B.rows.getD i []) := by
    simp [zip2, List.getD_eq_getElem?_getD, a1, b1]
  rw [ent, e, getD_zip]
  · rfl
  · have : A.rows.getD i [] ∈ A.rows := by
      rw [List.getD_eq_getElem?_getD, List.getElem?_eq_getElem a1]
      exact List.getElem_mem a1
    rw [hA.2.2 _ this]; exact hj
  · have : B.rows.getD i [] ∈ B.rows := by
      rw [List.getD_eq_getElem?_getD, List.getElem?_eq_getElem b1]
      exact List.getElem_mem b1
    rw [hB.2.2 _ this]; exact hj

theorem ent_smul {q : F} (hA : Sq d A) : ent (Arr2.smul q A) i j = q * ent A i j := by
  have a1 : i < A.rows.length := by rw [hA.2.1]; exact hi
  have e : (Arr2.smul q A).rows.getD i [] = (A.rows.getD i []).map (q * ·) := by
    simp [Arr2.smul, Vec.smul, List.getD_eq_getElem?_getD, a1]
  rw [ent, e, getD_map (f := (q * ·))]
  · rfl
  · have : A.rows.getD i [] ∈ A.rows := by
      rw [List.getD_eq_getElem?_getD, List.getElem?_eq_getElem a1]
      exact List.getElem_mem a1
    rw [hA.2.2 _ this]; exact hj

theorem ent_outer {x : List F} (hx : x.length = d) : ent (Arr2.outer x x) i j = x.getD i 0 * x.getD j 0 := by
  have h1 : i < x.length := by rw [hx]; exact hi
  have h2 : j < x.length := by rw [hx]; exact hj
  simp [ent, Arr2.outer, List.getD_eq_getElem?_getD, h1, h2]

theorem ent_ridge : ent (ridge d : Arr2 F) i j = (if i = j then Arith.one else 0) * Arith.delta d := by
  simp [ent, ridge, List.getD_eq_getElem?_getD, hi, hj]

end

variable (h : Setting F val fin u η Ω M γ N d) (V : StandardCov F val fin u η Ω κ N d)

/-- The multiple of the unit matrix that is added. -/
noncomputable def delta (d : ℕ) : ℝ := (10 : ℝ) ^ (-(12 : ℝ) / (d : ℝ))

theorem delta_pos (d : ℕ) : 0 < delta d := Real.rpow_pos_of_pos (by norm_num) _
theorem delta_le (d : ℕ) : delta d ≤ 1 := Real.rpow_le_one_of_one_le_of_nonpos (by norm_num)
  (div_nonpos_of_nonpos_of_nonneg (by norm_num) (Nat.cast_nonneg d))

include V in
theorem ridge_near {i j : ℕ} (hi : i < d) (hj : j < d) (hκ : 0 ≤ κ) (hκ1 : κ ≤ 1) : fin (ent (ridge d : Arr2 F) i j) ∧
    |val (ent (ridge d : Arr2 F) i j) - (if i = j then delta d else 0)| ≤ κ * delta d ∧
    |val (ent (ridge d : Arr2 F) i j)| ≤ 2 * delta d := by
  rw [ent_ridge hi hj]
  have h0 := delta_pos d
  have h1 := mul_le_mul_of_nonneg_right hκ1 h0.le
  split
  · refine ⟨V.diag.1, V.diag.2, ?_⟩
    have := abs_le_of_err V.diag.2
    change _ ≤ |delta d| + κ * delta d at this
    rw [abs_of_pos h0] at this
    linarith
  · rw [V.off.2, sub_self, abs_zero]
    exact ⟨V.off.1, by positivity, by positivity⟩

include h V

/-- The running covariance. -/
theorem Setting.covariance (hκ : 0 ≤ κ) (hκ1 : κ ≤ 1) (hΩ : 100 ≤ Ω) {l : List (List F)} (hl : l ≠ []) (hd : ∀ x ∈ l, x.length = d)
    (hx : ∀ x ∈ l, ∀ a ∈ x, fin a ∧ |val a| ≤ M) (hN : l.length ≤ N) {i j : ℕ} (hi : i < d) (hj : j < d) :
    fin (ent (Gauss.of d l).sigma i j) ∧
      |val (ent (Gauss.of d l).sigma i j) - (covOf val l i j + val (ent (ridge d : Arr2 F) i j))| ≤
        58 * (γ * N * M ^ 2) + l.length * (46 * (γ * (M ^ 2 + 2 * delta d))) := by
  obtain ⟨u0, uγ, γN, η0, ηu, ηγ, ηM, M0, Ω1, Ω2⟩ := h.moderate
  obtain ⟨e1, e2, e3, e4, -⟩ := h.eps
  obtain ⟨r1, -, r2⟩ := ridge_near V hi hj hκ hκ1
  have hδ0 := delta_pos d
  have hδ1 := delta_le d
  have hN1 : (1 : ℝ) ≤ N := by exact_mod_cast h.N1
  have hd1 : (1 : ℝ) ≤ d := by exact_mod_cast h.d1
  have hMM : 0 ≤ M ^ 2 := by positivity
  have hγ0 : 0 ≤ γ := u0.trans uγ
  have hdM : M ^ 2 ≤ d * M ^ 2 := by have := mul_le_mul_of_nonneg_right hd1 hMM; linarith
  have hNd : d * M ^ 2 ≤ N * (d * M ^ 2) := by have := mul_le_mul_of_nonneg_right hN1 (hMM.trans hdM); linarith
  have hNM : M ≤ N * M := by have := mul_le_mul_of_nonneg_right hN1 M0; linarith
  have hη1 : η ≤ γ * M ^ 2 := by have := mul_le_mul_of_nonneg_right hN1 η0; linarith
  obtain ⟨W, hW⟩ : ∃ W, W = M ^ 2 + 2 * delta d := ⟨_, rfl⟩
  have hW0 : 0 ≤ W := by linarith
  have hWΩ : 15 * W ≤ Ω := by linarith
  have hγW0 : 0 ≤ γ * W := by positivity
  rw [← hW]
  induction l using List.reverseRecOn with
  | nil => exact absurd rfl hl
  | append_singleton l x ih =>
    have hxd := hd x (by simp)
    by_cases e : l = []
    · subst e
      refine ⟨r1, ?_⟩
      have e' : covOf val ([] ++ [x]) i j = 0 := by simp [covOf]
      rw [e', zero_add]
      change |val (ent (ridge d : Arr2 F) i j) - _| ≤ _
      rw [sub_self, abs_zero]
      positivity
    · have hl' : ∀ y ∈ l, y.length = d := fun y hy => hd y (by simp [hy])
      have hb : ∀ y ∈ l, ∀ a ∈ y, fin a ∧ |val a| ≤ M := fun y hy => hx y (by simp [hy])
      have hlN : l.length + 1 ≤ N := by simpa using hN
      obtain ⟨p1, p2⟩ := ih e hl' hb (by omega)
      have nr := h.centroid e hl' hb (by omega)
      have hnv := Gauss.of_nv (d := d) l
      have hsq := Gauss.of_sq e hl'
      have hst := Stat.of_length e hl'
      have hn := hnv.1.trans hst.1
      have hv : (Gauss.of d l).v.length = d := by rw [hnv.2]; exact hst.2.1
      have hz : (List.zipWith (· - ·) x (Gauss.of d l).v).length = d := by rw [List.length_zipWith, hxd, hv, min_self]
      have hn1 : (1 : ℝ) ≤ l.length := by exact_mod_cast List.length_pos_iff.mpr e
      have hlNr : (l.length : ℝ) + 1 ≤ N := by exact_mod_cast hlN
      rw [Gauss.of_append _ e, Gauss.more_eq _ _ hsq hv hxd,
        ent_zip2 hi hj (zip2_sq (smul_sq (zip2_sq hsq ridge_sq)) (smul_sq (outer_sq hz))) ridge_sq,
        ent_zip2 hi hj (smul_sq (zip2_sq hsq ridge_sq)) (smul_sq (outer_sq hz)), ent_smul hi hj (zip2_sq hsq ridge_sq),
        ent_zip2 hi hj hsq ridge_sq, ent_smul hi hj (outer_sq hz), ent_outer hi hj hz,
        getD_zip (by rw [hxd]; exact hi) (by rw [hv]; exact hi), getD_zip (by rw [hxd]; exact hj) (by rw [hv]; exact hj), hn,
        hnv.2]
      obtain ⟨xi1, xi2⟩ := hx x (by simp) _ (getD_mem (show i < x.length by rw [hxd]; exact hi))
      obtain ⟨xj1, xj2⟩ := hx x (by simp) _ (getD_mem (show j < x.length by rw [hxd]; exact hj))
      obtain ⟨vi1, vi2, vi3⟩ := nr.near i hi
      obtain ⟨vj1, vj2, vj3⟩ := nr.near j hj
      have hC := covOf_abs e (fun y hy => (hb y hy _ (getD_mem (show i < y.length by rw [hl' y hy]; exact hi))).2)
        (fun y hy => (hb y hy _ (getD_mem (show j < y.length by rw [hl' y hy]; exact hj))).2)
      obtain ⟨q1, q2⟩ := V.ratio l.length (List.length_pos_iff.mpr e) (by omega)
      obtain ⟨c1, c2⟩ := h.full.inv (l.length + 1) (by omega) hlN
      rw [covOf_append e]
      push_cast at c2
      have t0 : (0 : ℝ) ≤ 1 / l.length := by positivity
      have t1 : 1 / (l.length : ℝ) ≤ 1 := by rw [div_le_one (by linarith)]; exact hn1
      have s0 : (0 : ℝ) ≤ 1 / (l.length + 1) := by positivity
      have s1 : 1 / ((l.length : ℝ) + 1) ≤ 1 / 2 := one_div_le_one_div_of_le (by norm_num) (by linarith)
      have ts : 1 / ((l.length : ℝ) + 1) ≤ 1 / l.length := one_div_le_one_div_of_le (by linarith) (by linarith)
      have htn : 1 / (l.length : ℝ) * l.length = 1 := by field_simp
      obtain ⟨E, hE⟩ : ∃ E, E = 58 * (γ * N * M ^ 2) + l.length * (46 * (γ * W)) := ⟨_, rfl⟩
      rw [← hE] at p2
      have hE0 : 0 ≤ E := by rw [hE]; positivity
      have hEW : E ≤ W := by
        have h1 := mul_le_mul_of_nonneg_right (show (l.length : ℝ) ≤ N by linarith) (show 0 ≤ 46 * (γ * W) by positivity)
        have h2 := mul_le_mul_of_nonneg_left (show M ^ 2 ≤ W by linarith) e3
        have h3 := mul_le_mul_of_nonneg_right e2 hW0
        linarith
      have z : ∀ y : ℝ, |y - y| ≤ u * |y| := fun y => by rw [sub_self, abs_zero]; positivity
      have zη : ∀ y : ℝ, |y - y| ≤ u * |y| + η := fun y => (z y).trans (by linarith)
      generalize hp : ent (Gauss.of d l).sigma i j = p at *
      generalize hr : ent (ridge d : Arr2 F) i j = r at *
      generalize hx' : x.getD i 0 = x' at *
      generalize hy' : x.getD j 0 = y' at *
      generalize (Stat.of l).v.getD i 0 = v at *
      generalize (Stat.of l).v.getD j 0 = v' at *
      generalize (Arith.intDiv ((l.length : ℤ) - 1) l.length : F) = q at *
      generalize (Arith.invNat (l.length + 1) : F) = c at *
      generalize covOf val l i j = C at *
      generalize mean val l i = m at *
      generalize mean val l j = m' at *
      have key := fun {D P a b o Q R T : ℝ} hD hP ha hb ho hQ hR hT => cov_real (D := D) (P := P) (a := a) (b := b) (o := o) (Q := Q)
        (R := R) (T := T) u0 e1 e2 η0 e4 M0 hW t0 t1 s0 s1 hE0 hEW r2 hC p2 hD q2 hP xi2 xj2 vi3 vj3 vi2 vj2 ha hb ho c2 hQ hR hT
      have k0 := key (z _) (zη _) (z _) (z _) (zη _) (zη _) (z _) (z _)
      obtain ⟨fD, hD⟩ := h.full.sub p r p1 r1 (by linarith [k0.1])
      obtain ⟨fa, ha⟩ := h.full.sub x' v xi1 vi1 (by linarith [k0.2.2.1])
      obtain ⟨fb, hb'⟩ := h.full.sub y' v' xj1 vj1 (by linarith [k0.2.2.2.1])
      have k1 := key hD (zη _) ha hb' (zη _) (zη _) (z _) (z _)
      obtain ⟨fP, hP⟩ := h.full.mul q (p - r) q1 fD (by linarith [k1.2.1])
      obtain ⟨fo, ho⟩ := h.full.mul (x' - v) (y' - v') fa fb (by linarith [k1.2.2.2.2.1])
      have k2 := key hD hP ha hb' ho (zη _) (z _) (z _)
      obtain ⟨fQ, hQ⟩ := h.full.mul c ((x' - v) * (y' - v')) c1 fo (by linarith [k2.2.2.2.2.2.1])
      have k3 := key hD hP ha hb' ho hQ (z _) (z _)
      obtain ⟨fR, hR⟩ := h.full.add _ _ fP fQ (by linarith [k3.2.2.2.2.2.2.1])
      have k4 := key hD hP ha hb' ho hQ hR (z _)
      obtain ⟨fT, hT⟩ := h.full.add _ r fR r1 (by linarith [k4.2.2.2.2.2.2.2.1])
      have k5 := (key hD hP ha hb' ho hQ hR hT).2.2.2.2.2.2.2.2
      refine ⟨fT, k5.trans ?_⟩
      rw [List.length_append, List.length_singleton, Nat.cast_add, Nat.cast_one]
      have huW : u * W ≤ γ * W := mul_le_mul_of_nonneg_right uγ hW0
      have hηW : η ≤ γ * W := hη1.trans (mul_le_mul_of_nonneg_left (by linarith) hγ0)
      have hX : 0 ≤ γ * N * M ^ 2 := by positivity
      have hts := mul_le_mul_of_nonneg_right ts hX
      have e5 : (1 - 1 / (l.length : ℝ)) * E = E - 1 / l.length * (58 * (γ * N * M ^ 2)) - 46 * (γ * W) := by
        rw [hE]
        linear_combination (-(46 * (γ * W))) * htn
      rw [e5, hE]
      linarith

/-- The covariance of a batch. -/
theorem Setting.batchCovariance (B : StandardBatch F val fin u Ω N d) (hκ : 0 ≤ κ) (hκ1 : κ ≤ 1) (hΩ : 100 ≤ Ω) {l : List (List F)}
    (hl : l ≠ []) (hd : ∀ x ∈ l, x.length = d) (hx : ∀ x ∈ l, ∀ a ∈ x, fin a ∧ |val a| ≤ M) (hN : l.length ≤ N) {i j : ℕ} (hi : i < d)
    (hj : j < d) :
    fin (ent (Batch.gauss d l).sigma i j) ∧
      |val (ent (Batch.gauss d l).sigma i j) - (covOf val l i j + val (ent (ridge d : Arr2 F) i j))| ≤
        60 * (γ * N * (M ^ 2 + 2 * delta d)) := by
  obtain ⟨u0, uγ, γN, η0, ηu, ηγ, ηM, M0, Ω1, Ω2⟩ := h.moderate
  obtain ⟨e1, e2, e3, e4, -⟩ := h.eps
  obtain ⟨r1, -, r2⟩ := ridge_near V hi hj hκ hκ1
  have hδ0 := delta_pos d
  have hδ1 := delta_le d
  have hN1 : (1 : ℝ) ≤ N := by exact_mod_cast h.N1
  have hd1 : (1 : ℝ) ≤ d := by exact_mod_cast h.d1
  have hMM : 0 ≤ M ^ 2 := by positivity
  have hγ0 : 0 ≤ γ := u0.trans uγ
  have hdM : M ^ 2 ≤ d * M ^ 2 := by have := mul_le_mul_of_nonneg_right hd1 hMM; linarith
  have hNd : d * M ^ 2 ≤ N * (d * M ^ 2) := by have := mul_le_mul_of_nonneg_right hN1 (hMM.trans hdM); linarith
  have hNNd : N * M ^ 2 ≤ N * (d * M ^ 2) := mul_le_mul_of_nonneg_left hdM (by linarith)
  obtain ⟨W, hW⟩ : ∃ W, W = M ^ 2 + 2 * delta d := ⟨_, rfl⟩
  have hW0 : 0 ≤ W := by linarith
  have hWΩ : 15 * W ≤ Ω := by linarith
  rw [← hW]
  have hεW0 : 0 ≤ γ * N * W := by positivity
  have hεMW : γ * N * M ^ 2 ≤ γ * N * W := mul_le_mul_of_nonneg_left (by linarith) e3
  have huW : u * W ≤ γ * N * W := mul_le_mul_of_nonneg_right e1 hW0
  by_cases hl1 : l.length = 1
  · have hs : (Batch.gauss d l).sigma = ridge d := by simp [Batch.gauss, hl1]
    have hc : covOf val l i j = 0 := by simp [covOf, hl1]
    rw [hs, hc, zero_add, sub_self, abs_zero]
    exact ⟨r1, by positivity⟩
  have hl2 : 2 ≤ l.length := by have := List.length_pos_iff.mpr hl; omega
  have hbi : ∀ y ∈ l, fin (y.getD i 0) ∧ |val (y.getD i 0)| ≤ M := fun y hy =>
    hx y hy _ (getD_mem (show i < y.length by rw [hd y hy]; exact hi))
  have hbj : ∀ y ∈ l, fin (y.getD j 0) ∧ |val (y.getD j 0)| ≤ M := fun y hy =>
    hx y hy _ (getD_mem (show j < y.length by rw [hd y hy]; exact hj))
  have hv : (colMeans d l).length = d := by simp [colMeans]
  obtain ⟨A, hA⟩ : ∃ A : Arr2 F, A = ⟨l.length, (List.range d).map fun j => l.map fun x => x.getD j 0⟩ := ⟨_, rfl⟩
  have hent : ent (Batch.gauss d l).sigma i j = Arith.invPred l.length * (Arith.mm A ⟨d, l⟩ i j -
      Arith.ofNat l.length * ((colMeans d l).getD i 0 * (colMeans d l).getD j 0)) + ent (ridge d : Arr2 F) i j := by
    obtain ⟨X, hX⟩ : ∃ X : Arr2 F, X = ⟨d, (List.range d).map fun i => (List.range d).map fun j => Arith.mm A ⟨d, l⟩ i j⟩ := ⟨_, rfl⟩
    have hXs : Sq d X := by
      subst hX
      refine ⟨rfl, by simp, ?_⟩
      intro r hr
      obtain ⟨i, _, rfl⟩ := List.mem_map.mp hr
      simp
    have hXe : ent X i j = Arith.mm A ⟨d, l⟩ i j := by
      subst hX
      simp [ent, List.getD_eq_getElem?_getD, hi, hj]
    have hs : (Batch.gauss d l).sigma = zip2 (· + ·) (Arr2.smul (Arith.invPred l.length) (zip2 (· - ·) X
        (Arr2.smul (Arith.ofNat l.length) (Arr2.outer (colMeans d l) (colMeans d l))))) (ridge d) := by
      simp only [Batch.gauss, Arr2.smul, Arr2.outer, hv, hX, hA]
      rw [if_pos (by omega : l.length > 1)]
      rfl
    have ho := outer_sq hv
    rw [hs, ent_zip2 hi hj (smul_sq (zip2_sq hXs (smul_sq ho))) ridge_sq, ent_smul hi hj (zip2_sq hXs (smul_sq ho)),
      ent_zip2 hi hj hXs (smul_sq ho), ent_smul hi hj ho, ent_outer hi hj hv, hXe]
  rw [hent]
  have hmm := V.mm A ⟨d, l⟩ i j (l.map fun x => x.getD i 0) (l.map fun x => x.getD j 0)
    (by rw [hA]; simp [List.getD_eq_getElem?_getD, hi]) (fun r hr => by rw [hd r hr]; exact hj) rfl (by simp) (by simpa using hN)
    (by intro y hy; obtain ⟨x, hx', rfl⟩ := List.mem_map.mp hy; exact (hbi x hx').1)
    (by intro y hy; obtain ⟨x, hx', rfl⟩ := List.mem_map.mp hy; exact (hbj x hx').1)
  have hidx : ∀ f : F → F → ℝ, ((List.range l.length).map fun k =>
      f ((l.map fun x => x.getD i 0).getD k 0) ((l.map fun x => x.getD j 0).getD k 0)).sum =
        (l.map fun x => f (x.getD i 0) (x.getD j 0)).sum := by
    intro f
    congr 1
    refine List.ext_getElem (by simp) fun k h1 h2 => ?_
    have hk : k < l.length := by simpa using h2
    simp [List.getD_eq_getElem?_getD, hk]
  rw [List.length_map, hidx fun a b => |val a * val b|, hidx fun a b => val a * val b] at hmm
  have p1 := sum_prod_abs (fun y hy => (hbi y hy).2) (fun y hy => (hbj y hy).2)
  have p2 := sum_prod_le (fun y hy => (hbi y hy).2) (fun y hy => (hbj y hy).2)
  have p3 := mean_prod_le hl (fun y hy => (hbi y hy).2) (fun y hy => (hbj y hy).2)
  have hlN : (l.length : ℝ) ≤ N := by exact_mod_cast hN
  have hn2 : (2 : ℝ) ≤ l.length := by exact_mod_cast hl2
  have hnM : l.length * M ^ 2 ≤ N * M ^ 2 := mul_le_mul_of_nonneg_right hlN hMM
  have hC := covOf_abs hl (fun y hy => (hbi y hy).2) (fun y hy => (hbj y hy).2)
  have hCm := covOf_mul (val := val) hl i j
  obtain ⟨f1, i1⟩ := hmm (by linarith)
  obtain ⟨vi1, vi2, vi3, -⟩ := h.colMean B hl hd hx hN hi
  obtain ⟨vj1, vj2, vj3, -⟩ := h.colMean B hl hd hx hN hj
  obtain ⟨g1, g2⟩ := h.full.ofNat _ hN
  obtain ⟨b1, b2⟩ := V.pred _ hl2 hN
  generalize Arith.mm A ⟨d, l⟩ i j = s at *
  generalize (l.map fun x => val (x.getD i 0) * val (x.getD j 0)).sum = p at *
  generalize (l.map fun x => |val (x.getD i 0) * val (x.getD j 0)|).sum = pa at *
  generalize covOf val l i j = C at *
  generalize mean val l i = m at *
  generalize mean val l j = m' at *
  generalize (colMeans d l).getD i 0 = v at *
  generalize (colMeans d l).getD j 0 = v' at *
  generalize (Arith.ofNat l.length : F) = c at *
  generalize (Arith.invPred l.length : F) = b at *
  generalize ent (ridge d : Arr2 F) i j = r at *
  generalize (l.length : ℝ) = n at *
  have hεM : 128 * (γ * N * M) ≤ M := by have := mul_le_mul_of_nonneg_right e2 M0; linarith
  have hεMM : 128 * (γ * N * M ^ 2) ≤ M ^ 2 := by have := mul_le_mul_of_nonneg_right e2 hMM; linarith
  have hεMM0 : 0 ≤ γ * N * M ^ 2 := by positivity
  have huMM : u * M ^ 2 ≤ γ * N * M ^ 2 := mul_le_mul_of_nonneg_right e1 hMM
  have hnu : n * u ≤ γ * N := by
    have := mul_le_mul hlN uγ u0 (by linarith)
    linarith
  -- the product of the means
  have o1 : |val v * val v' - m * m'| ≤ 10 * (γ * N * M ^ 2) := by
    have e : val v * val v' - m * m' = (val v - m) * m' + m * (val v' - m') + (val v - m) * (val v' - m') := by ring
    rw [e]
    refine (abs_add_le _ _).trans ((add_le_add_left (abs_add_le _ _) _).trans ?_)
    rw [abs_mul, abs_mul, abs_mul]
    have h1 := mul_le_mul vi2 vj3 (abs_nonneg _) (by positivity)
    have h2 := mul_le_mul vi3 vj2 (abs_nonneg _) (by positivity)
    have h3 := mul_le_mul vi2 vj2 (abs_nonneg _) (by positivity)
    have h4 := mul_le_mul_of_nonneg_right e2 (show 0 ≤ γ * N * M ^ 2 by positivity)
    linarith
  have o2 : |val v * val v'| ≤ 2 * M ^ 2 := by have := abs_le_of_err o1; linarith
  obtain ⟨f2, i2⟩ := h.full.mul v v' vi1 vj1 (by linarith)
  have o3 : |val (v * v') - m * m'| ≤ 13 * (γ * N * M ^ 2) := by
    have := abs_add_le (val (v * v') - val v * val v') (val v * val v' - m * m')
    rw [sub_add_sub_cancel] at this
    have := mul_le_mul_of_nonneg_left o2 u0
    linarith
  have o4 : |val (v * v')| ≤ 3 / 2 * M ^ 2 := by have := abs_le_of_err o3; linarith
  have hn0 : 0 ≤ n := by linarith
  have hnM0 : 0 ≤ n * M ^ 2 := by positivity
  have hnε0 : 0 ≤ n * (γ * N * M ^ 2) := by positivity
  have hnε : 128 * (n * (γ * N * M ^ 2)) ≤ n * M ^ 2 := by have := mul_le_mul_of_nonneg_left hεMM hn0; linarith
  have hnuM : u * (n * M ^ 2) ≤ n * (γ * N * M ^ 2) := by have := mul_le_mul_of_nonneg_left huMM hn0; linarith
  have hηn : η ≤ 1 / 2 * (n * (γ * N * M ^ 2)) := by
    have := mul_le_mul_of_nonneg_right hn2 hεMM0
    linarith
  have o5 : |n * val (v * v')| ≤ 3 / 2 * (n * M ^ 2) := by
    rw [abs_mul, abs_of_nonneg hn0]
    have := mul_le_mul_of_nonneg_left o4 hn0
    linarith
  obtain ⟨f3, i3⟩ := h.full.mul c (v * v') g1 f2 (by rw [g2]; linarith)
  rw [g2] at i3
  have o6 : |val (c * (v * v')) - n * (m * m')| ≤ 15 * (n * (γ * N * M ^ 2)) := by
    have h1 := abs_add_le (val (c * (v * v')) - n * val (v * v')) (n * val (v * v') - n * (m * m'))
    rw [sub_add_sub_cancel] at h1
    have h2 : |n * val (v * v') - n * (m * m')| ≤ 13 * (n * (γ * N * M ^ 2)) := by
      rw [← mul_sub, abs_mul, abs_of_nonneg hn0]
      have := mul_le_mul_of_nonneg_left o3 hn0
      linarith
    have h3 := mul_le_mul_of_nonneg_left o5 u0
    linarith
  -- the difference
  have s1 : |val s - p| ≤ 4 * (n * (γ * N * M ^ 2)) := by
    refine i1.trans ?_
    have h1 := mul_le_mul_of_nonneg_left p1 (show 0 ≤ 2 * (n * u) by positivity)
    have h2 := mul_le_mul_of_nonneg_right hnu hnM0
    have h3 := mul_le_mul_of_nonneg_left e4 hn0
    linarith
  have s2 : |val s - val (c * (v * v')) - (n - 1) * C| ≤ 19 * (n * (γ * N * M ^ 2)) := by
    rw [hCm]
    have := abs_sub (val s - p) (val (c * (v * v')) - n * (m * m'))
    rw [show val s - p - (val (c * (v * v')) - n * (m * m')) = val s - val (c * (v * v')) - (p - n * (m * m')) by ring] at this
    linarith
  have s3 : |(n - 1) * C| ≤ 2 * (n * M ^ 2) := by
    rw [hCm]
    refine (abs_sub _ _).trans ?_
    rw [abs_mul, abs_of_nonneg hn0]
    have := mul_le_mul_of_nonneg_left p3 hn0
    linarith
  have s4 : |val s - val (c * (v * v'))| ≤ 5 / 2 * (n * M ^ 2) := by have := abs_le_of_err s2; linarith
  obtain ⟨f4, i4⟩ := h.full.sub s (c * (v * v')) f1 f3 (by linarith)
  have s5 : |val (s - c * (v * v')) - (n - 1) * C| ≤ 22 * (n * (γ * N * M ^ 2)) := by
    have := abs_add_le (val (s - c * (v * v')) - (val s - val (c * (v * v')))) (val s - val (c * (v * v')) - (n - 1) * C)
    rw [sub_add_sub_cancel] at this
    have := mul_le_mul_of_nonneg_left s4 u0
    linarith
  have s6 : |val (s - c * (v * v'))| ≤ 5 / 2 * (n * M ^ 2) := by have := abs_le_of_err s5; linarith
  generalize s - c * (v * v') = D at *
  -- the quotient
  have hn10 : 0 < n - 1 := by linarith
  obtain ⟨w, hw⟩ : ∃ w, w = 1 / (n - 1) := ⟨_, rfl⟩
  have hw0 : 0 < w := by rw [hw]; positivity
  have hw1 : w * (n - 1) = 1 := by rw [hw]; field_simp
  have hwn : w * n ≤ 2 := by
    have := mul_le_mul_of_nonneg_left (show n ≤ 2 * (n - 1) by linarith) hw0.le
    linarith
  rw [← hw] at b2
  have t1 : |val b * val D - C| ≤ 49 * (γ * N * M ^ 2) := by
    have e : val b * val D - C = w * (val D - (n - 1) * C) + (val b - w) * val D := by
      linear_combination C * hw1
    rw [e]
    refine (abs_add_le _ _).trans ?_
    rw [abs_mul, abs_mul, abs_of_pos hw0]
    have h1 := mul_le_mul_of_nonneg_left s5 hw0.le
    have h2 := mul_le_mul b2 s6 (abs_nonneg _) (by positivity)
    have h3 := mul_le_mul_of_nonneg_right hwn (show 0 ≤ 22 * (γ * N * M ^ 2) by positivity)
    have h4 := mul_le_mul_of_nonneg_right hwn (show 0 ≤ 5 / 2 * (u * M ^ 2) by positivity)
    linarith
  have t2 : |val b * val D| ≤ 5 * M ^ 2 := by have := abs_le_of_err t1; linarith
  obtain ⟨f5, i5⟩ := h.full.mul b D b1 f4 (by linarith)
  have t3 : |val (b * D) - C| ≤ 55 * (γ * N * M ^ 2) := by
    have := abs_add_le (val (b * D) - val b * val D) (val b * val D - C)
    rw [sub_add_sub_cancel] at this
    have := mul_le_mul_of_nonneg_left t2 u0
    linarith
  have t4 : |val (b * D) + val r| ≤ 5 * W := by
    have := abs_le_of_err t3
    have := abs_add_le (val (b * D)) (val r)
    linarith
  obtain ⟨f6, i6⟩ := h.full.add (b * D) r f5 r1 (by linarith)
  refine ⟨f6, ?_⟩
  have t5 := abs_add_le (val (b * D + r) - (val (b * D) + val r)) (val (b * D) - C)
  rw [show val (b * D + r) - (val (b * D) + val r) + (val (b * D) - C) = val (b * D + r) - (C + val r) by ring] at t5
  have := mul_le_mul_of_nonneg_left t4 u0
  linarith

/-- `A` is the covariance of `l`, with the multiple of the unit matrix, up to an error. -/
def CovNear (val : F → ℝ) (fin : F → Prop) (d : ℕ) (e : ℝ) (A : Arr2 F) (l : List (List F)) : Prop :=
  Sq d A ∧ ∀ i < d, ∀ j < d, fin (ent A i j) ∧ |val (ent A i j) - (covOf val l i j + if i = j then delta d else 0)| ≤ e

theorem Setting.covNear (hκ : 0 ≤ κ) (hκ1 : κ ≤ 1) (hΩ : 100 ≤ Ω) {l : List (List F)} (hl : l ≠ []) (hd : ∀ x ∈ l, x.length = d)
    (hx : ∀ x ∈ l, ∀ a ∈ x, fin a ∧ |val a| ≤ M) (hN : l.length ≤ N) :
    CovNear val fin d (104 * (γ * N * (M ^ 2 + 2 * delta d)) + κ * delta d) (Gauss.of d l).sigma l := by
  refine ⟨Gauss.of_sq hl hd, fun i hi j hj => ?_⟩
  obtain ⟨f, e⟩ := h.covariance V hκ hκ1 hΩ hl hd hx hN hi hj
  obtain ⟨-, r1, -⟩ := ridge_near V hi hj hκ hκ1
  refine ⟨f, ?_⟩
  have hlN : (l.length : ℝ) ≤ N := by exact_mod_cast hN
  have hγ0 : 0 ≤ γ := h.moderate.u0.trans h.moderate.uγ
  have hδ := delta_pos d
  have e1 := mul_le_mul_of_nonneg_right hlN (show 0 ≤ 46 * (γ * (M ^ 2 + 2 * delta d)) by positivity)
  have e2 := mul_nonneg h.eps.2.2.1 (show 0 ≤ 2 * delta d by positivity)
  have e3 := abs_add_le (val (ent (Gauss.of d l).sigma i j) - (covOf val l i j + val (ent (ridge d : Arr2 F) i j)))
    (val (ent (ridge d : Arr2 F) i j) - (if i = j then delta d else 0))
  rw [show val (ent (Gauss.of d l).sigma i j) - (covOf val l i j + val (ent (ridge d : Arr2 F) i j)) +
    (val (ent (ridge d : Arr2 F) i j) - (if i = j then delta d else 0)) =
      val (ent (Gauss.of d l).sigma i j) - (covOf val l i j + if i = j then delta d else 0) by ring] at e3
  linarith

theorem Setting.batchCovNear (B : StandardBatch F val fin u Ω N d) (hκ : 0 ≤ κ) (hκ1 : κ ≤ 1) (hΩ : 100 ≤ Ω) {l : List (List F)}
    (hl : l ≠ []) (hd : ∀ x ∈ l, x.length = d) (hx : ∀ x ∈ l, ∀ a ∈ x, fin a ∧ |val a| ≤ M) (hN : l.length ≤ N) :
    CovNear val fin d (104 * (γ * N * (M ^ 2 + 2 * delta d)) + κ * delta d) (Batch.gauss d l).sigma l := by
  refine ⟨RCIP.gauss_sq _, fun i hi j hj => ?_⟩
  obtain ⟨f, e⟩ := h.batchCovariance V B hκ hκ1 hΩ hl hd hx hN hi hj
  obtain ⟨-, r1, -⟩ := ridge_near V hi hj hκ hκ1
  refine ⟨f, ?_⟩
  have hδ := delta_pos d
  have e2 := mul_nonneg h.eps.2.2.1 (show 0 ≤ M ^ 2 + 2 * delta d by positivity)
  have e3 := abs_add_le (val (ent (Batch.gauss d l).sigma i j) - (covOf val l i j + val (ent (ridge d : Arr2 F) i j)))
    (val (ent (ridge d : Arr2 F) i j) - (if i = j then delta d else 0))
  rw [show val (ent (Batch.gauss d l).sigma i j) - (covOf val l i j + val (ent (ridge d : Arr2 F) i j)) +
    (val (ent (ridge d : Arr2 F) i j) - (if i = j then delta d else 0)) =
      val (ent (Batch.gauss d l).sigma i j) - (covOf val l i j + if i = j then delta d else 0) by ring] at e3
  linarith

end Rounding
end Verif.Gen
