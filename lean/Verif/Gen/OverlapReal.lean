import Verif.Gen.Perturb
import Mathlib.Analysis.SpecialFunctions.Exp

/-! # The real arithmetic of the error of one overlap of rCIP -/

namespace Verif.Perturb

theorem exp_near {a q θ : ℝ} (hq : 0 ≤ q) (hθ : 0 ≤ θ) (h4 : 4 * θ ≤ 1) (h : |a + q / 2| ≤ θ * (1 + q)) :
    |Real.exp a - Real.exp (-(q / 2))| ≤ 6 * θ := by
  have hc : 0 ≤ θ * (1 + q) := by positivity
  obtain ⟨h1, h2⟩ := abs_le.mp h
  have e1 : Real.exp (1 / 4) ≤ 3 / 2 := by
    have e := Real.add_one_le_exp (-(1 / 4 : ℝ))
    have p := Real.exp_pos (1 / 4)
    rw [Real.exp_neg] at e
    have := mul_le_mul_of_nonneg_right e p.le
    rw [inv_mul_cancel₀ p.ne'] at this
    linarith
  have hup : Real.exp a - Real.exp (-(q / 2)) ≤ 6 * θ := by
    by_cases hab : a ≤ -(q / 2)
    · have := Real.exp_le_exp.mpr hab
      linarith
    · rw [not_le] at hab
      have s1 : Real.exp a - Real.exp (-(q / 2)) ≤ (a + q / 2) * Real.exp a := by
        have e := Real.add_one_le_exp (-(q / 2) - a)
        rw [Real.exp_sub] at e
        have p := Real.exp_pos a
        have := mul_le_mul_of_nonneg_right e p.le
        rw [div_mul_cancel₀ _ p.ne'] at this
        linarith
      have s2 : Real.exp a ≤ Real.exp (1 / 4) * Real.exp (-(q / 4)) := by
        rw [← Real.exp_add]
        apply Real.exp_le_exp.mpr
        have := mul_le_mul_of_nonneg_right h4 (show 0 ≤ 1 + q by linarith)
        linarith
      have s3 : 1 + q ≤ 4 * Real.exp (q / 4) := by have := Real.add_one_le_exp (q / 4); linarith
      have s4 : Real.exp (q / 4) * Real.exp (-(q / 4)) = 1 := by rw [← Real.exp_add]; simp
      calc _ ≤ (a + q / 2) * Real.exp a := s1
        _ ≤ θ * (1 + q) * (Real.exp (1 / 4) * Real.exp (-(q / 4))) := mul_le_mul h2 s2 (Real.exp_pos a).le hc
        _ ≤ θ * (4 * Real.exp (q / 4)) * (Real.exp (1 / 4) * Real.exp (-(q / 4))) :=
          mul_le_mul_of_nonneg_right (mul_le_mul_of_nonneg_left s3 hθ) (by positivity)
        _ = 4 * θ * Real.exp (1 / 4) * (Real.exp (q / 4) * Real.exp (-(q / 4))) := by ring
        _ = 4 * θ * Real.exp (1 / 4) := by rw [s4, mul_one]
        _ ≤ 4 * θ * (3 / 2) := mul_le_mul_of_nonneg_left e1 (by linarith)
        _ = _ := by ring
  have hlow : Real.exp (-(q / 2)) - Real.exp a ≤ 6 * θ := by
    by_cases hab : -(q / 2) ≤ a
    · have := Real.exp_le_exp.mpr hab
      linarith
    · rw [not_le] at hab
      have s1 : Real.exp (-(q / 2)) - Real.exp a ≤ (-(q / 2) - a) * Real.exp (-(q / 2)) := by
        have e := Real.add_one_le_exp (a - -(q / 2))
        rw [Real.exp_sub] at e
        have p := Real.exp_pos (-(q / 2))
        have := mul_le_mul_of_nonneg_right e p.le
        rw [div_mul_cancel₀ _ p.ne'] at this
        linarith
      have s3 : 1 + q ≤ 2 * Real.exp (q / 2) := by have := Real.add_one_le_exp (q / 2); linarith
      have s4 : Real.exp (q / 2) * Real.exp (-(q / 2)) = 1 := by rw [← Real.exp_add]; simp
      calc _ ≤ (-(q / 2) - a) * Real.exp (-(q / 2)) := s1
        _ ≤ θ * (1 + q) * Real.exp (-(q / 2)) := mul_le_mul_of_nonneg_right (by linarith) (Real.exp_pos _).le
        _ ≤ θ * (2 * Real.exp (q / 2)) * Real.exp (-(q / 2)) :=
          mul_le_mul_of_nonneg_right (mul_le_mul_of_nonneg_left s3 hθ) (Real.exp_pos _).le
        _ = 2 * θ * (Real.exp (q / 2) * Real.exp (-(q / 2))) := by ring
        _ = 2 * θ := by rw [s4, mul_one]
        _ ≤ _ := by linarith
  exact abs_le.mpr ⟨by linarith, hup⟩

theorem sqrt_near {x y ρ : ℝ} (hx : 0 ≤ x) (hρ : ρ ≤ 1) (h : |y - x| ≤ ρ * x) : 0 ≤ y ∧ |√y - √x| ≤ ρ * √x := by
  obtain ⟨h1, h2⟩ := abs_le.mp h
  have h3 := mul_le_mul_of_nonneg_right hρ hx
  have hy : 0 ≤ y := by linarith
  refine ⟨hy, ?_⟩
  have hsx := Real.sqrt_nonneg x
  have hsy := Real.sqrt_nonneg y
  have ex := Real.mul_self_sqrt hx
  have ey := Real.mul_self_sqrt hy
  rcases hsx.eq_or_lt with h0 | h0
  · have : x = 0 := by rw [← ex, ← h0, mul_zero]
    subst this
    have : y = 0 := by linarith
    subst this
    simp
  · have e : |√y - √x| * (√y + √x) = |y - x| := by
      rw [← abs_of_nonneg (add_nonneg hsy hsx), ← abs_mul]
      congr 1
      rw [← ex, ← ey]
      simp only [Real.sqrt_mul_self hsx, Real.sqrt_mul_self hsy]
      ring
    refine le_of_mul_le_mul_right ?_ h0
    calc |√y - √x| * √x ≤ |√y - √x| * (√y + √x) := mul_le_mul_of_nonneg_left (by linarith) (abs_nonneg _)
      _ = |y - x| := e
      _ ≤ ρ * x := h
      _ = ρ * √x * √x := by rw [mul_assoc, ex]

/-- The factor in front of the exponential. -/
theorem peak_near {u η θ κ x D s g k K p : ℝ} (hθ : 0 ≤ θ) (hθ1 : 128 * θ ≤ 1) (huθ : u ≤ θ) (hκθ : κ ≤ θ) (hx : 0 < x)
    (hK : 0 ≤ K) (hη : η ≤ θ * (K * (1 / √x))) (hη' : η ≤ θ * (1 / √x)) (hD : |D - x| ≤ 4 * θ * x) (hs : |s - √D| ≤ 2 * u * √D)
    (hg : |g - 1 / s| ≤ u * |1 / s| + η) (hk : |k - K| ≤ κ * K) (hp : |p - k * g| ≤ u * |k * g| + η) :
    0 ≤ D ∧ D ≤ 2 * x ∧ √x / 2 ≤ s ∧ |1 / s| ≤ 2 * (1 / √x) ∧ |k * g| ≤ 2 * (K * (1 / √x)) ∧
      |p - K * (1 / √x)| ≤ 16 * θ * (K * (1 / √x)) := by
  obtain ⟨hD0, h1⟩ := sqrt_near hx.le (by linarith) hD
  have hS0 := Real.sqrt_pos.mpr hx
  generalize √x = S at *
  have hD2 : D ≤ 2 * x := by
    have := mul_le_mul_of_nonneg_right hθ1 hx.le
    linarith [(abs_le.mp hD).2]
  have hθS := mul_le_mul_of_nonneg_right hθ1 hS0.le
  have hθS0 := mul_nonneg hθ hS0.le
  have hsD : √D ≤ (1 + 4 * θ) * S := by linarith [(abs_le.mp h1).2]
  have h2 : |s - S| ≤ 7 * θ * S := by
    have a1 := abs_add_le (s - √D) (√D - S)
    rw [sub_add_sub_cancel] at a1
    have a2 : 2 * u * √D ≤ 2 * θ * ((1 + 4 * θ) * S) := mul_le_mul (by linarith) hsD (Real.sqrt_nonneg _) (by linarith)
    have a3 := mul_le_mul_of_nonneg_left hθ1 hθS0
    linarith
  obtain ⟨h3, h4⟩ := abs_le.mp h2
  have hs0 : S / 2 ≤ s := by linarith
  have hs1 : 0 < s := by linarith
  have hR0 : 0 < 1 / S := by positivity
  have hRS : 1 / S * S = 1 := by field_simp
  generalize hR : 1 / S = R at *
  have h5 : |1 / s - R| ≤ 8 * θ * R := by
    have e : 1 / s - R = (S - s) * R * (1 / s) := by rw [← hR]; field_simp
    rw [e, abs_mul, abs_mul, abs_of_pos hR0, abs_of_pos (by positivity : 0 < 1 / s), mul_one_div, div_le_iff₀ hs1, abs_sub_comm]
    have a1 := mul_le_mul_of_nonneg_right h2 hR0.le
    have a2 : 7 * S ≤ 8 * s := by linarith
    have a3 := mul_le_mul_of_nonneg_left a2 (mul_nonneg hθ hR0.le)
    linarith
  have hθR := mul_le_mul_of_nonneg_right hθ1 hR0.le
  have hθR0 := mul_nonneg hθ hR0.le
  have h6 : |1 / s| ≤ (1 + 8 * θ) * R := by
    have := abs_add_le (1 / s - R) R
    rw [sub_add_cancel, abs_of_pos hR0] at this
    linarith
  have h7 : |g - R| ≤ 11 * θ * R := by
    have a1 := abs_add_le (g - 1 / s) (1 / s - R)
    rw [sub_add_sub_cancel] at a1
    have a2 : u * |1 / s| ≤ θ * ((1 + 8 * θ) * R) := mul_le_mul huθ h6 (abs_nonneg _) hθ
    have a3 := mul_le_mul_of_nonneg_left hθ1 hθR0
    linarith
  have hP0 : 0 ≤ K * R := mul_nonneg hK hR0.le
  generalize hP : K * R = P at *
  have hθP0 := mul_nonneg hθ hP0
  have hθP := mul_le_mul_of_nonneg_right hθ1 hP0
  have a3 := mul_le_mul_of_nonneg_left hθ1 hθP0
  have h8 : |k * g - P| ≤ 13 * θ * P := by
    have e : k * g - P = (k - K) * g + K * (g - R) := by rw [← hP]; ring
    have a1 := abs_add_le ((k - K) * g) (K * (g - R))
    rw [← e, abs_mul, abs_mul, abs_of_nonneg hK] at a1
    have a2 : |g| ≤ (1 + 11 * θ) * R := by
      have := abs_add_le (g - R) R
      rw [sub_add_cancel, abs_of_pos hR0] at this
      linarith
    have a4 : |k - K| * |g| ≤ (θ * K) * ((1 + 11 * θ) * R) :=
      mul_le_mul (hk.trans (mul_le_mul_of_nonneg_right hκθ hK)) a2 (abs_nonneg _) (mul_nonneg hθ hK)
    have a5 := mul_le_mul_of_nonneg_left h7 hK
    have e1 : (θ * K) * ((1 + 11 * θ) * R) = (θ + 11 * θ * θ) * P := by rw [← hP]; ring
    have e2 : K * (11 * θ * R) = 11 * θ * P := by rw [← hP]; ring
    rw [e1] at a4
    rw [e2] at a5
    linarith
  have h9 : |k * g| ≤ (1 + 13 * θ) * P := by
    have := abs_add_le (k * g - P) P
    rw [sub_add_cancel, abs_of_nonneg hP0] at this
    linarith
  refine ⟨hD0, hD2, hs0, by linarith, by linarith, ?_⟩
  have a1 := abs_add_le (p - k * g) (k * g - P)
  rw [sub_add_sub_cancel] at a1
  have a2 : u * |k * g| ≤ θ * ((1 + 13 * θ) * P) := mul_le_mul huθ h9 (abs_nonneg _) hθ
  linarith

/-- The product with the exponential. -/
theorem overlap_real {u η θ P p e E r : ℝ} (hθ : 0 ≤ θ) (hθ1 : 128 * θ ≤ 1) (huθ : u ≤ θ) (hP : 0 ≤ P) (hη : η ≤ θ * P)
    (hp : |p - P| ≤ 16 * θ * P) (he0 : 0 ≤ e) (he1 : e ≤ 1) (hE : |E - e| ≤ 127 * θ) (hr : |r - p * E| ≤ u * |p * E| + η) :
    |p * E| ≤ 3 * P ∧ |r - P * e| ≤ 164 * θ * P := by
  have hθP0 := mul_nonneg hθ hP
  have hθP := mul_le_mul_of_nonneg_right hθ1 hP
  have a3 := mul_le_mul_of_nonneg_left hθ1 hθP0
  have hEa : |E| ≤ 2 := by
    have := abs_add_le (E - e) e
    rw [sub_add_cancel, abs_of_nonneg he0] at this
    linarith
  have h1 : |p * E - P * e| ≤ 159 * θ * P := by
    have e1 : p * E - P * e = (p - P) * E + P * (E - e) := by ring
    have a1 := abs_add_le ((p - P) * E) (P * (E - e))
    rw [← e1, abs_mul, abs_mul, abs_of_nonneg hP] at a1
    have a2 : |p - P| * |E| ≤ (16 * θ * P) * 2 := mul_le_mul hp hEa (abs_nonneg _) (by linarith)
    have a4 := mul_le_mul_of_nonneg_left hE hP
    linarith
  have h2 : |p * E| ≤ 3 * P := by
    have := abs_add_le (p * E - P * e) (P * e)
    rw [sub_add_cancel, abs_of_nonneg (mul_nonneg hP he0)] at this
    have := mul_le_mul_of_nonneg_left he1 hP
    linarith
  refine ⟨h2, ?_⟩
  have a1 := abs_add_le (r - p * E) (p * E - P * e)
  rw [sub_add_sub_cancel] at a1
  have a2 : u * |p * E| ≤ θ * (3 * P) := mul_le_mul huθ h2 (abs_nonneg _) hθ
  linarith

end Verif.Perturb
