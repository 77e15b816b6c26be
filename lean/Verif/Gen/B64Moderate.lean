import Verif.Gen.B64Range
import Verif.Gen.RoundingCP

/-! # Data sets of moderate size in binary64 -/

namespace Verif.Gen.B64

/-- Features up to `M`, between `2 ^ -400` and `2 ^ 450`, and up to `2 ^ 44` numbers in all, are moderate. -/
theorem moderate {d n : ℕ} {M : ℝ} (hd : 1 ≤ d) (hp : 1 ≤ n) (hN : d * n ≤ 2 ^ 44) (hM0 : (2 : ℝ) ^ (-400 : ℤ) ≤ M)
    (hM : M ≤ (2 : ℝ) ^ (450 : ℤ)) : Rounding.Moderate u η Ω M (2 * d * u) n d := by
  have hd' : (1 : ℝ) ≤ d := by exact_mod_cast hd
  have hp' : (1 : ℝ) ≤ n := by exact_mod_cast hp
  have hN' : (d : ℝ) * n ≤ 2 ^ 44 := by exact_mod_cast hN
  have hdl : d ≤ 2 ^ 44 := (Nat.le_mul_of_pos_right d hp).trans hN
  have hnl : n ≤ 2 ^ 44 := (Nat.le_mul_of_pos_left n hd).trans hN
  have hnl' : (n : ℝ) ≤ 2 ^ 44 := by exact_mod_cast hnl
  have hMp : 0 < M := lt_of_lt_of_le (by positivity) hM0
  have hu := u_pos
  have hη := η_pos
  have ue : (2 : ℝ) ^ 53 * u = 1 := by unfold u; norm_num
  /- η is far below everything -/
  have k1 : η ≤ (2 : ℝ) ^ (-100 : ℤ) * M := by
    rw [η_eq]
    refine le_trans ?_ (mul_le_mul_of_nonneg_left hM0 (by positivity))
    rw [two_zpow_mul]; exact two_zpow_le (by norm_num)
  have k2 : η ≤ (2 : ℝ) ^ (-100 : ℤ) * M ^ 2 := by
    have h1 : (2 : ℝ) ^ (-800 : ℤ) ≤ M ^ 2 := by
      have := mul_self_le_mul_self (by positivity) hM0
      rw [two_zpow_mul] at this
      rw [sq]; exact this
    rw [η_eq]
    refine le_trans ?_ (mul_le_mul_of_nonneg_left h1 (by positivity))
    rw [two_zpow_mul]; exact two_zpow_le (by norm_num)
  have k3 : M ≤ Ω / 2 ^ 200 := by
    rw [le_div_iff₀ (by positivity)]
    have := mul_le_mul_of_nonneg_right hM (show (0 : ℝ) ≤ (2 : ℝ) ^ (200 : ℤ) by positivity)
    rw [two_zpow_mul] at this
    rw [← zpow_natCast]
    exact this.trans (le_Ω (by norm_num))
  have k4 : M ^ 2 ≤ Ω / 2 ^ 100 := by
    rw [le_div_iff₀ (by positivity)]
    have h1 := mul_self_le_mul_self hMp.le hM
    rw [two_zpow_mul] at h1
    have h2 := mul_le_mul_of_nonneg_right h1 (show (0 : ℝ) ≤ (2 : ℝ) ^ (100 : ℤ) by positivity)
    rw [two_zpow_mul] at h2
    rw [sq, ← zpow_natCast 2 100]
    exact h2.trans (le_Ω (by norm_num))
  have hΩ : 0 < Ω := lt_of_lt_of_le (by positivity) (le_Ω (e := 0) (by norm_num))
  refine ⟨hu.le, ?_, ?_, hη.le, ?_, ?_, ?_, hMp.le, ?_, ?_⟩
  · have := mul_le_mul_of_nonneg_right hd' hu.le
    linarith
  · have := mul_le_mul_of_nonneg_right hN' hu.le
    linarith
  · refine k1.trans (mul_le_mul_of_nonneg_right ?_ hMp.le)
    unfold u; exact two_zpow_le (by norm_num)
  · have h1 := mul_le_mul hnl' k2 hη.le (by positivity)
    have h2 : (2 : ℝ) ^ 44 * ((2 : ℝ) ^ (-100 : ℤ) * M ^ 2) ≤ 1 * u * M ^ 2 := by
      rw [← mul_assoc]
      exact mul_le_mul_of_nonneg_right (by unfold u; norm_num) (by positivity)
    have h3 : 1 * u * M ^ 2 ≤ 2 * d * u * M ^ 2 :=
      mul_le_mul_of_nonneg_right (mul_le_mul_of_nonneg_right (by linarith) hu.le) (by positivity)
    exact (h1.trans h2).trans h3
  · have h1 := mul_le_mul hnl' k1 hη.le (by positivity)
    have h2 : (2 : ℝ) ^ 44 * ((2 : ℝ) ^ (-100 : ℤ) * M) ≤ 1 / 100 * M := by
      rw [← mul_assoc]
      exact mul_le_mul_of_nonneg_right (by norm_num) hMp.le
    have h3 := h1.trans h2
    clear h1 h2 k1 k2 k3 k4 hM0 hM
    linarith
  · have h1 := mul_le_mul hnl' k3 hMp.le (by positivity)
    have h2 : (2 : ℝ) ^ 44 * (Ω / 2 ^ 200) ≤ 1 / 17 * Ω := by
      rw [mul_div_assoc', div_le_iff₀ (by positivity)]
      have := mul_le_mul_of_nonneg_right (show (2 : ℝ) ^ 44 ≤ 1 / 17 * 2 ^ 200 by norm_num) hΩ.le
      linarith
    have h3 := h1.trans h2
    clear h1 h2 k1 k2 k3 k4 hM0 hM
    linarith
  · have h1 := mul_le_mul hN' k4 (by positivity) (by positivity)
    have h2 : (2 : ℝ) ^ 44 * (Ω / 2 ^ 100) ≤ 1 / 73 * Ω := by
      rw [mul_div_assoc', div_le_iff₀ (by positivity)]
      have := mul_le_mul_of_nonneg_right (show (2 : ℝ) ^ 44 ≤ 1 / 73 * 2 ^ 100 by norm_num) hΩ.le
      linarith
    have h3 := h1.trans h2
    clear h1 h2 k1 k2 k3 k4 hM0 hM
    linarith

end Verif.Gen.B64
