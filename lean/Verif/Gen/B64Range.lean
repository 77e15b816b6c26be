import Verif.Gen.B64Dot

/-!
# The range of binary64, as powers of two
-/

namespace Verif.Gen
namespace B64

theorem two_zpow_le {a b : ℤ} (h : a ≤ b) : (2 : ℝ) ^ a ≤ (2 : ℝ) ^ b := zpow_le_zpow_right₀ (by norm_num) h

theorem two_zpow_mul (a b : ℤ) : (2 : ℝ) ^ a * (2 : ℝ) ^ b = (2 : ℝ) ^ (a + b) := (zpow_add₀ (by norm_num) a b).symm

theorem η_eq : η = (2 : ℝ) ^ (-1075 : ℤ) := by
  have h : (2 : ℝ) ^ (-1074 : ℤ) = (2 : ℝ) ^ (-1075 : ℤ) * 2 := by
    rw [show (-1074 : ℤ) = -1075 + 1 by norm_num, zpow_add_one₀ (by norm_num)]
  rw [η, lam, h]
  exact mul_div_cancel_right₀ _ (by norm_num)

/-- The largest finite number. -/
theorem Ω_eq : Ω = (2 ^ 53 - 1) * (2 : ℝ) ^ (971 : ℤ) := by
  have h : (2 : ℝ) ^ (971 : ℤ) = (2 : ℝ) ^ (2045 : ℤ) * (2 : ℝ) ^ (-1074 : ℤ) := by rw [two_zpow_mul]; rfl
  have e : (maxMag : ℝ) = (2 ^ 53 - 1) * (2 : ℝ) ^ (2045 : ℤ) := by
    unfold maxMag
    rw [Nat.cast_mul, Nat.cast_pow, show (2045 : ℤ) = ((2045 : ℕ) : ℤ) from rfl, zpow_natCast]
    norm_num only [Nat.cast_ofNat]
  rw [Ω, e, h, lam, mul_assoc]

theorem le_Ω {e : ℤ} (h : e ≤ 1023) : (2 : ℝ) ^ e ≤ Ω := by
  refine (two_zpow_le h).trans ?_
  have h2 : (2 : ℝ) ^ (1023 : ℤ) = 2 ^ 52 * (2 : ℝ) ^ (971 : ℤ) := by
    rw [show (1023 : ℤ) = ((52 : ℕ) : ℤ) + 971 by norm_num, zpow_add₀ (by norm_num), zpow_natCast]
  rw [h2, Ω_eq]
  exact mul_le_mul_of_nonneg_right (by norm_num) (by positivity)

end B64
end Verif.Gen
