import Verif.Gen.B64Linalg
import Verif.Gen.RoundingRCIP
import Verif.Proofs.Bounds

/-! # When the errors of rCIP are small in binary64 -/

namespace Verif.Gen
open B64 Rounding

/-- `n` samples with `d` features up to `M`, libraries with accuracy `κ`: the rounding errors of the covariances and those of
`np.linalg.det`, `np.linalg.inv` are small against `δ = 10 ** (-12 / d)`, the smallest eigenvalue that a covariance may have; and
determinants do not overflow. -/
structure Fits (d n : ℕ) (M κ θ : ℝ) : Prop where
  cov : (2 : ℝ) ^ (-44 : ℤ) * (d ^ 4 * n * (M ^ 2 + 2 * Rounding.delta d)) ≤ θ * Rounding.delta d
  lib : 12 * κ * (d ^ 3 * (M ^ 2 + Rounding.delta d)) * √(6 * (M ^ 2 + Rounding.delta d) / Rounding.delta d) ≤ θ * Rounding.delta d
  θ1 : 128 * θ ≤ 1
  range : (24 * d * (M ^ 2 + 1)) ^ d ≤ (2 : ℝ) ^ (900 : ℤ)

theorem fits_real {D n A δ v κ θ q : ℝ} (hD : 1 ≤ D) (hn : 1 ≤ n) (hA : 0 ≤ A) (hδ : 0 < δ) (hv : 0 < v) (hκ : 0 ≤ κ) (hq : 1 ≤ q)
    (h1 : 512 * v * (D ^ 4 * n * (A + 2 * δ)) ≤ θ * δ) (h2 : 12 * κ * (D ^ 3 * (A + δ)) * q ≤ θ * δ) :
    1024 * (v * D) ≤ θ ∧ κ ≤ θ ∧
    D ^ 3 * (218 * (2 * D * v * n * (A + 2 * δ)) + 2 * (64 * v * δ) + κ * (12 * (A + δ))) ≤ θ * (2 * δ) ∧
    D ^ 2 * (κ * (12 * (A + δ))) * q ≤ θ * (2 * δ) ∧ D ^ 2 * (2 * D * v * (12 * (A + δ))) ≤ θ * (2 * δ) ∧
    D * (17 ^ 2 * (2 * D * v * n) ^ 2 * A) ≤ θ ^ 2 * (2 * δ) := by
  have hD0 : 0 ≤ D := by linarith
  have hn0 : 0 ≤ n := by linarith
  have hq0 : 0 ≤ q := by linarith
  have hQ : 0 < A + 2 * δ := by linarith
  have hd2 : 1 ≤ D ^ 2 := one_le_pow₀ hD
  have hd3 : 1 ≤ D ^ 3 := one_le_pow₀ hD
  have e3 : D ^ 3 ≤ D ^ 4 := pow_le_pow_right₀ hD (by norm_num)
  have e1 : D ≤ D ^ 4 := le_self_pow₀ hD (by norm_num)
  have e32 : D ^ 2 ≤ D ^ 3 := pow_le_pow_right₀ hD (by norm_num)
  have c1 : D ^ 4 ≤ D ^ 4 * n := le_mul_of_one_le_right (by positivity) hn
  have hθ : 1024 * (v * D) ≤ θ := by
    have a1 : D * (2 * δ) ≤ D ^ 4 * n * (A + 2 * δ) := mul_le_mul (e1.trans c1) (by linarith) (by linarith) (by positivity)
    have a2 := mul_le_mul_of_nonneg_left a1 (show 0 ≤ 512 * v by linarith)
    have a3 : 1024 * (v * D) * δ ≤ θ * δ := by linarith
    exact le_of_mul_le_mul_right a3 hδ
  have hB : 12 * κ * (D ^ 3 * (A + δ)) ≤ θ * δ := by
    refine le_trans (le_mul_of_one_le_right (by positivity) hq) h2
  refine ⟨hθ, ?_, ?_, ?_, ?_, ?_⟩
  · have a1 : κ * δ ≤ κ * (D ^ 3 * (A + δ)) := by
      refine mul_le_mul_of_nonneg_left ?_ hκ
      have := mul_le_mul hd3 (show δ ≤ A + δ by linarith) hδ.le (by positivity)
      linarith
    have a2 : κ * δ ≤ θ * δ := by
      have := mul_nonneg hκ hδ.le
      linarith
    exact le_of_mul_le_mul_right a2 hδ
  · have a1 : D ^ 3 * (2 * δ) ≤ D ^ 4 * n * (A + 2 * δ) := mul_le_mul (e3.trans c1) (by linarith) (by linarith) (by positivity)
    have a2 := mul_le_mul_of_nonneg_left a1 hv.le
    have a3 : 0 ≤ v * (D ^ 4 * n * (A + 2 * δ)) := by positivity
    have e : D ^ 3 * (218 * (2 * D * v * n * (A + 2 * δ)) + 2 * (64 * v * δ) + κ * (12 * (A + δ))) =
        436 * (v * (D ^ 4 * n * (A + 2 * δ))) + 64 * (v * (D ^ 3 * (2 * δ))) + 12 * κ * (D ^ 3 * (A + δ)) := by ring
    rw [e]
    linarith
  · have a1 : D ^ 2 * (A + δ) ≤ D ^ 3 * (A + δ) := mul_le_mul_of_nonneg_right e32 (by linarith)
    have a2 := mul_le_mul_of_nonneg_right (mul_le_mul_of_nonneg_left a1 (show 0 ≤ 12 * κ by linarith)) hq0
    have a3 : 0 ≤ 12 * κ * (D ^ 3 * (A + δ)) * q := by positivity
    have e : D ^ 2 * (κ * (12 * (A + δ))) * q = 12 * κ * (D ^ 2 * (A + δ)) * q := by ring
    rw [e]
    linarith
  · have a1 : D ^ 3 * (A + δ) ≤ D ^ 4 * n * (A + 2 * δ) := mul_le_mul (e3.trans c1) (by linarith) (by linarith) (by positivity)
    have a2 := mul_le_mul_of_nonneg_left a1 hv.le
    have a3 : 0 ≤ v * (D ^ 4 * n * (A + 2 * δ)) := by positivity
    have e : D ^ 2 * (2 * D * v * (12 * (A + δ))) = 24 * (v * (D ^ 3 * (A + δ))) := by ring
    rw [e]
    linarith
  · -- `8 A δ ≤ (A + 2 δ) ^ 2`
    have a1 : (512 * v * (D ^ 4 * n * (A + 2 * δ))) ^ 2 ≤ (θ * δ) ^ 2 := pow_le_pow_left₀ (by positivity) h1 2
    have a2 : 8 * (A * δ) ≤ (A + 2 * δ) ^ 2 := by nlinarith [sq_nonneg (A - 2 * δ)]
    have a3 : D ^ 3 ≤ D ^ 8 := pow_le_pow_right₀ hD (by norm_num)
    have a4 : v ^ 2 * n ^ 2 * D ^ 3 * (8 * (A * δ)) ≤ v ^ 2 * n ^ 2 * D ^ 8 * (A + 2 * δ) ^ 2 :=
      mul_le_mul (mul_le_mul_of_nonneg_left a3 (by positivity)) a2 (by positivity) (by positivity)
    have e : (512 * v * (D ^ 4 * n * (A + 2 * δ))) ^ 2 = 512 ^ 2 * (v ^ 2 * n ^ 2 * D ^ 8 * (A + 2 * δ) ^ 2) := by ring
    rw [e] at a1
    have a5 : 0 ≤ v ^ 2 * n ^ 2 * D ^ 3 * (8 * (A * δ)) := by positivity
    have a6 : D * (17 ^ 2 * (2 * D * v * n) ^ 2 * A) * δ ≤ θ ^ 2 * (2 * δ) * δ := by
      have e1 : D * (17 ^ 2 * (2 * D * v * n) ^ 2 * A) * δ = 289 / 2 * (v ^ 2 * n ^ 2 * D ^ 3 * (8 * (A * δ))) := by ring
      have e2 : θ ^ 2 * (2 * δ) * δ = 2 * (θ * δ) ^ 2 := by ring
      rw [e1, e2]
      linarith
    exact le_of_mul_le_mul_right a6 hδ

theorem sizes_real {D n A δ v θ : ℝ} (hD : 1 ≤ D) (hn : 1 ≤ n) (hA : 0 ≤ A) (hδ : 0 < δ) (hδ1 : δ ≤ 1) (hv : 0 < v)
    (h1 : 512 * v * (D ^ 4 * n * (A + 2 * δ)) ≤ θ * δ) (h2 : 128 * θ ≤ 1) : 2 ^ 17 * (v * (D ^ 4 * n)) ≤ 1 ∧ 2 ^ 16 * (v * A) ≤ 1 := by
  have hd4 : 1 ≤ D ^ 4 := one_le_pow₀ hD
  have h3 : θ * δ ≤ 1 / 128 * δ := mul_le_mul_of_nonneg_right (by linarith) hδ.le
  constructor
  · have a1 : D ^ 4 * n * (2 * δ) ≤ D ^ 4 * n * (A + 2 * δ) := mul_le_mul_of_nonneg_left (by linarith) (by positivity)
    have a2 := mul_le_mul_of_nonneg_left a1 hv.le
    have a3 : 2 ^ 17 * (v * (D ^ 4 * n)) * δ ≤ 1 * δ := by linarith
    exact le_of_mul_le_mul_right a3 hδ
  · have a0 : 1 ≤ D ^ 4 * n := by nlinarith
    have a1 : 1 * A ≤ D ^ 4 * n * (A + 2 * δ) := mul_le_mul a0 (by linarith) hA (by positivity)
    have a2 := mul_le_mul_of_nonneg_left a1 hv.le
    linarith

theorem le_of_u_mul {x : ℝ} {e : ℕ} (he : e ≤ 53) (h : 2 ^ e * (u * x) ≤ 1) : x ≤ 2 ^ (53 - e) := by
  have h1 : (2 : ℝ) ^ e * 2 ^ (53 - e) = 2 ^ 53 := by rw [← pow_add, Nat.add_sub_cancel' he]
  have h2 : u * 2 ^ 53 = 1 := by unfold u; norm_num
  have h3 : 2 ^ e * (u * x) * 2 ^ (53 - e) = x := by
    calc 2 ^ e * (u * x) * 2 ^ (53 - e) = u * (2 ^ e * 2 ^ (53 - e)) * x := by ring
      _ = x := by rw [h1, h2, one_mul]
  have h4 := mul_le_mul_of_nonneg_right h (show (0 : ℝ) ≤ 2 ^ (53 - e) by positivity)
  rw [h3, one_mul] at h4
  exact h4

/-- There are not too many samples, and they are not too large. -/
theorem Fits.sizes {d n : ℕ} {M κ θ : ℝ} (h : Fits d n M κ θ) (hd : 1 ≤ d) (hn : 1 ≤ n) : d * n ≤ 2 ^ 36 ∧ M ≤ 2 ^ 19 := by
  have hD : (1 : ℝ) ≤ d := by exact_mod_cast hd
  have h1 := h.cov
  rw [show (2 : ℝ) ^ (-44 : ℤ) = 512 * u by unfold u; norm_num] at h1
  obtain ⟨g1, g2⟩ := sizes_real hD (by exact_mod_cast hn) (sq_nonneg M) (Rounding.delta_pos d) (Rounding.delta_le d) u_pos h1 h.θ1
  constructor
  · have h2 : ((d * n : ℕ) : ℝ) ≤ 2 ^ 36 := by
      refine le_trans ?_ (le_of_u_mul (by norm_num) g1)
      rw [Nat.cast_mul]
      exact mul_le_mul_of_nonneg_right (le_self_pow₀ hD (by norm_num)) (Nat.cast_nonneg n)
    exact_mod_cast h2
  · have h2 : M ^ 2 ≤ (2 ^ 19) ^ 2 := le_trans (le_of_u_mul (by norm_num) g2) (by norm_num)
    exact (le_abs_self M).trans (abs_le_of_sq_le_sq h2 (by norm_num))

set_option maxHeartbeats 1000000 in
/-- The standard model holds with room to spare. -/
theorem Fits.small {d n : ℕ} {M κ θ : ℝ} (h : Fits d n M κ θ) (hd : 1 ≤ d) (hn : 1 ≤ n) (hM : 0 ≤ M) (hκ : 0 ≤ κ) :
    Small u η Ω M (2 * d * u) κ ((2 : ℝ) ^ (-47 : ℤ)) θ n d := by
  have hδ := Rounding.delta_pos d
  have hδ1 := Rounding.delta_le d
  have hu := u_pos
  have hη := η_pos
  have hD : (1 : ℝ) ≤ d := by exact_mod_cast hd
  have hn' : (1 : ℝ) ≤ n := by exact_mod_cast hn
  have e44 : (2 : ℝ) ^ (-44 : ℤ) = 512 * u := by unfold u; norm_num
  have e47 : (2 : ℝ) ^ (-47 : ℤ) = 64 * u := by unfold u; norm_num
  obtain ⟨h1, h2, h3, h4⟩ := h
  have h1' := h1
  rw [e44] at h1
  have hM2 : 0 ≤ M ^ 2 := sq_nonneg M
  have hq : 1 ≤ √(6 * (M ^ 2 + Rounding.delta d) / Rounding.delta d) := by
    rw [Real.one_le_sqrt, le_div_iff₀ hδ]
    linarith
  obtain ⟨f1, f2, f3, f4, f5, f6⟩ := fits_real hD hn' hM2 hδ hu hκ hq h1 h2
  have hθ0 : (2 : ℝ) ^ (-43 : ℤ) ≤ θ := by
    refine le_trans ?_ f1
    have e : (2 : ℝ) ^ (-43 : ℤ) = 1024 * (u * 1) := by unfold u; norm_num
    rw [e]
    exact mul_le_mul_of_nonneg_left (mul_le_mul_of_nonneg_left hD hu.le) (by norm_num)
  have hθp : 0 ≤ θ := le_trans (by positivity) hθ0
  -- the sizes
  have hδ40 : (2 : ℝ) ^ (-40 : ℤ) ≤ Rounding.delta d := delta_ge hd
  have hδi : (Rounding.delta d)⁻¹ ≤ (2 : ℝ) ^ (40 : ℕ) := by
    rw [inv_le_comm₀ hδ (by positivity)]
    refine le_trans (le_of_eq ?_) hδ40
    norm_num
  obtain ⟨g1, g2⟩ := sizes_real hD hn' hM2 hδ hδ1 hu h1 h3
  have hd4 : (d : ℝ) ^ 4 ≤ 2 ^ 36 := (le_mul_of_one_le_right (by positivity) hn').trans (le_of_u_mul (by norm_num) g1)
  have hM37 : M ^ 2 ≤ 2 ^ 37 := le_of_u_mul (by norm_num) g2
  have hd9 : (d : ℝ) ≤ 2 ^ 9 := by
    have : (d : ℝ) ^ 4 ≤ (2 ^ 9) ^ 4 := hd4.trans (by norm_num)
    exact le_of_pow_le_pow_left₀ (by norm_num) (by norm_num) this
  have hM19 : M ≤ 2 ^ 19 := by
    have : M ^ 2 ≤ (2 ^ 19) ^ 2 := hM37.trans (by norm_num)
    exact le_of_pow_le_pow_left₀ (by norm_num) (by norm_num) this
  -- the ranges
  have hdM : 0 ≤ (d : ℝ) * M := by positivity
  have hdM28 : (d : ℝ) * M ≤ 2 ^ 28 := (mul_le_mul hd9 hM19 hM (by positivity)).trans (by norm_num)
  have hpow : ∀ x : ℝ, 0 ≤ x → x ≤ 24 * d * (M ^ 2 + 1) → x ^ d ≤ (2 : ℝ) ^ (900 : ℤ) := fun x hx hx' =>
    (pow_le_pow_left₀ hx hx' d).trans h4
  have hpi := Real.pi_le_four
  have hpi0 := Real.pi_pos
  have r2 : (2 * Real.pi) ^ d ≤ (2 : ℝ) ^ (900 : ℤ) := hpow _ (by positivity) (by nlinarith)
  have rβ : (d * (12 * (M ^ 2 + Rounding.delta d))) ^ d ≤ (2 : ℝ) ^ (900 : ℤ) := hpow _ (by positivity) (by nlinarith)
  have hsqrt : ∀ x : ℝ, x ≤ (2 : ℝ) ^ (900 : ℤ) → √x ≤ (2 : ℝ) ^ (450 : ℤ) := fun x hx => by
    refine Real.sqrt_le_iff.mpr ⟨by positivity, hx.trans (le_of_eq ?_)⟩
    rw [sq, two_zpow_mul]; norm_num
  have hΩ9 : (2 : ℝ) ^ (900 : ℤ) ≤ Ω := le_Ω (by norm_num)
  have hη83 : ∀ x : ℝ, x ≤ (2 : ℝ) ^ (900 : ℤ) → η * x ≤ θ := fun x hx => by
    refine le_trans (mul_le_mul_of_nonneg_left hx hη.le) (le_trans ?_ hθ0)
    rw [η_eq, two_zpow_mul]
    exact two_zpow_le (by norm_num)
  have hbig : ∀ x : ℝ, x ≤ 2 ^ 200 → x ≤ (2 : ℝ) ^ (900 : ℤ) := fun x hx => by
    refine hx.trans ?_
    have : (2 : ℝ) ^ (200 : ℕ) = (2 : ℝ) ^ ((200 : ℕ) : ℤ) := (zpow_natCast _ _).symm
    rw [this]
    exact two_zpow_le (by norm_num)
  have hdu : (d : ℝ) * u = u * d := mul_comm _ _
  have hud : 0 ≤ u * d := by positivity
  exact {
    d1 := hd
    u0 := hu.le
    uγ := by
      have := mul_le_mul_of_nonneg_left hD hu.le
      linarith
    du := by linarith
    γθ := by linarith
    κ0 := hκ
    κθ := f2
    θ1 := h3
    η0 := hη.le
    m0 := by linarith
    m2 := by linarith
    md := by
      rw [mul_pow, show Rounding.delta d ^ d = (10 : ℝ) ^ (-12 : ℤ) from Verif.delta_pow hd]
      refine mul_le_mul_of_nonneg_right ?_ (by positivity)
      exact le_self_pow₀ (by norm_num) (by omega)
    β0 := by positivity
    ε0 := by positivity
    V0 := by positivity
    det := by rw [e47]; exact f3
    inv := by
      refine le_trans (le_of_eq ?_) f4
      congr 2
      field_simp
      ring
    dot := f5
    shift := by
      refine le_trans (le_of_eq ?_) f6
      ring
    tiny := by
      refine hη83 _ (hbig _ ?_)
      have a1 : 12 * (d : ℝ) * (d * (3 * M)) / (2 * Rounding.delta d) ≤ 2 ^ 100 := by
        have e : 12 * (d : ℝ) * (d * (3 * M)) / (2 * Rounding.delta d) = 18 * (d * (d * M)) * (Rounding.delta d)⁻¹ := by field_simp; ring
        rw [e]
        have a2 : (d : ℝ) * (d * M) ≤ 2 ^ 9 * 2 ^ 28 := mul_le_mul hd9 hdM28 hdM (by positivity)
        have a3 := mul_le_mul (mul_le_mul_of_nonneg_left a2 (show (0 : ℝ) ≤ 18 by norm_num)) hδi (by positivity) (by positivity)
        refine a3.trans (by norm_num)
      have a4 : (2 : ℝ) ^ 100 + 2 * 2 ^ 9 ≤ 2 ^ 200 := by norm_num
      exact le_trans (add_le_add a1 (mul_le_mul_of_nonneg_left hd9 (by norm_num))) a4
    peak := by
      refine hη83 _ ?_
      refine (mul_le_mul (hsqrt _ r2) (hsqrt _ rβ) (Real.sqrt_nonneg _) (by positivity)).trans (le_of_eq ?_)
      rw [two_zpow_mul]; norm_num
    range1 := (hpow _ (by positivity) (by nlinarith)).trans hΩ9
    range2 := r2.trans hΩ9
    range3 := (hbig _ (by norm_num)).trans hΩ9
    range4 := by
      refine le_trans (hbig _ ?_) hΩ9
      have e : 32 * (d * (3 * M) + 1) ^ 2 / (2 * Rounding.delta d) = 16 * (3 * (d * M) + 1) ^ 2 * (Rounding.delta d)⁻¹ := by field_simp; ring
      rw [e]
      have a1 : 3 * (d * M) + 1 ≤ 2 ^ 30 := by norm_num at hdM28 ⊢; linarith
      have a2 := pow_le_pow_left₀ (by linarith) a1 2
      have a3 := mul_le_mul (mul_le_mul_of_nonneg_left a2 (show (0 : ℝ) ≤ 16 by norm_num)) hδi (by positivity) (by positivity)
      refine a3.trans (by norm_num) }

end Verif.Gen
