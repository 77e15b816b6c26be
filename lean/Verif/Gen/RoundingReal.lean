import Mathlib.Data.Real.Basic
import Mathlib.Tactic.Linarith
import Mathlib.Tactic.Positivity
import Mathlib.Tactic.FieldSimp
import Mathlib.Tactic.Ring
import Mathlib.Algebra.Order.BigOperators.Group.Finset
import Mathlib.Algebra.BigOperators.Group.List.Basic

/-! # Inequalities between reals for the error of the compactness -/

namespace Verif.Gen.Rounding

/-- A rounded number is not much larger. -/
theorem abs_le_of_err {a b e : ℝ} (h : |a - b| ≤ e) : |a| ≤ |b| + e := by
  have := abs_sub_abs_le_abs_sub a b
  linarith

/-- The centroid moves by at most `4 B / p`. -/
theorem delta_bound {u η B V V' x : ℝ} {p : ℕ} (hu : 0 ≤ u) (hη : 0 ≤ η) (hB : 0 ≤ B) (huk : 4 * u * (p + 1) ≤ 1)
    (hηk : 3 * (p + 1) * η ≤ B) (hV : |V| ≤ B) (hx : |x| ≤ B)
    (h : |V' - (p * V + x) / (p + 1)| ≤ 4 * u * B + 3 * η) : p * |V - V'| ≤ 4 * B := by
  have hp0 : (0 : ℝ) ≤ p := Nat.cast_nonneg p
  have hk : (0 : ℝ) < p + 1 := by linarith
  have e : V - V' = (V - x) / (p + 1) - (V' - (p * V + x) / (p + 1)) := by field_simp; ring
  have h1 : |V - V'| ≤ |V - x| / (p + 1) + (4 * u * B + 3 * η) := by
    rw [e]
    refine (abs_sub _ _).trans ?_
    rw [abs_div, abs_of_pos hk]
    linarith
  have h2 : |V - x| ≤ 2 * B := by
    have := abs_sub V x
    linarith
  have h3 : p * (|V - x| / (p + 1)) ≤ |V - x| := by
    rw [mul_div_assoc', div_le_iff₀ hk]
    nlinarith [abs_nonneg (V - x)]
  have h4 : p * |V - V'| ≤ p * (|V - x| / (p + 1) + (4 * u * B + 3 * η)) := mul_le_mul_of_nonneg_left h1 hp0
  have h5 : p * (4 * u * B + 3 * η) ≤ (p + 1) * (4 * u * B + 3 * η) :=
    mul_le_mul_of_nonneg_right (by linarith) (by positivity)
  have h6 : 4 * u * (p + 1) * B ≤ 1 * B := mul_le_mul_of_nonneg_right huk hB
  linarith

/-- One step of `G`: `H` is the exact sum of deviations. -/
theorem g_step {u η B H g X Xh D Dh t1 t2 g' : ℝ} {p : ℕ} (hp : 1 ≤ p) (hu : 0 ≤ u) (hu1 : u ≤ 1 / 64) (hB : 0 ≤ B)
    (hup : 18 * u * p ≤ 1) (hη : 0 ≤ η) (hηB : η ≤ u * B) (hH : |H| ≤ 2 * p * B) (hg : |g - H| ≤ 9 * u * p ^ 2 * B)
    (hX : |X| ≤ 2 * B) (hXh : |Xh - X| ≤ u * |X|) (hD : p * |D| ≤ 4 * B) (hDh : |Dh - D| ≤ u * |D|)
    (h1 : |t1 - (g + Xh)| ≤ u * |g + Xh|) (h2 : |t2 - p * Dh| ≤ u * |p * Dh| + η) (h3 : |g' - (t1 + t2)| ≤ u * |t1 + t2|) :
    |g| ≤ 5 / 2 * p * B ∧ |g + Xh| ≤ 5 * p * B ∧ |p * Dh| ≤ 5 * B ∧ |t1 + t2| ≤ 11 * p * B ∧
      |g' - (H + X + p * D)| ≤ 9 * u * (p + 1) ^ 2 * B := by
  have hp0 : (0 : ℝ) ≤ p := Nat.cast_nonneg p
  have hp1 : (1 : ℝ) ≤ p := by exact_mod_cast hp
  have huB : 0 ≤ u * B := mul_nonneg hu hB
  have huB1 : u * B ≤ B / 64 := by have := mul_le_mul_of_nonneg_right hu1 hB; linarith
  have hpB : B ≤ p * B := by have := mul_le_mul_of_nonneg_right hp1 hB; linarith
  have hupB : u * B ≤ u * (p * B) := mul_le_mul_of_nonneg_left hpB hu
  have huX : u * |X| ≤ 2 * (u * B) := by have := mul_le_mul_of_nonneg_left hX hu; linarith
  have hXh' : |Xh| ≤ 2 * B + 2 * (u * B) := by have := abs_le_of_err hXh; linarith
  have hpD : |p * Dh - p * D| ≤ 4 * (u * B) := by
    rw [← mul_sub, abs_mul, abs_of_nonneg hp0]
    have := mul_le_mul_of_nonneg_left hDh hp0
    have := mul_le_mul_of_nonneg_left hD hu
    linarith
  have hpD' : |p * Dh| ≤ 4 * B + 4 * (u * B) := by
    have := abs_le_of_err hpD
    have e : |p * D| = p * |D| := by rw [abs_mul, abs_of_nonneg hp0]
    linarith
  have he : 9 * u * p ^ 2 * B ≤ 1 / 2 * (p * B) := by
    have : 18 * u * p * (p * B) ≤ 1 * (p * B) := mul_le_mul_of_nonneg_right hup (by positivity)
    have e : 9 * u * p ^ 2 * B = 1 / 2 * (18 * u * p * (p * B)) := by ring
    rw [e]; linarith
  have hg' : |g| ≤ 5 / 2 * (p * B) := by have := abs_le_of_err hg; linarith
  have hgX : |g + Xh| ≤ |g| + 2 * B + 2 * (u * B) := by have := abs_add_le g Xh; linarith
  have hug : u * |g| ≤ 5 / 2 * (u * (p * B)) := by have := mul_le_mul_of_nonneg_left hg' hu; linarith
  have huu : u * (u * B) ≤ u * B / 64 := by have := mul_le_mul_of_nonneg_right hu1 huB; linarith
  have huuB : u * (u * (p * B)) ≤ u * (p * B) / 64 := by
    have := mul_le_mul_of_nonneg_right hu1 (by positivity : 0 ≤ u * (p * B)); linarith
  have hupB0 : 0 ≤ u * (p * B) := by positivity
  have e1 : u * |g + Xh| ≤ 5 / 2 * (u * (p * B)) + 65 / 32 * (u * B) := by
    have := mul_le_mul_of_nonneg_left hgX hu; linarith
  have e2 : u * |p * Dh| ≤ 65 / 16 * (u * B) := by have := mul_le_mul_of_nonneg_left hpD' hu; linarith
  have e3 : |t1 + t2| ≤ 5 / 2 * (p * B) + 5 / 2 * (u * (p * B)) + 6 * B + 14 * (u * B) := by
    have := abs_le_of_err h1
    have := abs_le_of_err h2
    have := abs_add_le t1 t2
    linarith
  have e4 : u * |t1 + t2| ≤ 5 / 2 * (u * (p * B)) + 5 / 128 * (u * (p * B)) + 6 * (u * B) + 14 / 64 * (u * B) := by
    have := mul_le_mul_of_nonneg_left e3 hu; linarith
  refine ⟨by linarith, by linarith, by linarith, ?_, ?_⟩
  · have : u * (p * B) ≤ p * B / 64 := by
      have := mul_le_mul_of_nonneg_right hu1 (by positivity : 0 ≤ p * B); linarith
    linarith
  · have e : g' - (H + X + p * D) = (g' - (t1 + t2)) + (t1 - (g + Xh)) + (t2 - p * Dh) + (Xh - X) + (p * Dh - p * D) + (g - H) := by
      ring
    have b1 := abs_add_le ((g' - (t1 + t2)) + (t1 - (g + Xh)) + (t2 - p * Dh) + (Xh - X) + (p * Dh - p * D)) (g - H)
    have b2 := abs_add_le ((g' - (t1 + t2)) + (t1 - (g + Xh)) + (t2 - p * Dh) + (Xh - X)) (p * Dh - p * D)
    have b3 := abs_add_le ((g' - (t1 + t2)) + (t1 - (g + Xh)) + (t2 - p * Dh)) (Xh - X)
    have b4 := abs_add_le ((g' - (t1 + t2)) + (t1 - (g + Xh))) (t2 - p * Dh)
    have b5 := abs_add_le (g' - (t1 + t2)) (t1 - (g + Xh))
    have f : 9 * u * (p + 1) ^ 2 * B = 9 * u * p ^ 2 * B + 18 * (u * (p * B)) + 9 * (u * B) := by ring
    rw [e, f]
    linarith

/-- One step of `CP`: `T` is the exact sum of squared deviations, `sX`, `sD`, `sG` are the three terms of its recurrence. -/
theorem cp_step {u γ η θ Q CP T sX sXh a sD sDh b w sG sGh aG c z s1 s2 CP' : ℝ} {p : ℕ} (hp : 1 ≤ p) (hu : 0 ≤ u) (huγ : u ≤ γ)
    (hγ : 106 * γ * p ≤ 1) (hQ : 0 ≤ Q) (hθ0 : 0 ≤ θ) (hη : η ≤ γ * Q) (hθ : p * θ ≤ γ * Q)
    (hT0 : 0 ≤ T) (hT : T ≤ 4 * p * Q) (hCP : |CP - T| ≤ 106 * γ * p ^ 2 * Q)
    (hX0 : 0 ≤ sX) (hX : sX ≤ 4 * Q) (hXh : |sXh - sX| ≤ 9 * (u * Q)) (ha : |a - sXh| ≤ γ * sXh + 2 * θ)
    (hD0 : 0 ≤ sD) (hD : sD ≤ 16 * Q) (hDh : |sDh - sD| ≤ 34 * (u * Q)) (hb : |p * b - sDh| ≤ γ * sDh + 2 * (p * θ))
    (hw : |w - p * b| ≤ u * |p * b| + η)
    (hG : |sG| ≤ 8 * Q) (hGh : |sGh - sG| ≤ (11 + 36 * p) * (u * Q)) (haG : aG ≤ 11 * Q)
    (hc : |c - sGh| ≤ γ * aG + 2 * θ) (hz : |z - 2 * c| ≤ u * |2 * c| + η)
    (h1 : |s1 - (CP + a)| ≤ u * |CP + a|) (h2 : |s2 - (s1 + w)| ≤ u * |s1 + w|) (h3 : |CP' - (s2 + z)| ≤ u * |s2 + z|) :
    |p * b| ≤ 32 * p * Q ∧ |2 * c| ≤ 32 * p * Q ∧ |CP + a| ≤ 32 * p * Q ∧ |s1 + w| ≤ 48 * p * Q ∧ |s2 + z| ≤ 64 * p * Q ∧
      |CP' - (T + sX + sD + 2 * sG)| ≤ 106 * γ * (p + 1) ^ 2 * Q := by
  have hp0 : (0 : ℝ) ≤ p := Nat.cast_nonneg p
  have hp1 : (1 : ℝ) ≤ p := by exact_mod_cast hp
  have hγ0 : 0 ≤ γ := hu.trans huγ
  obtain ⟨q, hq⟩ : ∃ q, q = γ * Q := ⟨_, rfl⟩
  obtain ⟨r, hr⟩ : ∃ r, r = γ * (p * Q) := ⟨_, rfl⟩
  obtain ⟨R, hR⟩ : ∃ R, R = p * Q := ⟨_, rfl⟩
  have hq0 : 0 ≤ q := by rw [hq]; positivity
  have hQR : Q ≤ R := by rw [hR]; have := mul_le_mul_of_nonneg_right hp1 hQ; linarith
  have hqr : q ≤ r := by rw [hq, hr, ← hR]; exact mul_le_mul_of_nonneg_left hQR hγ0
  have hrQ : 106 * r ≤ Q := by
    have : 106 * γ * p * Q ≤ 1 * Q := mul_le_mul_of_nonneg_right hγ hQ
    rw [hr]; linarith
  have hR0 : 0 ≤ R := hQ.trans hQR
  have huQ : u * Q ≤ q := by rw [hq]; exact mul_le_mul_of_nonneg_right huγ hQ
  -- a rounding error of a number of size `k Q + l R` is at most `k q + l r`
  have rd : ∀ {y : ℝ} (k l : ℝ), |y| ≤ k * Q + l * R → u * |y| ≤ k * q + l * r := by
    intro y k l hy
    have h1 := mul_le_mul_of_nonneg_right huγ (abs_nonneg y)
    have h2 := mul_le_mul_of_nonneg_left hy hγ0
    have e : γ * (k * Q + l * R) = k * q + l * r := by rw [hq, hr, hR]; ring
    linarith
  have gm : ∀ {y : ℝ} (k : ℝ), y ≤ k * Q → γ * y ≤ k * q := by
    intro y k hy
    have := mul_le_mul_of_nonneg_left hy hγ0
    rw [hq]; linarith
  rw [← hq] at hη hθ
  have hθ1 : θ ≤ q := by have := mul_le_mul_of_nonneg_right hp1 hθ0; linarith
  have hT' : T ≤ 4 * R := by rw [hR]; linarith
  have hCP' : |CP - T| ≤ 106 * (p * r) := by
    have e : 106 * γ * p ^ 2 * Q = 106 * (p * r) := by rw [hr]; ring
    linarith
  have hpr : 106 * (p * r) ≤ R := by
    have := mul_le_mul_of_nonneg_left hrQ hp0
    rw [hR]; linarith
  have hCPa : |CP| ≤ 5 * R := by
    have := abs_le_of_err hCP'
    rw [abs_of_nonneg hT0] at this
    linarith
  -- the term of the new sample
  have a1 : sXh ≤ 5 * Q := by have := (abs_le.mp hXh).2; linarith
  have a2 : |a - sX| ≤ 16 * q := by
    have := abs_sub_le a sXh sX
    have := gm 5 a1
    linarith
  have a3 : |a| ≤ 5 * Q := by
    have := abs_le_of_err a2
    rw [abs_of_nonneg hX0] at this
    linarith
  -- the term of the moved centroid
  have d1 : sDh ≤ 17 * Q := by have := (abs_le.mp hDh).2; linarith
  have d2 : |p * b - sD| ≤ 53 * q := by
    have := abs_sub_le (p * b) sDh sD
    have := gm 17 d1
    linarith
  have d3 : |p * b| ≤ 17 * Q + 0 * R := by
    have := abs_le_of_err d2
    rw [abs_of_nonneg hD0] at this
    linarith
  have d4 : |w - sD| ≤ 71 * q := by
    have := abs_sub_le w (p * b) sD
    have := rd 17 0 d3
    linarith
  have d5 : |w| ≤ 17 * Q := by
    have := abs_le_of_err d4
    rw [abs_of_nonneg hD0] at this
    linarith
  -- the mixed term
  have hpuQ : p * (u * Q) ≤ r := by
    have := mul_le_mul_of_nonneg_left huQ hp0
    have e : p * q = r := by rw [hq, hr]; ring
    linarith
  have c1 : |c - sG| ≤ 24 * q + 36 * r := by
    have := abs_sub_le c sGh sG
    have := gm 11 haG
    linarith
  have c2 : |2 * c - 2 * sG| ≤ 48 * q + 72 * r := by
    rw [← mul_sub, abs_mul, abs_of_pos (by norm_num : (0 : ℝ) < 2)]; linarith
  have c3 : |2 * sG| ≤ 16 * Q := by
    rw [abs_mul, abs_of_pos (by norm_num : (0 : ℝ) < 2)]; linarith
  have c4 : |2 * c| ≤ 18 * Q + 0 * R := by have := abs_le_of_err c2; linarith
  have c5 : |z - 2 * sG| ≤ 67 * q + 72 * r := by
    have := abs_sub_le z (2 * c) (2 * sG)
    have := rd 18 0 c4
    linarith
  have c6 : |z| ≤ 18 * Q := by have := abs_le_of_err c5; linarith
  -- the sums
  have e1 : |CP + a| ≤ 5 * Q + 5 * R := by have := abs_add_le CP a; linarith
  have e2 := rd 5 5 e1
  have e3 : |s1 + w| ≤ 23 * Q + 6 * R := by
    have := abs_le_of_err h1
    have := abs_add_le s1 w
    linarith
  have e4 := rd 23 6 e3
  have e5 : |s2 + z| ≤ 42 * Q + 6 * R := by
    have := abs_le_of_err h2
    have := abs_add_le s2 z
    linarith
  have e6 := rd 42 6 e5
  refine ⟨by linarith, by linarith, by linarith, by linarith, by linarith, ?_⟩
  have e : CP' - (T + sX + sD + 2 * sG) = (CP' - (s2 + z)) + (s2 - (s1 + w)) + (s1 - (CP + a)) + (a - sX) + (w - sD) +
      (z - 2 * sG) + (CP - T) := by ring
  have b1 := abs_add_le ((CP' - (s2 + z)) + (s2 - (s1 + w)) + (s1 - (CP + a)) + (a - sX) + (w - sD) + (z - 2 * sG)) (CP - T)
  have b2 := abs_add_le ((CP' - (s2 + z)) + (s2 - (s1 + w)) + (s1 - (CP + a)) + (a - sX) + (w - sD)) (z - 2 * sG)
  have b3 := abs_add_le ((CP' - (s2 + z)) + (s2 - (s1 + w)) + (s1 - (CP + a)) + (a - sX)) (w - sD)
  have b4 := abs_add_le ((CP' - (s2 + z)) + (s2 - (s1 + w)) + (s1 - (CP + a))) (a - sX)
  have b5 := abs_add_le ((CP' - (s2 + z)) + (s2 - (s1 + w))) (s1 - (CP + a))
  have b6 := abs_add_le (CP' - (s2 + z)) (s2 - (s1 + w))
  have f : 106 * γ * (p + 1) ^ 2 * Q = 106 * (p * r) + 212 * r + 106 * q := by rw [hr, hq]; ring
  rw [e, f]
  linarith

/-- The terms of one feature. -/
theorem feature {u B H g X Xh D Dh : ℝ} {p : ℕ} (hp : 1 ≤ p) (hu : 0 ≤ u) (hu1 : u ≤ 1 / 64) (hB : 0 ≤ B)
    (hH : |H| ≤ 2 * p * B) (hg : |g - H| ≤ 9 * u * p ^ 2 * B) (hg' : |g| ≤ 5 / 2 * p * B)
    (hX : |X| ≤ 2 * B) (hXh : |Xh - X| ≤ u * |X|) (hD : p * |D| ≤ 4 * B) (hDh : |Dh - D| ≤ u * |D|) :
    X ^ 2 ≤ 4 * B ^ 2 ∧ |Xh * Xh - X ^ 2| ≤ 9 * (u * B ^ 2) ∧ p * D ^ 2 ≤ 16 * B ^ 2 ∧
      |p * (Dh * Dh) - p * D ^ 2| ≤ 34 * (u * B ^ 2) ∧ |D * H| ≤ 8 * B ^ 2 ∧ |Dh * g| ≤ 11 * B ^ 2 ∧
      |Dh * g - D * H| ≤ (11 + 36 * p) * (u * B ^ 2) := by
  have hp0 : (0 : ℝ) ≤ p := Nat.cast_nonneg p
  have hp1 : (1 : ℝ) ≤ p := by exact_mod_cast hp
  have hBB : 0 ≤ u * B ^ 2 := by positivity
  have huX : |Xh - X| ≤ 2 * (u * B) := by have := mul_le_mul_of_nonneg_left hX hu; linarith
  have huB : u * B ≤ B / 64 := by have := mul_le_mul_of_nonneg_right hu1 hB; linarith
  have dd : |D| * (p * |D|) ≤ 16 * B ^ 2 := by
    have h1 : |D| ≤ p * |D| := by have := mul_le_mul_of_nonneg_right hp1 (abs_nonneg D); linarith
    have := mul_le_mul (h1.trans hD) hD (by positivity) (by positivity)
    linarith
  have dg : |D| * (p * B) ≤ 4 * B ^ 2 := by have := mul_le_mul_of_nonneg_right hD hB; linarith
  have hDh' : |Dh| ≤ 65 / 64 * |D| := by
    have := abs_le_of_err hDh
    have := mul_le_mul_of_nonneg_right hu1 (abs_nonneg D)
    linarith
  refine ⟨?_, ?_, ?_, ?_, ?_, ?_, ?_⟩
  · rw [← sq_abs]
    have := pow_le_pow_left₀ (abs_nonneg X) hX 2
    linarith
  · have e : Xh * Xh - X ^ 2 = (Xh - X) * (Xh + X) := by ring
    have h1 : |Xh + X| ≤ 9 / 2 * B := by
      have := abs_add_le Xh X
      have := abs_le_of_err huX
      linarith
    rw [e, abs_mul]
    have := mul_le_mul huX h1 (abs_nonneg _) (by positivity)
    linarith
  · have e : p * D ^ 2 = |D| * (p * |D|) := by rw [← sq_abs]; ring
    rw [e]; exact dd
  · have e : p * (Dh * Dh) - p * D ^ 2 = p * ((Dh - D) * (Dh + D)) := by ring
    have h1 : |Dh + D| ≤ 17 / 8 * |D| := by
      have := abs_add_le Dh D
      linarith [abs_nonneg D]
    rw [e, abs_mul, abs_mul, abs_of_nonneg hp0]
    have h2 := mul_le_mul hDh h1 (abs_nonneg _) (by positivity)
    have h3 := mul_le_mul_of_nonneg_left h2 hp0
    have h4 := mul_le_mul_of_nonneg_left dd hu
    linarith
  · rw [abs_mul]
    have := mul_le_mul_of_nonneg_left hH (abs_nonneg D)
    linarith
  · rw [abs_mul]
    have := mul_le_mul hDh' hg' (abs_nonneg _) (by positivity)
    have : 0 ≤ B ^ 2 := by positivity
    linarith
  · have e : Dh * g - D * H = (Dh - D) * g + D * (g - H) := by ring
    have h1 := abs_add_le ((Dh - D) * g) (D * (g - H))
    rw [abs_mul, abs_mul] at h1
    have h2 := mul_le_mul hDh hg' (abs_nonneg _) (by positivity)
    have h3 := mul_le_mul_of_nonneg_left hg (abs_nonneg D)
    have h4 := mul_le_mul_of_nonneg_left dg hu
    have h5 := mul_le_mul_of_nonneg_left dg (by positivity : 0 ≤ u * p)
    rw [e]
    linarith

/-- Sums of bounded numbers. -/
theorem sum_abs_le {d : ℕ} {f : ℕ → ℝ} {K : ℝ} (h : ∀ j < d, |f j| ≤ K) : |∑ j ∈ Finset.range d, f j| ≤ d * K := by
  refine (Finset.abs_sum_le_sum_abs _ _).trans ?_
  have := Finset.sum_le_card_nsmul (Finset.range d) (fun j => |f j|) K fun j hj => h j (Finset.mem_range.mp hj)
  simpa using this

theorem sum_le_mul {d : ℕ} {f : ℕ → ℝ} {K : ℝ} (h : ∀ j < d, f j ≤ K) : ∑ j ∈ Finset.range d, f j ≤ d * K := by
  have := Finset.sum_le_card_nsmul (Finset.range d) f K fun j hj => h j (Finset.mem_range.mp hj)
  simpa using this

/-- The sum of deviations from a point, and of their squares, when a number is added and the point moves. -/
theorem sum_dev (l : List ℝ) (V V' x : ℝ) : ((l ++ [x]).map fun y => y - V').sum =
    (l.map fun y => y - V).sum + (x - V') + l.length * (V - V') := by
  rw [List.map_append, List.sum_append]
  have : (l.map fun y => y - V').sum = (l.map fun y => y - V).sum + l.length * (V - V') := by
    induction l with
    | nil => simp
    | cons y l ih => simp only [List.map_cons, List.sum_cons, ih, List.length_cons]; push_cast; ring
  rw [this]; simp; ring

theorem sum_dev_sq (l : List ℝ) (V V' x : ℝ) : ((l ++ [x]).map fun y => (y - V') ^ 2).sum =
    (l.map fun y => (y - V) ^ 2).sum + (x - V') ^ 2 + l.length * (V - V') ^ 2 +
      2 * ((V - V') * (l.map fun y => y - V).sum) := by
  rw [List.map_append, List.sum_append]
  have : (l.map fun y => (y - V') ^ 2).sum = (l.map fun y => (y - V) ^ 2).sum + l.length * (V - V') ^ 2 +
      2 * ((V - V') * (l.map fun y => y - V).sum) := by
    induction l with
    | nil => simp
    | cons y l ih => simp only [List.map_cons, List.sum_cons, ih, List.length_cons]; push_cast; ring
  rw [this]; simp; ring

theorem sum_dev_abs {l : List ℝ} {V B : ℝ} (hl : ∀ y ∈ l, |y| ≤ B) (hV : |V| ≤ B) :
    |(l.map fun y => y - V).sum| ≤ 2 * l.length * B ∧ 0 ≤ (l.map fun y => (y - V) ^ 2).sum ∧
      (l.map fun y => (y - V) ^ 2).sum ≤ 4 * l.length * B ^ 2 := by
  induction l with
  | nil => simp
  | cons y l ih =>
    obtain ⟨h1, h2, h3⟩ := ih fun z hz => hl z (List.mem_cons_of_mem _ hz)
    have hy : |y - V| ≤ 2 * B := by have := abs_sub y V; have := hl y List.mem_cons_self; linarith
    have hy2 : (y - V) ^ 2 ≤ 4 * B ^ 2 := by
      rw [← sq_abs]
      have := pow_le_pow_left₀ (abs_nonneg _) hy 2
      linarith
    simp only [List.map_cons, List.sum_cons, List.length_cons]
    push_cast
    refine ⟨?_, by positivity, by linarith⟩
    refine (abs_add_le _ _).trans ?_
    linarith

/-- The deviations from a point and from the mean. -/
theorem sum_dev_mean (l : List ℝ) (V : ℝ) (hl : l ≠ []) : (l.map fun y => (y - V) ^ 2).sum =
    (l.map fun y => (y - l.sum / l.length) ^ 2).sum + l.length * (V - l.sum / l.length) ^ 2 := by
  have key : ∀ m : ℝ, (l.map fun y => (y - V) ^ 2).sum =
      (l.map fun y => (y - m) ^ 2).sum + l.length * (V - m) ^ 2 - 2 * (V - m) * (l.sum - l.length * m) := by
    intro m
    clear hl
    induction l with
    | nil => simp
    | cons y l ih => simp only [List.map_cons, List.sum_cons, ih, List.length_cons]; push_cast; ring
  have hn : (l.length : ℝ) ≠ 0 := by exact_mod_cast (List.length_pos_iff.mpr hl).ne'
  rw [key (l.sum / l.length)]
  have : l.sum - l.length * (l.sum / l.length) = 0 := by field_simp; ring
  rw [this]; ring

end Verif.Gen.Rounding
