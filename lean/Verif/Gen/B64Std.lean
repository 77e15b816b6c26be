import Verif.Gen.B64
import Mathlib.Algebra.Order.BigOperators.Group.List

/-!
# binary64 satisfies the standard model

Addition, subtraction, multiplication, fused multiply-add, `1 / n` and whole numbers; and inner products computed in any order
(`DotOf`).
-/

namespace Verif.Gen
namespace B64

/-! ## Rounding of magnitudes -/

theorem rndMag_def (a b : ℕ) : rndMag a b = (if 2 * (a % (b * 2 ^ (Nat.log2 (a / b) - 52))) < b * 2 ^ (Nat.log2 (a / b) - 52) ∨
    2 * (a % (b * 2 ^ (Nat.log2 (a / b) - 52))) = b * 2 ^ (Nat.log2 (a / b) - 52) ∧
      a / (b * 2 ^ (Nat.log2 (a / b) - 52)) % 2 = 0 then a / (b * 2 ^ (Nat.log2 (a / b) - 52))
    else a / (b * 2 ^ (Nat.log2 (a / b) - 52)) + 1) * 2 ^ (Nat.log2 (a / b) - 52) := rfl

/-- The error is at most half a unit. -/
theorem rndMag_half {a b : ℕ} (hb : 0 < b) :
    |(rndMag a b : ℝ) - (a : ℝ) / b| ≤ (2 : ℝ) ^ (Nat.log2 (a / b) - 52) / 2 := by
  rw [rndMag_def]
  generalize Nat.log2 (a / b) - 52 = s
  have hw : 0 < b * 2 ^ s := by positivity
  have hb' : (0 : ℝ) < b := by exact_mod_cast hb
  have hs : (0 : ℝ) < 2 ^ s := by positivity
  have e : (a : ℝ) = (b * 2 ^ s : ℝ) * (a / (b * 2 ^ s) : ℕ) + (a % (b * 2 ^ s) : ℕ) := by
    exact_mod_cast (Nat.div_add_mod a (b * 2 ^ s)).symm
  have hlt := Nat.mod_lt a hw
  generalize a / (b * 2 ^ s) = k at e ⊢
  generalize hr : a % (b * 2 ^ s) = r at e hlt ⊢
  have hr0 : (0 : ℝ) ≤ r := Nat.cast_nonneg r
  have hrb : (r : ℝ) / b * b = r := by field_simp
  have e' : (a : ℝ) / b = k * 2 ^ s + r / b := by rw [e]; field_simp
  rw [e']
  split
  · rename_i h
    have h2 : 2 * (r : ℝ) ≤ b * 2 ^ s := by
      have : 2 * r ≤ b * 2 ^ s := by omega
      exact_mod_cast this
    push_cast
    rw [show (k : ℝ) * 2 ^ s - (k * 2 ^ s + r / b) = -(r / b) by ring, abs_neg, abs_of_nonneg (by positivity), div_le_div_iff₀ hb' (by norm_num)]
    linarith
  · rename_i h
    have h2 : (b : ℝ) * 2 ^ s ≤ 2 * r := by
      have : b * 2 ^ s ≤ 2 * r := by omega
      exact_mod_cast this
    have h3 : (r : ℝ) ≤ b * 2 ^ s := by exact_mod_cast hlt.le
    push_cast
    rw [show ((k : ℝ) + 1) * 2 ^ s - (k * 2 ^ s + r / b) = 2 ^ s - r / b by ring, abs_of_nonneg (by
      rw [sub_nonneg, div_le_iff₀ hb']; linarith)]
    have : (2 : ℝ) ^ s / 2 ≤ r / b := by rw [div_le_div_iff₀ (by norm_num) hb']; linarith
    linarith

/-- The unit: relative, or absolute when the number is small. -/
theorem unit_le {a b : ℕ} (hb : 0 < b) :
    Nat.log2 (a / b) - 52 = 0 ∨ (2 : ℝ) ^ (Nat.log2 (a / b) - 52) / 2 ≤ (2 : ℝ) ^ (-53 : ℤ) * ((a : ℝ) / b) := by
  by_cases h : Nat.log2 (a / b) ≤ 52
  · left; omega
  right
  have hq : a / b ≠ 0 := by
    intro h0; rw [h0] at h; exact h (by decide)
  have h1 : 2 ^ Nat.log2 (a / b) ≤ a / b := Nat.log2_self_le hq
  obtain ⟨s, hs⟩ : ∃ s, Nat.log2 (a / b) = 52 + s := ⟨Nat.log2 (a / b) - 52, by omega⟩
  rw [hs] at h1 ⊢
  have h2 : (2 : ℝ) ^ (52 + s) ≤ (a : ℝ) / b := by
    rw [le_div_iff₀ (by exact_mod_cast hb)]
    have := (Nat.le_div_iff_mul_le hb).mp h1
    exact_mod_cast this
  rw [Nat.add_sub_cancel_left]
  have e : (2 : ℝ) ^ s / 2 = (2 : ℝ) ^ (-53 : ℤ) * (2 : ℝ) ^ (52 + s) := by
    rw [pow_add, zpow_neg]; norm_num; ring
  rw [e]
  exact mul_le_mul_of_nonneg_left h2 (by positivity)

theorem rndMag_error {a b : ℕ} (hb : 0 < b) :
    |(rndMag a b : ℝ) - (a : ℝ) / b| ≤ (2 : ℝ) ^ (-53 : ℤ) * ((a : ℝ) / b) + 1 / 2 := by
  have h := rndMag_half (a := a) hb
  have h0 : (0 : ℝ) ≤ (2 : ℝ) ^ (-53 : ℤ) * ((a : ℝ) / b) := by positivity
  rcases unit_le (a := a) hb with e | e
  · rw [e] at h; norm_num at h ⊢; linarith
  · linarith

/-- A multiple of the unit needs no rounding. -/
theorem rndMag_exact {a : ℕ} (h : 2 ^ (Nat.log2 a - 52) ∣ a) : rndMag a 1 = a := by
  rw [rndMag_def, Nat.div_one, one_mul, Nat.mod_eq_zero_of_dvd h, if_pos (Or.inl (by positivity)), Nat.div_mul_cancel h]

theorem rndMag_int_error (a : ℕ) : |(rndMag a 1 : ℝ) - a| ≤ (2 : ℝ) ^ (-53 : ℤ) * a := by
  have h := rndMag_half (a := a) (b := 1) one_pos
  rcases unit_le (a := a) (b := 1) one_pos with e | e
  · rw [Nat.div_one] at e
    rw [rndMag_exact (by rw [e, pow_zero]; exact one_dvd a), sub_self, abs_zero]
    positivity
  · simp only [Nat.cast_one, div_one] at h e
    exact h.trans e

/-- 53 bits need no rounding. -/
theorem rndMag_small {k t : ℕ} (hk : k < 2 ^ 53) : rndMag (k * 2 ^ t) 1 = k * 2 ^ t := by
  by_cases h0 : k = 0
  · subst h0; rw [zero_mul]; rfl
  apply rndMag_exact
  have : Nat.log2 (k * 2 ^ t) ≤ 52 + t := by
    have : Nat.log2 (k * 2 ^ t) < 53 + t := by
      rw [Nat.log2_lt (by positivity), pow_add]
      exact Nat.mul_lt_mul_of_pos_right hk (by positivity)
    omega
  exact Dvd.dvd.mul_left (Nat.pow_dvd_pow 2 (by omega)) k

/-- The largest finite number, in units of `2 ^ -1074`. -/
@[irreducible] def maxMag : ℕ := (2 ^ 53 - 1) * 2 ^ 2045

theorem log2_le {x t : ℕ} (h : x < 2 ^ 53 * 2 ^ t) : Nat.log2 x - 52 ≤ t := by
  by_cases h0 : x = 0
  · rw [h0]; exact Nat.zero_le t
  rw [← pow_add, ← Nat.log2_lt h0] at h
  omega

theorem maxMag_lt_limit : maxMag < limit := by
  unfold maxMag limit
  exact Nat.mul_lt_mul_of_pos_right (by norm_num) (by positivity)

theorem le_maxMag {s : ℕ} (hs : s < 2045) : 2 ^ 53 * 2 ^ s ≤ maxMag := by
  unfold maxMag
  generalize 2045 = e at hs ⊢
  obtain ⟨t, rfl⟩ := Nat.exists_eq_add_of_lt hs
  rw [show s + t + 1 = s + (t + 1) by ring, pow_add 2 s, pow_succ 2 t]
  have h1 : 1 ≤ 2 ^ t := Nat.one_le_two_pow
  generalize 2 ^ t = x at h1 ⊢
  calc 2 ^ 53 * 2 ^ s ≤ ((2 ^ 53 - 1) * (x * 2)) * 2 ^ s := Nat.mul_le_mul_right _ (by omega)
    _ = (2 ^ 53 - 1) * (2 ^ s * (x * 2)) := by ring

theorem rndMag_le {a b : ℕ} (hb : 0 < b) (h : a ≤ b * maxMag) : rndMag a b ≤ maxMag := by
  have hq : a / b ≤ maxMag := by
    rw [Nat.div_le_iff_le_mul_add_pred hb]; omega
  have hs : Nat.log2 (a / b) - 52 ≤ 2045 := log2_le (by
    have := lt_of_le_of_lt hq maxMag_lt_limit
    unfold limit at this
    exact this)
  have hk : a / b < 2 ^ 53 * 2 ^ (Nat.log2 (a / b) - 52) := by
    by_cases h0 : a / b = 0
    · rw [h0]; positivity
    rw [← pow_add, ← Nat.log2_lt h0]
    omega
  rw [rndMag_def]
  generalize Nat.log2 (a / b) - 52 = s at hs hk ⊢
  rw [← Nat.div_div_eq_div_mul]
  have hk' : a / b / 2 ^ s < 2 ^ 53 := by
    rw [Nat.div_lt_iff_lt_mul (by positivity)]; exact hk
  have hdm := Nat.div_add_mod a (b * 2 ^ s)
  rw [← Nat.div_div_eq_div_mul] at hdm
  generalize a / b / 2 ^ s = k at hk' hdm ⊢
  generalize a % (b * 2 ^ s) = r at hdm ⊢
  by_cases hs' : s = 2045
  · subst hs'
    unfold maxMag at h ⊢
    have hw2 : 0 < (2 : ℕ) ^ 2045 := by positivity
    generalize (2 : ℕ) ^ 2045 = w at *
    split
    · exact Nat.mul_le_mul_right _ (by omega)
    · rename_i hc
      apply Nat.mul_le_mul_right
      by_contra hk2
      have hk3 : k = 2 ^ 53 - 1 := by omega
      subst hk3
      have hr : r = 0 := by
        have : b * w * (2 ^ 53 - 1) = b * ((2 ^ 53 - 1) * w) := by ring
        omega
      subst hr
      have hw : ¬ 0 < b * w := fun hw => hc (Or.inl (by simpa using hw))
      exact hw (Nat.mul_pos hb hw2)
  · refine le_trans (Nat.mul_le_mul_right _ ?_) (le_maxMag (s := s) (by omega))
    split <;> omega

/-- From `2 ^ 52` units on, the error is relative. -/
theorem rndMag_rel {a b : ℕ} (hb : 0 < b) (h : b * 2 ^ 52 ≤ a) :
    |(rndMag a b : ℝ) - (a : ℝ) / b| ≤ (2 : ℝ) ^ (-53 : ℤ) * ((a : ℝ) / b) := by
  have h1 := rndMag_half (a := a) hb
  rcases unit_le (a := a) hb with e | e
  · rw [e, pow_zero] at h1
    refine h1.trans ?_
    have h2 : (2 : ℝ) ^ 52 ≤ (a : ℝ) / b := by
      rw [le_div_iff₀ (by exact_mod_cast hb), mul_comm]
      exact_mod_cast h
    calc (1 : ℝ) / 2 = (2 : ℝ) ^ (-53 : ℤ) * 2 ^ 52 := by norm_num
      _ ≤ _ := mul_le_mul_of_nonneg_left h2 (by positivity)
  · exact h1.trans e

/-- Rounding twice is rounding once. -/
theorem rndMag_idem (a b : ℕ) : rndMag (rndMag a b) 1 = rndMag a b := by
  rw [rndMag_def a b]
  have hk : a / (b * 2 ^ (Nat.log2 (a / b) - 52)) < 2 ^ 53 := by
    rw [← Nat.div_div_eq_div_mul, Nat.div_lt_iff_lt_mul (by positivity)]
    by_cases h0 : a / b = 0
    · rw [h0]; positivity
    rw [← pow_add, ← Nat.log2_lt h0]
    omega
  generalize Nat.log2 (a / b) - 52 = s at hk ⊢
  generalize a / (b * 2 ^ s) = k at hk ⊢
  split
  · exact rndMag_small hk
  · by_cases h : k + 1 < 2 ^ 53
    · exact rndMag_small h
    · rw [show k + 1 = 1 * 2 ^ 53 by omega, mul_assoc, ← pow_add]
      exact rndMag_small (by norm_num)

/-! ## Numbers -/

/-- The unit. -/
noncomputable def lam : ℝ := (2 : ℝ) ^ (-1074 : ℤ)

theorem lam_pos : 0 < lam := by unfold lam; positivity

theorem unit_mul : (unit : ℝ) * lam = 1 := by
  unfold lam unit
  rw [zpow_neg, Nat.cast_pow, Nat.cast_ofNat, show (1074 : ℤ) = ((1074 : ℕ) : ℤ) from rfl, zpow_natCast]
  exact mul_inv_cancel₀ (by positivity)

/-- The unit roundoff. -/
noncomputable def u : ℝ := (2 : ℝ) ^ (-53 : ℤ)

theorem u_pos : 0 < u := by unfold u; positivity

/-- The largest error of an underflow: half the unit. -/
noncomputable def η : ℝ := lam / 2

theorem η_pos : 0 < η := half_pos lam_pos

/-- The largest finite number. -/
noncomputable def Ω : ℝ := maxMag * lam

theorem val_fin (s : Bool) (m : ℕ) : val (fin s m) = signed s m * lam := rfl

theorem signed_cast (s : Bool) (m : ℕ) : ((signed s m : ℤ) : ℝ) = (if s then -1 else 1) * m := by
  cases s <;> simp [signed]

theorem abs_sgn (s : Bool) : |(if s then -1 else 1 : ℝ)| = 1 := by cases s <;> simp

/-- A finite number that needs no rounding. -/
def Rep : B64 → Prop
  | fin _ m => rndMag m 1 = m ∧ m < limit
  | _ => False

theorem Rep.isFin {a : B64} (h : Rep a) : Fin a := by cases a <;> simp_all [Rep, Fin]

theorem Rep.zero (s : Bool) : Rep (fin s 0) := ⟨rfl, Nat.zero_le maxMag |>.trans_lt maxMag_lt_limit⟩

theorem ofMag_eq {s : Bool} {a b : ℕ} (hb : 0 < b) (h : a ≤ b * maxMag) : ofMag s a b = fin s (rndMag a b) :=
  if_pos (lt_of_le_of_lt (rndMag_le hb h) maxMag_lt_limit)

theorem ofMag_rep {s : Bool} {a b : ℕ} (hb : 0 < b) (h : a ≤ b * maxMag) : Rep (ofMag s a b) := by
  rw [ofMag_eq hb h]; exact ⟨rndMag_idem a b, lt_of_le_of_lt (rndMag_le hb h) maxMag_lt_limit⟩

theorem le_of_Ω {a b : ℕ} (hb : 0 < b) (h : (a : ℝ) / b * lam ≤ Ω) : a ≤ b * maxMag := by
  have := le_of_mul_le_mul_right h lam_pos
  rw [div_le_iff₀ (by exact_mod_cast hb)] at this
  have h2 : a ≤ maxMag * b := by exact_mod_cast this
  rwa [mul_comm]

theorem ofMag_error {s : Bool} {a b : ℕ} {ε : ℝ} (hb : 0 < b) (h : (a : ℝ) / b * lam ≤ Ω)
    (he : |(rndMag a b : ℝ) - (a : ℝ) / b| ≤ ε) :
    Rep (ofMag s a b) ∧ |val (ofMag s a b) - (if s then -1 else 1) * ((a : ℝ) / b) * lam| ≤ ε * lam := by
  have h' := le_of_Ω hb h
  refine ⟨ofMag_rep hb h', ?_⟩
  rw [ofMag_eq hb h', val_fin, signed_cast, ← sub_mul, ← mul_sub, abs_mul, abs_mul, abs_sgn, one_mul, abs_of_pos lam_pos]
  exact mul_le_mul_of_nonneg_right he lam_pos.le

theorem ofInt_error {z : ℤ} (h : |(z : ℝ) * lam| ≤ Ω) :
    Rep (ofInt z) ∧ |val (ofInt z) - z * lam| ≤ u * |(z : ℝ) * lam| := by
  have hz : |(z : ℝ)| = z.natAbs := by rw [Nat.cast_natAbs, Int.cast_abs]
  rw [abs_mul, abs_of_pos lam_pos, hz] at h ⊢
  obtain ⟨h1, h2⟩ := ofMag_error (s := decide (z < 0)) (a := z.natAbs) (b := 1) (ε := u * z.natAbs) one_pos
    (by rwa [Nat.cast_one, div_one]) (by rw [Nat.cast_one, div_one]; exact rndMag_int_error z.natAbs)
  refine ⟨h1, ?_⟩
  have e : (if decide (z < 0) then -1 else 1) * ((z.natAbs : ℝ) / (1 : ℕ)) = z := by
    rw [Nat.cast_one, div_one, ← hz]
    by_cases h0 : z < 0
    · have : (z : ℝ) < 0 := by exact_mod_cast h0
      simp [h0, abs_of_neg this]
    · have : (0 : ℝ) ≤ z := by exact_mod_cast not_lt.mp h0
      simp [h0, abs_of_nonneg this]
  rw [e] at h2
  unfold ofInt
  rw [← mul_assoc]
  exact h2

theorem add_error {a b : B64} (ha : Fin a) (hb : Fin b) (h : |val a + val b| ≤ Ω) :
    Rep (add a b) ∧ |val (add a b) - (val a + val b)| ≤ u * |val a + val b| := by
  cases a with
  | inf => cases ha
  | nan => cases ha
  | fin s m =>
  cases b with
  | inf => cases hb
  | nan => cases hb
  | fin t n =>
  have e : val (fin s m) + val (fin t n) = ((signed s m + signed t n : ℤ) : ℝ) * lam := by
    rw [val_fin, val_fin]; push_cast; ring
  rw [e] at h ⊢
  show Rep (if _ then _ else _) ∧ |val (if _ then _ else _) - _| ≤ _
  by_cases h0 : signed s m + signed t n = 0
  · rw [if_pos h0, h0]
    refine ⟨Rep.zero _, ?_⟩
    rw [val_fin, signed_cast]
    simp
  · rw [if_neg h0]
    exact ofInt_error h

theorem neg_fin {a : B64} (ha : Fin a) : Fin (neg a) := by cases a <;> simp_all [neg, Fin]

theorem val_neg (a : B64) : val (neg a) = -val a := by
  cases a with
  | fin s m => show val (fin (!s) m) = _; rw [val_fin, val_fin, signed_cast, signed_cast]; cases s <;> simp
  | inf => simp [neg, val]
  | nan => simp [neg, val]

theorem sub_error {a b : B64} (ha : Fin a) (hb : Fin b) (h : |val a - val b| ≤ Ω) :
    Rep (sub a b) ∧ |val (sub a b) - (val a - val b)| ≤ u * |val a - val b| := by
  have := add_error ha (neg_fin hb) (by rw [val_neg, ← sub_eq_add_neg]; exact h)
  rwa [val_neg, ← sub_eq_add_neg] at this

/-- Adding zero changes nothing. -/
theorem add_left {s : Bool} {b : B64} (hb : Rep b) : Rep (add (fin s 0) b) ∧ val (add (fin s 0) b) = val b := by
  cases b with
  | inf => cases hb
  | nan => cases hb
  | fin t n =>
  have h0 : signed s 0 = 0 := by cases s <;> rfl
  show Rep (if _ then _ else _) ∧ val (if _ then _ else _) = _
  rw [h0, Int.zero_add]
  by_cases hn : n = 0
  · subst hn
    have h1 : signed t 0 = 0 := by cases t <;> rfl
    rw [if_pos h1]
    exact ⟨Rep.zero _, by rw [val_fin, val_fin, signed_cast, signed_cast]; simp⟩
  · have h1 : signed t n ≠ 0 := by cases t <;> simp [signed, hn]
    rw [if_neg h1]
    have e : ofInt (signed t n) = fin t n := by
      have e1 : (signed t n).natAbs = n := by cases t <;> simp [signed]
      have e2 : decide (signed t n < 0) = t := by cases t <;> simp [signed]; omega
      rw [ofInt, e1, e2, ofMag, hb.1, if_pos hb.2]
    rw [e]
    exact ⟨hb, rfl⟩

theorem add_comm' {a b : B64} (ha : Fin a) (hb : Fin b) : add a b = add b a := by
  cases a with
  | inf => cases ha
  | nan => cases ha
  | fin s m =>
  cases b with
  | inf => cases hb
  | nan => cases hb
  | fin t n =>
  show (if _ then _ else _) = (if _ then _ else _)
  rw [Int.add_comm, Bool.and_comm]

theorem add_right {s : Bool} {b : B64} (hb : Rep b) : Rep (add b (fin s 0)) ∧ val (add b (fin s 0)) = val b := by
  rw [add_comm' hb.isFin (Rep.zero s).isFin]
  exact add_left hb

theorem inv_unit : ((unit : ℕ) : ℝ)⁻¹ = lam := by
  exact inv_eq_of_mul_eq_one_right unit_mul

theorem unit_pos : 0 < unit := by unfold unit; positivity

theorem sgn_xor (s t : Bool) : (if xor s t then -1 else 1 : ℝ) = (if s then -1 else 1) * (if t then -1 else 1) := by
  cases s <;> cases t <;> simp

theorem mul_error {a b : B64} (ha : Fin a) (hb : Fin b) (h : |val a * val b| ≤ Ω) :
    Rep (mul a b) ∧ |val (mul a b) - val a * val b| ≤ u * |val a * val b| + η := by
  cases a with
  | inf => cases ha
  | nan => cases ha
  | fin s m =>
  cases b with
  | inf => cases hb
  | nan => cases hb
  | fin t n =>
  have e : val (fin s m) * val (fin t n) = (if xor s t then -1 else 1) * (((m * n : ℕ) : ℝ) / unit) * lam := by
    rw [val_fin, val_fin, signed_cast, signed_cast, sgn_xor, div_eq_mul_inv, inv_unit]; push_cast; ring
  have e' : |val (fin s m) * val (fin t n)| = ((m * n : ℕ) : ℝ) / unit * lam := by
    rw [e, abs_mul, abs_mul, abs_sgn, one_mul, abs_of_pos lam_pos, abs_of_nonneg (by positivity)]
  rw [e'] at h ⊢
  obtain ⟨h1, h2⟩ := ofMag_error (s := xor s t) (a := m * n) (b := unit) unit_pos h (rndMag_error unit_pos)
  refine ⟨h1, ?_⟩
  rw [e]
  refine h2.trans (le_of_eq ?_)
  show (u * _ + _) * lam = _
  rw [η]; ring

theorem fma_error {a b c : B64} (ha : Fin a) (hb : Fin b) (hc : Fin c) (h : |val a * val b + val c| ≤ Ω) :
    Rep (fma a b c) ∧ |val (fma a b c) - (val a * val b + val c)| ≤ u * |val a * val b + val c| + η := by
  cases a with
  | inf => cases ha
  | nan => cases ha
  | fin s m =>
  cases b with
  | inf => cases hb
  | nan => cases hb
  | fin t n =>
  cases c with
  | inf => cases hc
  | nan => cases hc
  | fin r k =>
  obtain ⟨z, hz⟩ : ∃ z : ℤ, z = signed (xor s t) (m * n) + signed r k * unit := ⟨_, rfl⟩
  have e : val (fin s m) * val (fin t n) + val (fin r k) = (z : ℝ) / unit * lam := by
    have hu : (unit : ℝ) ≠ 0 := by exact_mod_cast unit_pos.ne'
    rw [val_fin, val_fin, val_fin, hz]
    push_cast
    rw [signed_cast, signed_cast, signed_cast, signed_cast, sgn_xor, add_div, mul_div_cancel_right₀ _ hu, div_eq_mul_inv, inv_unit]
    push_cast; ring
  have hz' : |(z : ℝ)| = z.natAbs := by rw [Nat.cast_natAbs, Int.cast_abs]
  have e' : |val (fin s m) * val (fin t n) + val (fin r k)| = (z.natAbs : ℝ) / unit * lam := by
    rw [e, abs_mul, abs_div, hz', abs_of_pos lam_pos, Nat.abs_cast]
  rw [e'] at h ⊢
  show Rep (if _ then _ else _) ∧ |val (if _ then _ else _) - _| ≤ _
  rw [← hz]
  by_cases h0 : z = 0
  · rw [if_pos h0, e, h0]
    refine ⟨Rep.zero _, ?_⟩
    rw [val_fin, signed_cast]
    simpa using η_pos.le
  · rw [if_neg h0, e]
    obtain ⟨h1, h2⟩ := ofMag_error (s := decide (z < 0)) (a := z.natAbs) (b := unit) unit_pos h (rndMag_error unit_pos)
    refine ⟨h1, ?_⟩
    have e2 : (if decide (z < 0) then -1 else 1) * ((z.natAbs : ℝ) / unit) = z / unit := by
      rw [← mul_div_assoc, ← hz']
      by_cases h0 : z < 0
      · have : (z : ℝ) < 0 := by exact_mod_cast h0
        simp [h0, abs_of_neg this]
      · have : (0 : ℝ) ≤ z := by exact_mod_cast not_lt.mp h0
        simp [h0, abs_of_nonneg this]
    rw [e2] at h2
    refine h2.trans (le_of_eq ?_)
    show (u * _ + _) * lam = _
    rw [η]; ring

theorem unit_le_maxMag {n : ℕ} (hn : n < 2 ^ 53) : n * unit ≤ maxMag := by
  refine le_trans (Nat.mul_le_mul_right _ hn.le) ?_
  unfold unit
  exact le_maxMag (by norm_num)

/-- Whole numbers below `2 ^ 53` are exact. -/
theorem ofNat_val {n : ℕ} (hn : n < 2 ^ 53) : Rep (ofNat n) ∧ val (ofNat n) = n := by
  have h := unit_le_maxMag hn
  have h' : n * unit ≤ 1 * maxMag := by rwa [one_mul]
  refine ⟨ofMag_rep one_pos h', ?_⟩
  have e : rndMag (n * unit) 1 = n * unit := by unfold unit; exact rndMag_small hn
  rw [ofNat, ofMag_eq one_pos h', e, val_fin, signed_cast]
  push_cast
  rw [mul_assoc, mul_assoc, unit_mul]
  simp

theorem pow_le_unit {e : ℕ} (h : e ≤ 1074) : 2 ^ e ≤ unit := by
  obtain ⟨k, hk⟩ := Nat.exists_eq_add_of_le h
  unfold unit
  rw [hk, pow_add]
  exact Nat.le_mul_of_pos_right _ (by positivity)

theorem inv_error {n : ℕ} (h1 : 1 ≤ n) (hn : n < 2 ^ 53) :
    Rep (intDiv 1 n) ∧ |val (intDiv 1 n) - 1 / n| ≤ u * (1 / n) := by
  have hu : (unit : ℝ) ≠ 0 := by exact_mod_cast unit_pos.ne'
  have hn0 : (n : ℤ) ≠ 0 := by omega
  have e : intDiv 1 n = ofMag false unit n := by
    have h0 : ¬ (1 * (n : ℤ) < 0) := by omega
    have h2 : (1 : ℤ).natAbs * unit = unit := one_mul unit
    have h3 : (n : ℤ).natAbs = n := Int.natAbs_natCast n
    rw [intDiv, if_neg hn0, h2, h3, decide_eq_false h0]
  have e2 : (unit : ℝ) / n * lam = 1 / n := by rw [div_mul_eq_mul_div, unit_mul]
  have hb : n * 2 ^ 52 ≤ unit := by
    have h2 : n * 2 ^ 52 ≤ 2 ^ (53 + 52) := by rw [pow_add]; exact Nat.mul_le_mul_right _ hn.le
    exact h2.trans (pow_le_unit (by norm_num))
  have hm : unit ≤ n * maxMag := by
    have h2 := unit_le_maxMag (n := 1) (by norm_num)
    rw [one_mul] at h2
    exact h2.trans (Nat.le_mul_of_pos_left _ h1)
  have hΩ : (unit : ℝ) / n * lam ≤ Ω := by
    refine mul_le_mul_of_nonneg_right ?_ lam_pos.le
    rw [div_le_iff₀ (by exact_mod_cast h1), mul_comm]
    exact_mod_cast hm
  obtain ⟨i1, i2⟩ := ofMag_error (s := false) h1 hΩ (rndMag_rel h1 hb)
  rw [e]
  refine ⟨i1, ?_⟩
  have e3 : (if false = true then -1 else 1 : ℝ) * ((unit : ℝ) / n) * lam = 1 / n := by
    rw [if_neg (by simp), one_mul, e2]
  rw [e3, mul_assoc, e2] at i2
  exact i2

theorem one_le_Ω : 2 ≤ Ω := by
  have h := unit_le_maxMag (n := 2) (by norm_num)
  have h' : (2 : ℝ) * unit ≤ maxMag := by exact_mod_cast h
  have := mul_le_mul_of_nonneg_right h' lam_pos.le
  rw [mul_assoc, unit_mul] at this
  unfold Ω
  linarith

end B64

open B64 in
/-- binary64 satisfies the standard model. -/
theorem F64.standard (L : Lib) {N : ℕ} (hN : N < 2 ^ 53) : Standard (F64 L) B64.val B64.Fin B64.u B64.η B64.Ω N where
  add a b ha hb h := ⟨(add_error ha hb h).1.isFin, (add_error ha hb h).2⟩
  mul a b ha hb h := ⟨(mul_error ha hb h).1.isFin, (mul_error ha hb h).2⟩
  inv n h1 hn := ⟨(inv_error h1 (by omega)).1.isFin, (inv_error h1 (by omega)).2⟩
  oneMinus n h1 hn := by
    obtain ⟨i1, i2⟩ := inv_error h1 (show n < 2 ^ 53 by omega)
    obtain ⟨j1, j2⟩ := ofNat_val (n := 1) (by norm_num)
    have hn1 : (1 : ℝ) ≤ n := by exact_mod_cast h1
    have h3 : (1 : ℝ) / n ≤ 1 := by rw [div_le_iff₀ (by linarith)]; linarith
    have h4 : (0 : ℝ) < 1 / n := by positivity
    have h5 : u ≤ 1 := by unfold u; norm_num
    have h6 : u * (1 / n) ≤ 1 := by
      calc u * (1 / n) ≤ 1 * 1 := mul_le_mul h5 h3 h4.le zero_le_one
        _ = 1 := one_mul 1
    obtain ⟨k1, k2⟩ := abs_le.mp i2
    have hb : |val (ofNat 1) - val (intDiv 1 n)| ≤ Ω := by
      have := one_le_Ω
      rw [j2, abs_le]
      push_cast
      constructor <;> linarith
    have := sub_error j1.isFin i1.isFin hb
    rw [j2, Nat.cast_one] at this
    exact ⟨this.1.isFin, this.2⟩

end Verif.Gen
