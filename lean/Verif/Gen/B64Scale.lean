import Verif.Gen.B64Reflect
import Verif.Gen.B64Linalg

/-!
# Scaling by powers of two in binary64

Rounding commutes with multiplication by a power of two, unless the result is too large (overflow) or has to be rounded to a multiple of
the smallest subnormal number (underflow).
-/

namespace Verif.Gen
namespace B64

/-- Rounding `a / b` signals overflow, or underflow: the result is below `2 ^ -1022` and not exact. -/
def signals (a b : ℕ) : Bool := decide (limit ≤ rndMag a b ∨ a / b < 2 ^ 52 ∧ a % b ≠ 0)

theorem rndMag_mul_right {a b c : ℕ} (hc : 0 < c) : rndMag (a * c) (b * c) = rndMag a b := by
  rw [rndMag_def, rndMag_def, Nat.mul_div_mul_right _ _ hc]
  generalize Nat.log2 (a / b) - 52 = s
  rw [show b * c * 2 ^ s = b * 2 ^ s * c by ring, Nat.mul_mod_mul_right, Nat.mul_div_mul_right _ _ hc]
  generalize b * 2 ^ s = w
  have e1 : 2 * (a % w * c) = 2 * (a % w) * c := by ring
  simp only [e1, Nat.mul_lt_mul_right hc, Nat.mul_left_inj hc.ne']

theorem rndMag_two_pow {a b p : ℕ} (hb : 0 < b) (h : 2 ^ 52 ≤ a / b ∨ a % b = 0) : rndMag (a * 2 ^ p) b = rndMag a b * 2 ^ p := by
  by_cases hq : 2 ^ 52 ≤ a / b
  · have h0 : a / b ≠ 0 := by intro e; rw [e] at hq; norm_num at hq
    have e52 : 52 ≤ Nat.log2 (a / b) := (Nat.le_log2 h0).mpr hq
    have hlog : Nat.log2 (a * 2 ^ p / b) = Nat.log2 (a / b) + p := by
      have h1 : 2 ^ Nat.log2 (a / b) ≤ a / b := Nat.log2_self_le h0
      have h2 : a / b < 2 ^ (Nat.log2 (a / b) + 1) := Nat.lt_log2_self
      generalize Nat.log2 (a / b) = e at h1 h2
      rw [Nat.le_div_iff_mul_le hb] at h1
      rw [Nat.div_lt_iff_lt_mul hb] at h2
      have h3 : 2 ^ (e + p) ≤ a * 2 ^ p / b := by
        rw [Nat.le_div_iff_mul_le hb, pow_add]
        calc 2 ^ e * 2 ^ p * b = 2 ^ e * b * 2 ^ p := by ring
          _ ≤ a * 2 ^ p := Nat.mul_le_mul_right _ h1
      have h4 : a * 2 ^ p / b < 2 ^ (e + p + 1) := by
        rw [Nat.div_lt_iff_lt_mul hb]
        calc a * 2 ^ p < 2 ^ (e + 1) * b * 2 ^ p := Nat.mul_lt_mul_of_pos_right h2 (by positivity)
          _ = 2 ^ (e + p + 1) * b := by ring
      have h5 : a * 2 ^ p / b ≠ 0 := by
        have : 0 < 2 ^ (e + p) := by positivity
        omega
      have h6 := (Nat.le_log2 h5).mpr h3
      have h7 := (Nat.log2_lt h5).mpr h4
      omega
    rw [rndMag_def, rndMag_def, hlog]
    obtain ⟨s, hs⟩ := Nat.exists_eq_add_of_le e52
    rw [hs, show 52 + s + p - 52 = s + p by omega, show 52 + s - 52 = s by omega, pow_add]
    rw [show b * (2 ^ s * 2 ^ p) = b * 2 ^ s * 2 ^ p by ring]
    have hp : 0 < 2 ^ p := by positivity
    rw [Nat.mul_mod_mul_right, Nat.mul_div_mul_right _ _ hp]
    generalize b * 2 ^ s = w
    generalize 2 ^ p = c at hp
    have e1 : 2 * (a % w * c) = 2 * (a % w) * c := by ring
    simp only [e1, Nat.mul_lt_mul_right hp, Nat.mul_left_inj hp.ne']
    ring
  · have hd := h.resolve_left hq
    obtain ⟨c, rfl⟩ := Nat.dvd_of_mod_eq_zero hd
    rw [Nat.mul_div_cancel_left _ hb] at hq
    have hc : c < 2 ^ 53 := by
      have : (2 : ℕ) ^ 53 = 2 * 2 ^ 52 := by norm_num
      omega
    rw [mul_assoc, rndMag_cancel hb, rndMag_cancel hb, rndMag_small hc]
    have := rndMag_small (t := 0) hc
    rw [pow_zero, mul_one] at this
    rw [this]

theorem signals_false {a b : ℕ} (h : signals a b = false) : rndMag a b < limit ∧ (2 ^ 52 ≤ a / b ∨ a % b = 0) := by
  simp only [signals, decide_eq_false_iff_not, not_or, not_and_or, not_le, not_lt, not_not] at h
  exact h

/-- Rounding commutes with scaling. -/
theorem rndMag_scaled {a b a' b' : ℕ} {j : ℤ} (hb : 0 < b) (hb' : 0 < b') (e : (a' : ℚ) / b' = a / b * 2 ^ j)
    (h : 2 ^ 52 ≤ a / b ∨ a % b = 0) (h' : 2 ^ 52 ≤ a' / b' ∨ a' % b' = 0) : (rndMag a' b' : ℚ) = rndMag a b * 2 ^ j := by
  have key : ∀ {a b a' b' p : ℕ}, 0 < b → 0 < b' → (a' : ℚ) / b' = a / b * 2 ^ p → (2 ^ 52 ≤ a / b ∨ a % b = 0) →
      rndMag a' b' = rndMag a b * 2 ^ p := by
    intro a b a' b' p hb hb' e h
    have e' : a' * b = a * 2 ^ p * b' := by
      have h1 : (b : ℚ) ≠ 0 := by exact_mod_cast hb.ne'
      have h2 : (b' : ℚ) ≠ 0 := by exact_mod_cast hb'.ne'
      field_simp at e
      have : (a' : ℚ) * b = a * 2 ^ p * b' := by rw [e]; ring
      exact_mod_cast this
    rw [← rndMag_two_pow hb h, ← rndMag_mul_right hb, e', mul_comm b' b, rndMag_mul_right hb']
  obtain ⟨p, rfl | rfl⟩ := j.eq_nat_or_neg
  · rw [zpow_natCast] at e ⊢
    rw [key hb hb' e h]
    push_cast
    rfl
  · have e2 : (a : ℚ) / b = a' / b' * 2 ^ p := by
      rw [e, zpow_neg, zpow_natCast, mul_assoc, inv_mul_cancel₀ (by positivity), mul_one]
    rw [key hb' hb e2 h', zpow_neg, zpow_natCast]
    push_cast
    rw [mul_assoc, mul_inv_cancel₀ (by positivity), mul_one]

/-- `b` is `a * 2 ^ j`. -/
def Scaled (j : ℤ) : B64 → B64 → Prop
  | fin s m, fin t n => s = t ∧ (n : ℚ) = m * 2 ^ j
  | inf s, inf t => s = t
  | nan, nan => True
  | _, _ => False

theorem scaled_ofMag {s : Bool} {a b a' b' : ℕ} {j : ℤ} (hb : 0 < b) (hb' : 0 < b') (e : (a' : ℚ) / b' = a / b * 2 ^ j)
    (h : signals a b = false) (h' : signals a' b' = false) : Scaled j (ofMag s a b) (ofMag s a' b') := by
  obtain ⟨h1, h2⟩ := signals_false h
  obtain ⟨h3, h4⟩ := signals_false h'
  rw [ofMag, ofMag, if_pos h1, if_pos h3]
  exact ⟨rfl, rndMag_scaled hb hb' e h2 h4⟩

theorem scaled_zero {a b : B64} : Scaled 0 a b ↔ a = b := by
  cases a <;> cases b <;> simp [Scaled, eq_comm]

theorem scaled_refl (a : B64) : Scaled 0 a a := scaled_zero.mpr rfl

theorem scaled_signed {s : Bool} {m n : ℕ} {j : ℤ} (h : (n : ℚ) = m * 2 ^ j) : (signed s n : ℚ) = signed s m * 2 ^ j := by
  cases s <;> simp [signed, h]

theorem scaled_sign {y z : ℤ} {j : ℤ} (h : (z : ℚ) = y * 2 ^ j) : (z = 0 ↔ y = 0) ∧ (z < 0 ↔ y < 0) ∧ ((z.natAbs : ℕ) : ℚ) = (y.natAbs : ℕ) * 2 ^ j := by
  have hp : (0 : ℚ) < 2 ^ j := by positivity
  refine ⟨?_, ?_, ?_⟩
  · have : (z : ℚ) = 0 ↔ (y : ℚ) = 0 := by rw [h]; simp [hp.ne']
    exact_mod_cast this
  · have : (z : ℚ) < 0 ↔ (y : ℚ) < 0 := by rw [h]; exact ⟨fun h => by by_contra hn; exact absurd h (not_lt.mpr (mul_nonneg (not_lt.mp hn) hp.le)), fun h => mul_neg_of_neg_of_pos h hp⟩
    exact_mod_cast this
  · rw [Nat.cast_natAbs, Nat.cast_natAbs, Int.cast_abs, Int.cast_abs, h, abs_mul, abs_of_pos hp]

theorem scaled_signed_lt {y z y' z' : ℤ} {j : ℤ} (h : (z : ℚ) = y * 2 ^ j) (h' : (z' : ℚ) = y' * 2 ^ j) : z < z' ↔ y < y' := by
  have hp : (0 : ℚ) < 2 ^ j := by positivity
  have : (z : ℚ) < z' ↔ (y : ℚ) < y' := by rw [h, h']; exact mul_lt_mul_iff_of_pos_right hp
  exact_mod_cast this

/-! ## Which operations signal -/

def addSignals : B64 → B64 → Bool
  | fin s m, fin t n => signals (signed s m + signed t n).natAbs 1
  | _, _ => false

def mulSignals : B64 → B64 → Bool
  | fin _ m, fin _ n => signals (m * n) unit
  | _, _ => false

/-- Division by zero is exact: it signals neither. -/
def divSignals : B64 → B64 → Bool
  | fin _ m, fin _ n => decide (n ≠ 0) && signals (m * unit) n
  | _, _ => false

def fmaSignals : B64 → B64 → B64 → Bool
  | fin s m, fin t n, fin r k => signals (signed (xor s t) (m * n) + signed r k * unit).natAbs unit
  | _, _, _ => false

theorem Scaled.neg {j : ℤ} {a b : B64} (h : Scaled j a b) : Scaled j (neg a) (neg b) := by
  cases a <;> cases b <;> first | exact h.elim | skip
  · exact ⟨by rw [h.1], h.2⟩
  · exact congrArg _ h
  · trivial

theorem Scaled.add {j : ℤ} {a b c e : B64} (h : Scaled j a b) (h' : Scaled j c e) (g : addSignals a c = false) (g' : addSignals b e = false) :
    Scaled j (add a c) (add b e) := by
  cases a <;> cases b <;> first | exact h.elim | skip
  · cases c <;> cases e <;> first | exact h'.elim | skip
    · rename_i s m s' m' t n t' n'
      obtain ⟨rfl, h⟩ := h
      obtain ⟨rfl, h'⟩ := h'
      have hz : ((signed s m' + signed t n' : ℤ) : ℚ) = (signed s m + signed t n : ℤ) * 2 ^ j := by
        push_cast
        rw [scaled_signed h, scaled_signed h']
        ring
      simp only [B64.add]
      simp only [addSignals] at g g'
      generalize signed s m' + signed t n' = z at hz g'
      generalize signed s m + signed t n = y at hz g
      obtain ⟨h1, h2, h3⟩ := scaled_sign hz
      by_cases hy : y = 0
      · rw [if_pos hy, if_pos (h1.mpr hy)]
        exact ⟨rfl, by simp⟩
      · rw [if_neg hy, if_neg (fun e => hy (h1.mp e)), ofInt, ofInt, decide_eq_decide.mpr h2]
        exact scaled_ofMag one_pos one_pos (by simpa using h3) g g'
    · exact h'
    · trivial
  · cases c <;> cases e <;> first | exact h'.elim | skip
    · exact h
    · obtain rfl : _ = _ := h
      obtain rfl : _ = _ := h'
      simp only [B64.add]
      split
      · rfl
      · trivial
    · trivial
  · cases c <;> cases e <;> first | exact h'.elim | trivial

theorem Scaled.eq_zero {j : ℤ} {s t : Bool} {m n : ℕ} (h : Scaled j (fin s m) (fin t n)) : n = 0 ↔ m = 0 := by
  have hp : (0 : ℚ) < 2 ^ j := by positivity
  have : (n : ℚ) = 0 ↔ (m : ℚ) = 0 := by rw [h.2]; simp [hp.ne']
  exact_mod_cast this

theorem Scaled.mul {i j : ℤ} {a b c e : B64} (h : Scaled i a b) (h' : Scaled j c e) (g : mulSignals a c = false) (g' : mulSignals b e = false) :
    Scaled (i + j) (mul a c) (mul b e) := by
  have hu : (0 : ℚ) < unit := by exact_mod_cast unit_pos'
  cases a <;> cases b <;> first | exact h.elim | skip
  · cases c <;> cases e <;> first | exact h'.elim | skip
    · obtain ⟨rfl, h⟩ := h
      obtain ⟨rfl, h'⟩ := h'
      refine scaled_ofMag unit_pos' unit_pos' ?_ g g'
      push_cast
      rw [h, h', zpow_add₀ (by norm_num)]
      ring
    · have h0 := h.eq_zero
      obtain ⟨rfl, -⟩ := h
      obtain rfl : _ = _ := h'
      simp only [B64.mul, h0]
      split
      · trivial
      · rfl
    · trivial
  · cases c <;> cases e <;> first | exact h'.elim | skip
    · have h0 := h'.eq_zero
      obtain ⟨rfl, -⟩ := h'
      obtain rfl : _ = _ := h
      simp only [B64.mul, h0]
      split
      · trivial
      · rfl
    · obtain rfl : _ = _ := h
      obtain rfl : _ = _ := h'
      rfl
    · trivial
  · cases c <;> cases e <;> first | exact h'.elim | trivial

theorem Scaled.div {i j : ℤ} {a b c e : B64} (h : Scaled i a b) (h' : Scaled j c e) (g : divSignals a c = false) (g' : divSignals b e = false) :
    Scaled (i - j) (div a c) (div b e) := by
  have hu : (0 : ℚ) < unit := by exact_mod_cast unit_pos'
  cases a <;> cases b <;> first | exact h.elim | skip
  · cases c <;> cases e <;> first | exact h'.elim | skip
    · have h0 := h.eq_zero
      have h0' := h'.eq_zero
      obtain ⟨rfl, h⟩ := h
      obtain ⟨rfl, h'⟩ := h'
      rename_i s m m' t n n'
      simp only [B64.div, h0, h0']
      by_cases hn : n = 0
      · rw [if_pos hn, if_pos hn]
        split
        · trivial
        · rfl
      · have hn' : n' ≠ 0 := fun e => hn (h0'.mp e)
        rw [if_neg hn, if_neg hn]
        simp only [divSignals, hn, hn', ne_eq, not_false_eq_true, decide_true, Bool.true_and] at g g'
        refine scaled_ofMag (Nat.pos_of_ne_zero hn) (Nat.pos_of_ne_zero hn') ?_ g g'
        push_cast
        rw [h, h', zpow_sub₀ (by norm_num)]
        have : (2 : ℚ) ^ j ≠ 0 := by positivity
        have : (n : ℚ) ≠ 0 := by exact_mod_cast hn
        field_simp
    · obtain ⟨rfl, -⟩ := h
      obtain rfl : _ = _ := h'
      exact ⟨rfl, by simp⟩
    · trivial
  · cases c <;> cases e <;> first | exact h'.elim | skip
    · obtain ⟨rfl, -⟩ := h'
      obtain rfl : _ = _ := h
      rfl
    · trivial
    · trivial
  · cases c <;> cases e <;> first | exact h'.elim | trivial

theorem Scaled.fma {i j : ℤ} {a b c e p q : B64} (h : Scaled i a b) (h' : Scaled j c e) (hp : Scaled (i + j) p q)
    (g : fmaSignals a c p = false) (g' : fmaSignals b e q = false) : Scaled (i + j) (fma a c p) (fma b e q) := by
  by_cases hf : ∃ s m t n, a = fin s m ∧ c = fin t n
  · obtain ⟨s, m, t, n, rfl, rfl⟩ := hf
    cases b <;> first | exact h.elim | skip
    cases e <;> first | exact h'.elim | skip
    cases p <;> cases q <;> first | exact hp.elim | skip
    · rename_i s' m' t' n' r k r' k'
      obtain ⟨rfl, h⟩ := h
      obtain ⟨rfl, h'⟩ := h'
      obtain ⟨rfl, hp⟩ := hp
      have hmn : ((m' * n' : ℕ) : ℚ) = (m * n : ℕ) * 2 ^ (i + j) := by
        push_cast
        rw [h, h', zpow_add₀ (by norm_num)]
        ring
      have hz : ((signed (xor s t) (m' * n') + signed r k' * unit : ℤ) : ℚ) = (signed (xor s t) (m * n) + signed r k * unit : ℤ) * 2 ^ (i + j) := by
        rw [Int.cast_add, Int.cast_add, Int.cast_mul, Int.cast_mul, scaled_signed hmn, scaled_signed hp]
        ring
      simp only [B64.fma]
      simp only [fmaSignals] at g g'
      generalize signed (xor s t) (m' * n') + signed r k' * unit = z at hz g'
      generalize signed (xor s t) (m * n) + signed r k * unit = y at hz g
      obtain ⟨h1, h2, h3⟩ := scaled_sign hz
      by_cases hy : y = 0
      · rw [if_pos hy, if_pos (h1.mpr hy)]
        exact ⟨rfl, by simp⟩
      · rw [if_neg hy, if_neg (fun e => hy (h1.mp e)), decide_eq_decide.mpr h2]
        refine scaled_ofMag unit_pos' unit_pos' ?_ g g'
        rw [h3]
        ring
    · exact hp
    · trivial
  · have hm : mulSignals a c = false := by
      cases a <;> cases c <;> first | rfl | exact absurd ⟨_, _, _, _, rfl, rfl⟩ hf
    have hf' : ¬ ∃ s m t n, b = fin s m ∧ e = fin t n := by
      rintro ⟨s, m, t, n, rfl, rfl⟩
      cases a <;> first | exact h.elim | skip
      cases c <;> first | exact h'.elim | skip
      exact hf ⟨_, _, _, _, rfl, rfl⟩
    have hm' : mulSignals b e = false := by
      cases b <;> cases e <;> first | rfl | exact absurd ⟨_, _, _, _, rfl, rfl⟩ hf'
    have e1 : B64.fma a c p = B64.add (B64.mul a c) p ∧ addSignals (B64.mul a c) p = false := by
      cases a <;> cases c <;> first | exact absurd ⟨_, _, _, _, rfl, rfl⟩ hf | skip
      all_goals refine ⟨rfl, ?_⟩
      all_goals simp only [B64.mul]
      all_goals first | rfl | (split <;> rfl)
    have e2 : B64.fma b e q = B64.add (B64.mul b e) q ∧ addSignals (B64.mul b e) q = false := by
      cases b <;> cases e <;> first | exact absurd ⟨_, _, _, _, rfl, rfl⟩ hf' | skip
      all_goals refine ⟨rfl, ?_⟩
      all_goals simp only [B64.mul]
      all_goals first | rfl | (split <;> rfl)
    rw [e1.1, e2.1]
    exact (h.mul h' hm hm').add hp e1.2 e2.2

theorem Scaled.lt {j : ℤ} {a b c e : B64} (h : Scaled j a b) (h' : Scaled j c e) : lt a c = lt b e := by
  cases a <;> cases b <;> first | exact h.elim | skip
  · cases c <;> cases e <;> first | exact h'.elim | skip
    · obtain ⟨rfl, h⟩ := h
      obtain ⟨rfl, h'⟩ := h'
      exact decide_eq_decide.mpr (scaled_signed_lt (scaled_signed h) (scaled_signed h')).symm
    · obtain rfl : _ = _ := h'
      rfl
    · rfl
  · obtain rfl : _ = _ := h
    cases c <;> cases e <;> first | exact h'.elim | skip
    · rfl
    · obtain rfl : _ = _ := h'
      rfl
    · rfl
  · cases c <;> cases e <;> first | exact h'.elim | rfl

theorem Scaled.nan_iff {j : ℤ} {a b : B64} (h : Scaled j a b) : a = nan ↔ b = nan := by
  cases a <;> cases b <;> first | exact h.elim | simp

theorem Scaled.min2 {j : ℤ} {a b c e : B64} (h : Scaled j a b) (h' : Scaled j c e) : Scaled j (min2 a c) (min2 b e) := by
  unfold B64.min2
  simp only [← h.nan_iff, ← h'.nan_iff, h'.lt h]
  split
  · trivial
  split
  · trivial
  split
  · exact h'
  · exact h

theorem Scaled.max2 {j : ℤ} {a b c e : B64} (h : Scaled j a b) (h' : Scaled j c e) : Scaled j (max2 a c) (max2 b e) := by
  unfold B64.max2
  simp only [← h.nan_iff, ← h'.nan_iff, h.lt h']
  split
  · trivial
  split
  · trivial
  split
  · exact h'
  · exact h

theorem Scaled.truthy {j : ℤ} {a b : B64} (h : Scaled j a b) : truthy a = truthy b := by
  cases a <;> cases b <;> first | exact h.elim | skip
  · exact decide_eq_decide.mpr (not_congr h.eq_zero.symm)
  · rfl
  · rfl

/-! ## Square roots -/

/-- The square root of `X`, with a mark if it is not exact, in halves. -/
def halves (X : ℕ) : ℕ := 2 * Nat.sqrt X + if Nat.sqrt X * Nat.sqrt X = X then 0 else 1

theorem sqrt_large {X : ℕ} (hX : 2 ^ 106 ≤ X) : 2 ^ 53 ≤ Nat.sqrt X := by
  rw [Nat.le_sqrt, ← pow_add]
  exact hX

theorem rndMag_halves {X : ℕ} (hX : 2 ^ 106 ≤ X) : ∃ t k, Nat.log2 (Nat.sqrt X) = t + 53 ∧ Nat.sqrt X / 2 ^ (t + 1) = k ∧
    rndMag (halves X) 2 = (if X < ((2 * k + 1) * 2 ^ t) * ((2 * k + 1) * 2 ^ t) ∨ X = ((2 * k + 1) * 2 ^ t) * ((2 * k + 1) * 2 ^ t) ∧ k % 2 = 0 then k
      else k + 1) * 2 ^ (t + 1) := by
  have hq := sqrt_large hX
  have h0 : Nat.sqrt X ≠ 0 := by intro e; rw [e] at hq; norm_num at hq
  obtain ⟨t, ht⟩ := Nat.exists_eq_add_of_le' ((Nat.le_log2 h0).mpr hq)
  refine ⟨t, _, ht, rfl, ?_⟩
  have hd : halves X / 2 = Nat.sqrt X := by unfold halves; split <;> omega
  rw [rndMag_def, hd, ht, show t + 53 - 52 = t + 1 by omega]
  have hlt : ∀ n, X < n * n ↔ Nat.sqrt X < n := fun n => Nat.sqrt_lt.symm
  have hk := Nat.div_add_mod (Nat.sqrt X) (2 ^ (t + 1))
  have hr := Nat.mod_lt (Nat.sqrt X) (show 0 < 2 ^ (t + 1) by positivity)
  have hdm : halves X / (2 * 2 ^ (t + 1)) = Nat.sqrt X / 2 ^ (t + 1) := by rw [← Nat.div_div_eq_div_mul, hd]
  have hmod : halves X % (2 * 2 ^ (t + 1)) = 2 * (Nat.sqrt X % 2 ^ (t + 1)) + if Nat.sqrt X * Nat.sqrt X = X then 0 else 1 := by
    have h1 := Nat.div_add_mod (halves X) (2 * 2 ^ (t + 1))
    rw [hdm] at h1
    have h2 : halves X = 2 * (2 ^ (t + 1) * (Nat.sqrt X / 2 ^ (t + 1))) + (2 * (Nat.sqrt X % 2 ^ (t + 1)) + if Nat.sqrt X * Nat.sqrt X = X then 0 else 1) := by
      rw [halves]; omega
    have h3 : 2 * 2 ^ (t + 1) * (Nat.sqrt X / 2 ^ (t + 1)) = 2 * (2 ^ (t + 1) * (Nat.sqrt X / 2 ^ (t + 1))) := by ring
    omega
  rw [hdm, hmod]
  generalize hkk : Nat.sqrt X / 2 ^ (t + 1) = k at hk
  generalize Nat.sqrt X % 2 ^ (t + 1) = ρ at hk hr
  have hp : 2 ^ (t + 1) = 2 * 2 ^ t := by ring
  have hH : (2 * k + 1) * 2 ^ t = 2 ^ (t + 1) * k + 2 ^ t := by rw [hp]; ring
  congr 1
  refine if_congr ?_ rfl rfl
  rw [hlt, hH]
  have heq : X = (2 ^ (t + 1) * k + 2 ^ t) * (2 ^ (t + 1) * k + 2 ^ t) ↔ Nat.sqrt X * Nat.sqrt X = X ∧ Nat.sqrt X = 2 ^ (t + 1) * k + 2 ^ t := by
    constructor
    · intro e
      have : Nat.sqrt X = 2 ^ (t + 1) * k + 2 ^ t := by rw [e, Nat.sqrt_eq]
      exact ⟨by rw [this, ← e], this⟩
    · rintro ⟨h1, h2⟩
      rw [← h2, h1]
  rw [heq]
  rw [hp] at hk hr ⊢
  generalize 2 ^ t = h at hk hr ⊢
  generalize 2 * h * k = z at hk ⊢
  by_cases he : Nat.sqrt X * Nat.sqrt X = X
  · simp only [he, if_true, true_and]
    omega
  · simp only [he, if_false, false_and, or_false]
    omega

theorem rndMag_halves_scaled {X r : ℕ} (hX : 2 ^ 106 ≤ X) : rndMag (halves (X * (2 ^ r * 2 ^ r))) 2 = rndMag (halves X) 2 * 2 ^ r := by
  have hp : 0 < 2 ^ r := by positivity
  have hX' : 2 ^ 106 ≤ X * (2 ^ r * 2 ^ r) := hX.trans (Nat.le_mul_of_pos_right _ (by positivity))
  obtain ⟨t, k, ht, hk, e⟩ := rndMag_halves hX
  obtain ⟨t', k', ht', hk', e'⟩ := rndMag_halves hX'
  have hq := sqrt_large hX
  have hq' := sqrt_large hX'
  have hle : ∀ n, n * 2 ^ r ≤ Nat.sqrt (X * (2 ^ r * 2 ^ r)) ↔ n ≤ Nat.sqrt X := by
    intro n
    rw [Nat.le_sqrt, Nat.le_sqrt, show n * 2 ^ r * (n * 2 ^ r) = n * n * (2 ^ r * 2 ^ r) by ring]
    exact Nat.mul_le_mul_right_iff (by positivity)
  have htt : t' = t + r := by
    have h0 : Nat.sqrt X ≠ 0 := by intro e; rw [e] at hq; norm_num at hq
    have h0' : Nat.sqrt (X * (2 ^ r * 2 ^ r)) ≠ 0 := by intro e; rw [e] at hq'; norm_num at hq'
    have h1 : 2 ^ (t + 53) ≤ Nat.sqrt X := ht ▸ Nat.log2_self_le h0
    have h2 : ¬ 2 ^ (t + 53 + 1) ≤ Nat.sqrt X := not_le.mpr (ht ▸ Nat.lt_log2_self)
    rw [← hle, ← pow_add] at h1 h2
    have h3 := (Nat.le_log2 h0').mpr h1
    have h4 := (Nat.log2_lt h0').mpr (not_le.mp h2)
    omega
  subst htt
  have hkk : k' = k := by
    rw [← hk, ← hk']
    apply Nat.le_antisymm
    · rw [Nat.le_div_iff_mul_le (by positivity), ← hle]
      have := Nat.div_mul_le_self (Nat.sqrt (X * (2 ^ r * 2 ^ r))) (2 ^ (t + r + 1))
      rw [show 2 ^ (t + r + 1) = 2 ^ (t + 1) * 2 ^ r by ring] at this ⊢
      rwa [← mul_assoc (_ / _)] at this
    · rw [Nat.le_div_iff_mul_le (by positivity)]
      have := (hle _).mpr (Nat.div_mul_le_self (Nat.sqrt X) (2 ^ (t + 1)))
      rwa [mul_assoc, ← pow_add, show t + 1 + r = t + r + 1 by ring] at this
  subst hkk
  rw [e, e', show (2 * k' + 1) * 2 ^ (t + r) = (2 * k' + 1) * 2 ^ t * 2 ^ r by ring]
  generalize (2 * k' + 1) * 2 ^ t = H
  rw [show H * 2 ^ r * (H * 2 ^ r) = H * H * (2 ^ r * 2 ^ r) by ring, show 2 ^ (t + r + 1) = 2 ^ (t + 1) * 2 ^ r by ring]
  have hpp : 0 < 2 ^ r * 2 ^ r := by positivity
  simp only [Nat.mul_lt_mul_right hpp, Nat.mul_left_inj hpp.ne']
  ring

/-- Never true of a binary64 number: `fin` allows larger magnitudes. -/
def sqrtSignals : B64 → Bool
  | fin _ m => signals (halves (m * unit)) 2
  | _ => false

theorem sqrt_fin (s : Bool) (m : ℕ) : sqrt (fin s m) = if m = 0 then fin s 0 else if s then nan else ofMag false (halves (m * unit)) 2 := rfl

theorem unit_large : 2 ^ 106 ≤ unit := by
  have h (t : ℕ) (ht : t = 1073 + 1) : 2 ^ 106 ≤ 2 ^ t := Nat.pow_le_pow_right (by norm_num) (by omega)
  rw [unit_def]
  exact h _ rfl

theorem Scaled.sqrt {j : ℤ} {a b : B64} (h : Scaled (j + j) a b) (g : sqrtSignals a = false) (g' : sqrtSignals b = false) :
    Scaled j (sqrt a) (sqrt b) := by
  cases a <;> cases b <;> first | exact h.elim | skip
  · have h0 := h.eq_zero
    obtain ⟨rfl, h⟩ := h
    rename_i s m n
    rw [sqrt_fin, sqrt_fin]
    simp only [h0]
    split
    · exact ⟨rfl, by simp⟩
    split
    · trivial
    rename_i hm _
    have hn : n ≠ 0 := fun e => hm (h0.mp e)
    obtain ⟨h1, -⟩ := signals_false g
    obtain ⟨h2, -⟩ := signals_false g'
    rw [ofMag, ofMag, if_pos h1, if_pos h2]
    refine ⟨rfl, ?_⟩
    clear g g' h1 h2
    have large : ∀ {m : ℕ}, m ≠ 0 → 2 ^ 106 ≤ m * unit := fun hm => unit_large.trans (Nat.le_mul_of_pos_left _ (Nat.pos_of_ne_zero hm))
    obtain ⟨r, rfl | rfl⟩ := j.eq_nat_or_neg
    · have e : n = m * (2 ^ r * 2 ^ r) := by
        rw [zpow_add₀ (by norm_num), zpow_natCast] at h
        exact_mod_cast h
      rw [e, mul_right_comm, rndMag_halves_scaled (large hm)]
      push_cast
      rfl
    · have e : m = n * (2 ^ r * 2 ^ r) := by
        have : (m : ℚ) = n * (2 ^ r * 2 ^ r) := by
          rw [h, zpow_add₀ (by norm_num), zpow_neg, zpow_natCast]
          have : (2 : ℚ) ^ r ≠ 0 := by positivity
          field_simp
        exact_mod_cast this
      rw [e, mul_right_comm, rndMag_halves_scaled (large hn)]
      push_cast
      rw [zpow_neg, zpow_natCast, mul_assoc, mul_inv_cancel₀ (by positivity), mul_one]
  · obtain rfl : _ = _ := h
    rename_i s
    cases s
    · rfl
    · trivial
  · trivial

end B64
end Verif.Gen
