import Verif.Gen.Single
import Verif.Gen.B64Range

/-!
# The errors of single precision

A centroid of samples in single precision has an error of about `2 ^ -23`, however many samples it has: in every step only the new sample is
rounded, and it has the weight `1 / n`.
-/

namespace Verif.Gen
namespace B64

theorem nearest_half {a b : ℕ} (s : ℕ) (hb : 0 < b) : |(nearest s a b : ℝ) - (a : ℝ) / b| ≤ (2 : ℝ) ^ s / 2 := by
  unfold nearest
  have hw : 0 < b * 2 ^ s := by positivity
  have hb' : (0 : ℝ) < b := by exact_mod_cast hb
  have hs : (0 : ℝ) < 2 ^ s := by positivity
  have e : (a : ℝ) = (b * 2 ^ s : ℝ) * (a / (b * 2 ^ s) : ℕ) + (a % (b * 2 ^ s) : ℕ) := by
    exact_mod_cast (Nat.div_add_mod a (b * 2 ^ s)).symm
  have hlt := Nat.mod_lt a hw
  dsimp only
  generalize a / (b * 2 ^ s) = k at e ⊢
  generalize hr : a % (b * 2 ^ s) = r at e hlt ⊢
  have hr0 : (0 : ℝ) ≤ r := Nat.cast_nonneg r
  have e' : (a : ℝ) / b = k * 2 ^ s + r / b := by rw [e]; field_simp
  rw [e']
  split
  · rename_i h
    have h2 : 2 * (r : ℝ) ≤ b * 2 ^ s := by
      have : 2 * r ≤ b * 2 ^ s := by omega
      exact_mod_cast this
    push_cast
    rw [show (k : ℝ) * 2 ^ s - (k * 2 ^ s + r / b) = -(r / b) by ring, abs_neg, abs_of_nonneg (by positivity), div_le_div_iff₀ hb' (by norm_num)]
    linarith
  · rename_i h
    have h2 : (b : ℝ) * 2 ^ s ≤ 2 * r := by
      have : b * 2 ^ s ≤ 2 * r := by omega
      exact_mod_cast this
    have h3 : (r : ℝ) ≤ b * 2 ^ s := by exact_mod_cast hlt.le
    push_cast
    rw [show ((k : ℝ) + 1) * 2 ^ s - (k * 2 ^ s + r / b) = 2 ^ s - r / b by ring, abs_of_nonneg (by
      rw [sub_nonneg, div_le_iff₀ hb']; linarith)]
    have : (2 : ℝ) ^ s / 2 ≤ r / b := by rw [div_le_div_iff₀ (by norm_num) hb']; linarith
    linarith

/-- The unit of single precision: relative. -/
theorem unit32_le {a b : ℕ} (hb : 0 < b) (h : 23 < Nat.log2 (a / b)) :
    (2 : ℝ) ^ (Nat.log2 (a / b) - 23) / 2 ≤ (2 : ℝ) ^ (-24 : ℤ) * ((a : ℝ) / b) := by
  have hq : a / b ≠ 0 := by
    intro h0; rw [h0] at h; exact absurd h (by decide)
  have h1 : 2 ^ Nat.log2 (a / b) ≤ a / b := Nat.log2_self_le hq
  obtain ⟨s, hs⟩ : ∃ s, Nat.log2 (a / b) = 23 + s := ⟨Nat.log2 (a / b) - 23, by omega⟩
  rw [hs] at h1 ⊢
  have h2 : (2 : ℝ) ^ (23 + s) ≤ (a : ℝ) / b := by
    rw [le_div_iff₀ (by exact_mod_cast hb)]
    have := (Nat.le_div_iff_mul_le hb).mp h1
    exact_mod_cast this
  rw [Nat.add_sub_cancel_left]
  have e : (2 : ℝ) ^ s / 2 = (2 : ℝ) ^ (-24 : ℤ) * (2 : ℝ) ^ (23 + s) := by
    rw [pow_add, zpow_neg]; norm_num; ring
  rw [e]
  exact mul_le_mul_of_nonneg_left h2 (by positivity)

theorem rndMag32_error {a b : ℕ} (hb : 0 < b) :
    |(rndMag32 a b : ℝ) - (a : ℝ) / b| ≤ (2 : ℝ) ^ (-24 : ℤ) * ((a : ℝ) / b) + (2 : ℝ) ^ 925 / 2 := by
  have h := nearest_half (a := a) (max (Nat.log2 (a / b) - 23) 925) hb
  have h0 : (0 : ℝ) ≤ (2 : ℝ) ^ (-24 : ℤ) * ((a : ℝ) / b) := by positivity
  unfold rndMag32
  by_cases hm : Nat.log2 (a / b) - 23 ≤ 925
  · rw [max_eq_right hm] at h ⊢
    exact h.trans (le_add_of_nonneg_left h0)
  · have := unit32_le (a := a) hb (by omega)
    rw [max_eq_left (by omega)] at h ⊢
    exact (h.trans this).trans (le_add_of_nonneg_right (by positivity))

/-- Numbers that are not subnormal: the error is relative. -/
theorem rndMag32_rel {a b : ℕ} (hb : 0 < b) (h : b * 2 ^ 948 ≤ a) :
    |(rndMag32 a b : ℝ) - (a : ℝ) / b| ≤ (2 : ℝ) ^ (-24 : ℤ) * ((a : ℝ) / b) := by
  have h2 : 2 ^ 948 ≤ a / b := by rw [Nat.le_div_iff_mul_le hb]; linarith
  have h3 : 948 ≤ Nat.log2 (a / b) := (Nat.le_log2 (by positivity |> fun (h : 0 < 2 ^ 948) => by omega)).mpr h2
  have := nearest_half (a := a) (max (Nat.log2 (a / b) - 23) 925) hb
  unfold rndMag32
  rw [max_eq_left (by omega)] at this ⊢
  exact this.trans (unit32_le hb (by omega))

theorem ofMag32_error {s : Bool} {a b : ℕ} {ε : ℝ} (hb : 0 < b) (h : (a : ℝ) / b ≤ 2 ^ 1200)
    (he : |(rndMag32 a b : ℝ) - (a : ℝ) / b| ≤ ε) :
    Fin (ofMag32 s a b) ∧ |val (ofMag32 s a b) - (if s then -1 else 1) * ((a : ℝ) / b) * lam| ≤ ε * lam := by
  have hlt : rndMag32 a b < limit32 := by
    have h1 := rndMag32_error (a := a) hb
    have h2 := (abs_le.mp h1).2
    have h3 : (2 : ℝ) ^ (-24 : ℤ) * ((a : ℝ) / b) ≤ 1 * ((a : ℝ) / b) := mul_le_mul_of_nonneg_right (by norm_num [zpow_neg]) (by positivity)
    have h4 : (2 : ℝ) ^ 925 ≤ 2 ^ 1200 := pow_le_pow_right₀ (by norm_num) (by norm_num)
    have h5 : (4 : ℝ) * 2 ^ 1200 = limit32 := by
      unfold limit32
      push_cast
      rw [show (1202 : ℕ) = 1200 + 2 from rfl, pow_add]
      ring
    have h6 : (0 : ℝ) < 2 ^ 1200 := by positivity
    have : (rndMag32 a b : ℝ) < limit32 := by
      rw [← h5]
      generalize (2 : ℝ) ^ 1200 = y at *
      generalize (2 : ℝ) ^ 925 = z at *
      linarith
    exact_mod_cast this
  rw [ofMag32, if_pos hlt]
  refine ⟨trivial, ?_⟩
  rw [val_fin, signed_cast, ← sub_mul, ← mul_sub, abs_mul, abs_mul, abs_sgn, one_mul, abs_of_pos lam_pos]
  exact mul_le_mul_of_nonneg_right he lam_pos.le

theorem big_lam (k : ℕ) : (2 : ℝ) ^ k * lam = (2 : ℝ) ^ ((k : ℤ) - 1074) := by
  rw [lam, ← zpow_natCast, ← zpow_add₀ (by norm_num)]; rfl

/-- A normal number up to `2 ^ 126` to single precision. -/
theorem to32_error {a : B64} (ha : Fin a) (h : (2 : ℝ) ^ (-126 : ℤ) ≤ |val a|) (h' : |val a| ≤ (2 : ℝ) ^ (126 : ℤ)) :
    Fin (to32 a) ∧ |val (to32 a) - val a| ≤ (2 : ℝ) ^ (-24 : ℤ) * |val a| := by
  cases a with
  | inf => cases ha
  | nan => cases ha
  | fin s m =>
  have e : |val (fin s m)| = m * lam := by
    rw [val_fin, signed_cast, abs_mul, abs_mul, abs_sgn, one_mul, abs_of_pos lam_pos, abs_of_nonneg (by positivity)]
  rw [e] at h h' ⊢
  have h1 : (2 : ℝ) ^ 948 ≤ m := by
    have : (2 : ℝ) ^ 948 * lam ≤ m * lam := by rw [big_lam]; exact h
    exact le_of_mul_le_mul_right this lam_pos
  have h2 : (m : ℝ) ≤ 2 ^ 1200 := by
    have : (m : ℝ) * lam ≤ (2 : ℝ) ^ 1200 * lam := by rw [big_lam]; exact h'
    exact le_of_mul_le_mul_right this lam_pos
  obtain ⟨i1, i2⟩ := ofMag32_error (s := s) (a := m) (b := 1) one_pos (by rwa [Nat.cast_one, div_one])
    (rndMag32_rel one_pos (by rw [one_mul]; exact_mod_cast h1))
  refine ⟨i1, ?_⟩
  rw [Nat.cast_one, div_one] at i2
  show |val (ofMag32 s m 1) - val (fin s m)| ≤ _
  rw [val_fin, signed_cast, ← mul_assoc]
  exact i2

theorem mul32_error {a b : B64} (ha : Fin a) (hb : Fin b) (h : |val a * val b| ≤ (2 : ℝ) ^ (126 : ℤ)) :
    Fin (mul32 a b) ∧ |val (mul32 a b) - val a * val b| ≤ (2 : ℝ) ^ (-24 : ℤ) * |val a * val b| + (2 : ℝ) ^ (-150 : ℤ) := by
  cases a with
  | inf => cases ha
  | nan => cases ha
  | fin s m =>
  cases b with
  | inf => cases hb
  | nan => cases hb
  | fin t n =>
  have e : val (fin s m) * val (fin t n) = (if xor s t then -1 else 1) * (((m * n : ℕ) : ℝ) / unit) * lam := by
    rw [val_fin, val_fin, signed_cast, signed_cast, sgn_xor, div_eq_mul_inv, inv_unit]; push_cast; ring
  have e' : |val (fin s m) * val (fin t n)| = ((m * n : ℕ) : ℝ) / unit * lam := by
    rw [e, abs_mul, abs_mul, abs_sgn, one_mul, abs_of_pos lam_pos, abs_of_nonneg (by positivity)]
  rw [e'] at h ⊢
  have h2 : ((m * n : ℕ) : ℝ) / unit ≤ 2 ^ 1200 := by
    have : ((m * n : ℕ) : ℝ) / unit * lam ≤ (2 : ℝ) ^ 1200 * lam := by rw [big_lam]; exact h
    exact le_of_mul_le_mul_right this lam_pos
  obtain ⟨h1, h2⟩ := ofMag32_error (s := xor s t) (a := m * n) (b := unit) unit_pos h2 (rndMag32_error unit_pos)
  refine ⟨h1, ?_⟩
  rw [e]
  refine h2.trans (le_of_eq ?_)
  have : (2 : ℝ) ^ 925 / 2 * lam = (2 : ℝ) ^ (-150 : ℤ) := by
    rw [div_mul_eq_mul_div, big_lam, show ((925 : ℕ) : ℤ) - 1074 = -150 + 1 by norm_num, zpow_add₀ (by norm_num)]
    norm_num
  rw [add_mul, this]; ring

/-- `1 / n` times a sample. -/
theorem weigh32_error {n : ℕ} (h1 : 1 ≤ n) (hn : n ≤ 2 ^ 24) {x : B64} (hx : Fin x) (hM : |val x| ≤ (2 : ℝ) ^ (120 : ℤ)) :
    Fin (mul32 (to32 (intDiv 1 n)) x) ∧
      |val (mul32 (to32 (intDiv 1 n)) x) - val x / n| ≤ (9 / 8 * (2 : ℝ) ^ (-23 : ℤ)) * |val x / n| + (2 : ℝ) ^ (-150 : ℤ) := by
  obtain ⟨i1, i2⟩ := inv_error h1 (by omega)
  have hn0 : (0 : ℝ) < n := by exact_mod_cast h1
  have hn1 : (1 : ℝ) ≤ n := by exact_mod_cast h1
  have hn24 : (n : ℝ) ≤ 2 ^ 24 := by exact_mod_cast hn
  obtain ⟨t, ht⟩ : ∃ t : ℝ, t = 1 / n := ⟨_, rfl⟩
  have ht0 : 0 < t := by rw [ht]; positivity
  have ht1 : t ≤ 1 := by rw [ht, div_le_one hn0]; exact hn1
  have htl : (2 : ℝ) ^ (-24 : ℤ) ≤ t := by
    rw [ht, zpow_neg, ← one_div]
    exact one_div_le_one_div_of_le hn0 (by exact_mod_cast hn24)
  rw [← ht] at i2
  have hu : u ≤ 1 / 2 ^ 53 := by unfold u; norm_num [zpow_neg]
  have hu0 : 0 ≤ u := u_pos.le
  obtain ⟨b, hb⟩ : ∃ b, b = val (intDiv 1 n) := ⟨_, rfl⟩
  rw [← hb] at i2
  have hut : u * t ≤ 1 / 2 ^ 53 * t := mul_le_mul_of_nonneg_right hu ht0.le
  obtain ⟨l1, l2⟩ := abs_le.mp i2
  have hb0 : 0 < b := by linarith
  have hbb : |b| = b := abs_of_pos hb0
  have hsmall : (2 : ℝ) ^ (-126 : ℤ) ≤ |b| := by
    rw [hbb]
    have : (2 : ℝ) ^ (-126 : ℤ) ≤ (2 : ℝ) ^ (-24 : ℤ) / 2 := by
      rw [zpow_neg, zpow_neg]; norm_num
    generalize (2 : ℝ) ^ (-126 : ℤ) = y at *
    generalize (2 : ℝ) ^ (-24 : ℤ) = z at *
    linarith
  have hbig : |b| ≤ (2 : ℝ) ^ (126 : ℤ) := by
    rw [hbb]
    have : (2 : ℝ) ≤ (2 : ℝ) ^ (126 : ℤ) := by norm_num
    linarith
  obtain ⟨j1, j2⟩ := to32_error i1.isFin (by rw [← hb]; exact hsmall) (by rw [← hb]; exact hbig)
  rw [← hb] at j2
  generalize to32 (intDiv 1 n) = B at j1 j2 ⊢
  rw [hbb] at j2
  have e24 : (2 : ℝ) ^ (-24 : ℤ) = 1 / 2 ^ 24 := by rw [zpow_neg]; norm_num
  have e23 : (2 : ℝ) ^ (-23 : ℤ) = 1 / 2 ^ 23 := by rw [zpow_neg]; norm_num
  rw [e24] at j2
  obtain ⟨m1, m2⟩ := abs_le.mp j2
  have hBt : |val B - t| ≤ (1 / 2 ^ 24 + 1 / 2 ^ 50) * t := by
    rw [abs_le]; constructor <;> linarith
  have hB2 : |val B| ≤ (1 + 1 / 2 ^ 23) * t := by
    obtain ⟨o1, o2⟩ := abs_le.mp hBt
    rw [abs_le]; constructor <;> linarith
  have hp : |val B * val x| ≤ (1 + 1 / 2 ^ 23) * (t * |val x|) := by
    rw [abs_mul, ← mul_assoc]; exact mul_le_mul_of_nonneg_right hB2 (abs_nonneg _)
  have htx : t * |val x| ≤ (2 : ℝ) ^ (120 : ℤ) := by
    refine le_trans ?_ hM
    have := mul_le_mul_of_nonneg_right ht1 (abs_nonneg (val x))
    linarith
  have htx0 : 0 ≤ t * |val x| := by positivity
  obtain ⟨k1, k2⟩ := mul32_error j1 hx (hp.trans (by
    have : (2 : ℝ) ^ (126 : ℤ) = 2 ^ 6 * (2 : ℝ) ^ (120 : ℤ) := by norm_num
    rw [this]
    linarith))
  refine ⟨k1, ?_⟩
  have ex : val x / n = t * val x := by rw [ht]; ring
  rw [ex]
  have e1 : |t * val x| = t * |val x| := by rw [abs_mul, abs_of_pos ht0]
  rw [e1]
  have h3 : |val B * val x - t * val x| ≤ (1 / 2 ^ 24 + 1 / 2 ^ 50) * (t * |val x|) := by
    rw [← sub_mul, abs_mul, ← mul_assoc]; exact mul_le_mul_of_nonneg_right hBt (abs_nonneg _)
  have h4 := abs_sub_le (val (mul32 B x)) (val B * val x) (t * val x)
  rw [e24] at k2
  rw [e23]
  linarith

end B64

namespace S32
open B64
variable {L : Lib}

/-- The number is finite. -/
def Finite (a : S32 L) : Prop := B64.Fin (Mixed.num a)

/-- Its value. -/
noncomputable def real (a : S32 L) : ℝ := B64.val (Mixed.num a)

/-- It is a number of a sample, of size at most `M`. -/
def Within (M : ℝ) (a : S32 L) : Prop := Mixed.origin a = .sample ∧ Finite a ∧ |real a| ≤ M

theorem small_terms {M : ℝ} (h1 : (2 : ℝ) ^ (-100 : ℤ) ≤ M) : (2 : ℝ) ^ 24 * (2 : ℝ) ^ (-150 : ℤ) ≤ 1 / 2 ^ 26 * M ∧ 3 * η ≤ 1 / 2 ^ 60 * M := by
  constructor
  · calc (2 : ℝ) ^ 24 * (2 : ℝ) ^ (-150 : ℤ) = 1 / 2 ^ 26 * (2 : ℝ) ^ (-100 : ℤ) := by
          rw [zpow_neg, zpow_neg]; norm_num
      _ ≤ _ := mul_le_mul_of_nonneg_left h1 (by positivity)
  · have : 3 * η ≤ (2 : ℝ) ^ (-200 : ℤ) := by
      have : η ≤ (2 : ℝ) ^ (-300 : ℤ) := by
        unfold η lam
        have := zpow_le_zpow_right₀ (show (1 : ℝ) ≤ 2 by norm_num) (show (-1074 : ℤ) ≤ -300 by norm_num)
        have : (0 : ℝ) < (2 : ℝ) ^ (-1074 : ℤ) := by positivity
        linarith
      have h2 : (2 : ℝ) ^ (-300 : ℤ) * 3 ≤ (2 : ℝ) ^ (-200 : ℤ) := by
        rw [show (-200 : ℤ) = -300 + 100 by norm_num, zpow_add₀ (by norm_num)]
        exact mul_le_mul_of_nonneg_left (by norm_num) (by positivity)
      linarith
    refine this.trans (le_trans ?_ (mul_le_mul_of_nonneg_left h1 (by positivity)))
    rw [zpow_neg, zpow_neg]; norm_num

/-- One step of a centroid. -/
theorem step {M E δ m mt : ℝ} {k : ℕ} (hk : 2 ≤ k) (hkN : k ≤ 2 ^ 24) (hM1 : (2 : ℝ) ^ (-100 : ℤ) ≤ M) (hM2 : M ≤ (2 : ℝ) ^ (120 : ℤ))
    (hδ : δ = 1 / 2 ^ 22 * M) (hE : 0 ≤ E) (hE2 : E ≤ M) {a x : S32 L} (ha : Finite a) (hA : |real a - mt| ≤ E)
    (hm : |mt - m| ≤ δ) (hmM : |m| ≤ M) (hx : Within M x) :
    Finite (Arith.oneMinusInv k * a + Arith.invNat k * x) ∧
    ∃ mt', |real (Arith.oneMinusInv k * a + Arith.invNat k * x) - mt'| ≤ E + 1 / 2 ^ 49 * M ∧
      |mt' - ((k - 1) * m + real x) / k| ≤ δ := by
  obtain ⟨hs, fx, Mx⟩ := hx
  obtain ⟨q, hq⟩ : ∃ q, q = mul32 (to32 (intDiv 1 k)) (Mixed.num x) := ⟨_, rfl⟩
  obtain ⟨w1, w2⟩ := weigh32_error (by omega : 1 ≤ k) hkN fx (Mx.trans hM2)
  rw [← hq] at w1 w2
  have hblend : Mixed.num (Arith.oneMinusInv k * a + Arith.invNat k * x : S32 L) =
      B64.add (B64.mul (B64.sub (B64.ofNat 1) (B64.intDiv 1 k)) (Mixed.num a)) q := by
    have e : Mixed.mul (⟨B64.intDiv 1 k, .python, false⟩ : Mixed) x =
        ⟨q, .array, false || Mixed.hit x || decide (q ≠ B64.mul (B64.intDiv 1 k) (Mixed.num x))⟩ := by
      unfold Mixed.mul
      rw [if_pos ⟨rfl, hs⟩, hq]
    show B64.add (Mixed.num (Mixed.mul (Mixed.dbl _) a)) (Mixed.num (Mixed.mul (⟨B64.intDiv 1 k, .python, false⟩ : Mixed) x)) = _
    rw [e]
    rfl
  have hk0 : (0 : ℝ) < k := by exact_mod_cast (by omega : 0 < k)
  have hk1 : (1 : ℝ) ≤ k := by exact_mod_cast (by omega : 1 ≤ k)
  have hk24 : (k : ℝ) ≤ 2 ^ 24 := by exact_mod_cast hkN
  have hM0 : 0 < M := lt_of_lt_of_le (by positivity) hM1
  obtain ⟨t1, t2⟩ := small_terms hM1
  have hη : 0 ≤ η := η_pos.le
  have hδ0 : 0 ≤ δ := by rw [hδ]; positivity
  -- the sample as it is weighed
  obtain ⟨X, hX⟩ : ∃ X, X = k * val q := ⟨_, rfl⟩
  have hQ : val q = X / k := by rw [hX]; field_simp
  have hXx : |X - real x| ≤ δ := by
    have e1 : X - real x = k * (val q - val (Mixed.num x) / k) := by
      rw [hX, mul_sub, mul_div_cancel₀ _ hk0.ne']; rfl
    have e2 : |val (Mixed.num x) / k| = |real x| / k := by rw [abs_div, abs_of_pos hk0]; rfl
    rw [e1, abs_mul, abs_of_pos hk0]
    rw [e2] at w2
    have h1 := mul_le_mul_of_nonneg_left w2 hk0.le
    have h2 : (k : ℝ) * (9 / 8 * (2 : ℝ) ^ (-23 : ℤ) * (|real x| / k) + (2 : ℝ) ^ (-150 : ℤ)) =
        9 / 8 * (2 : ℝ) ^ (-23 : ℤ) * |real x| + k * (2 : ℝ) ^ (-150 : ℤ) := by field_simp
    have h3 : (k : ℝ) * (2 : ℝ) ^ (-150 : ℤ) ≤ 2 ^ 24 * (2 : ℝ) ^ (-150 : ℤ) := mul_le_mul_of_nonneg_right hk24 (by positivity)
    have e23 : (2 : ℝ) ^ (-23 : ℤ) = 1 / 2 ^ 23 := by rw [zpow_neg]; norm_num
    have h4 : 9 / 8 * (2 : ℝ) ^ (-23 : ℤ) * |real x| ≤ 9 / 8 * (1 / 2 ^ 23) * M := by
      rw [e23]; exact mul_le_mul_of_nonneg_left Mx (by positivity)
    rw [hδ]
    linarith
  have hmt : |mt| ≤ M + δ := by
    have := abs_sub_abs_le_abs_sub mt m
    linarith
  have hXM : |X| ≤ M + δ := by
    have := abs_sub_abs_le_abs_sub X (real x)
    linarith
  -- the operations of doubles
  have hS := F64.standard L (N := 2 ^ 24) (by norm_num)
  obtain ⟨f1, hb⟩ := hS.inv k (by omega) hkN
  obtain ⟨f2, hoo⟩ := hS.oneMinus k (by omega) hkN
  obtain ⟨b, hbdef⟩ : ∃ b, b = val (intDiv 1 k) := ⟨_, rfl⟩
  obtain ⟨a', ha'⟩ : ∃ a', a' = val (B64.sub (B64.ofNat 1) (intDiv 1 k)) := ⟨_, rfl⟩
  change |val (intDiv 1 k) - 1 / k| ≤ u * (1 / k) at hb
  change |val (B64.sub (B64.ofNat 1) (intDiv 1 k)) - (1 - val (intDiv 1 k))| ≤ u * |1 - val (intDiv 1 k)| at hoo
  rw [← hbdef] at hb hoo
  rw [← ha'] at hoo
  have hu0 : 0 ≤ u := u_pos.le
  have hu : u ≤ 1 / 2 ^ 53 := by unfold u; norm_num [zpow_neg]
  obtain ⟨tt, htt⟩ : ∃ tt : ℝ, tt = 1 / k := ⟨_, rfl⟩
  have tt0 : 0 < tt := by rw [htt]; positivity
  have hb2 : |b - 1 / k| ≤ 2 * u * (1 / k) := hb.trans (by rw [← htt]; have := mul_nonneg hu0 tt0.le; linarith)
  have ho2 : |a' - (1 - b)| ≤ 2 * u * |1 - b| := hoo.trans (by have := mul_nonneg hu0 (abs_nonneg (1 - b)); linarith)
  have huk : 4 * (2 * u) * k ≤ 1 := by
    have : 4 * (2 * u) * k ≤ 4 * (2 * (1 / 2 ^ 53)) * 2 ^ 24 := mul_le_mul (by linarith) hk24 hk0.le (by norm_num)
    exact this.trans (by norm_num)
  have hQ2 : |val q - b * X| ≤ 2 * u * |b * X| + η := by
    rw [hQ]
    have e1 : X / k - b * X = (tt - b) * X := by rw [htt]; ring
    rw [e1, abs_mul, abs_mul, abs_sub_comm]
    rw [← htt] at hb
    have hbt : tt ≤ 2 * |b| := by
      have h1 := abs_sub_abs_le_abs_sub tt (tt - b)
      have h2 : tt - (tt - b) = b := by ring
      rw [h2, abs_of_pos tt0, abs_sub_comm tt b] at h1
      have h3 : u * tt ≤ 1 / 2 ^ 53 * tt := mul_le_mul_of_nonneg_right hu tt0.le
      linarith
    have h1 : |b - tt| * |X| ≤ u * tt * |X| := mul_le_mul_of_nonneg_right hb (abs_nonneg _)
    have h2 : u * tt * |X| ≤ u * (2 * |b|) * |X| :=
      mul_le_mul_of_nonneg_right (mul_le_mul_of_nonneg_left hbt hu0) (abs_nonneg _)
    linarith
  have twice : ∀ y : ℝ, 0 ≤ y → u * y ≤ 2 * u * y := fun y hy => by have := mul_nonneg hu0 hy; linarith
  have z : ∀ y : ℝ, |y - y| ≤ 2 * u * |y| := fun y => by rw [sub_self, abs_zero]; positivity
  have zη : ∀ y : ℝ, |y - y| ≤ 2 * u * |y| + η := fun y => (z y).trans (by linarith)
  have hu1 : 2 * u ≤ 1 / 16 := by linarith
  have hbig : 4 * (M + δ) + 4 * E + 4 * η ≤ Ω := by
    have h1 : (2 : ℝ) ^ (130 : ℤ) ≤ Ω := le_Ω (by norm_num)
    have h2 : (2 : ℝ) ^ (130 : ℤ) = 2 ^ 10 * (2 : ℝ) ^ (120 : ℤ) := by norm_num
    rw [hδ]
    rw [h2] at h1
    generalize (2 : ℝ) ^ (120 : ℤ) = y at *
    linarith
  obtain ⟨i1, -, -, -⟩ := Rounding.step_real hk (by linarith) hu1 hη huk hE hA hmt hXM hb2 ho2 (zη _) hQ2 (z _)
  obtain ⟨g1, hP⟩ := mul_error (a := B64.sub (B64.ofNat 1) (intDiv 1 k)) (b := Mixed.num a) f2 ha (by
    rw [← ha']; exact i1.trans (by linarith))
  rw [← ha'] at hP
  have hP2 : |val (B64.mul (B64.sub (B64.ofNat 1) (intDiv 1 k)) (Mixed.num a)) - a' * real a| ≤ 2 * u * |a' * real a| + η :=
    hP.trans (by have := mul_nonneg hu0 (abs_nonneg (a' * real a)); change u * |a' * real a| + η ≤ _; linarith)
  obtain ⟨-, -, i3, -⟩ := Rounding.step_real hk (by linarith) hu1 hη huk hE hA hmt hXM hb2 ho2 hP2 hQ2 (z _)
  obtain ⟨g3, hR⟩ := add_error g1.isFin w1 (i3.trans (by linarith))
  have hR2 := hR.trans (twice _ (abs_nonneg _))
  obtain ⟨-, -, -, i4⟩ := Rounding.step_real hk (by linarith) hu1 hη huk hE hA hmt hXM hb2 ho2 hP2 hQ2 hR2
  refine ⟨?_, ((k - 1) * mt + X) / k, ?_, ?_⟩
  · unfold Finite; rw [hblend]; exact g3.isFin
  · unfold real; rw [hblend]
    refine i4.trans ?_
    have : 4 * (2 * u) * (M + δ) ≤ 4 * (2 * (1 / 2 ^ 53)) * (M + δ) := mul_le_mul_of_nonneg_right (by linarith) (by linarith)
    rw [hδ] at this ⊢
    linarith
  · have e1 : ((k - 1) * mt + X) / k - ((k - 1) * m + real x) / k = ((k - 1) * (mt - m) + (X - real x)) / k := by ring
    rw [e1, abs_div, abs_of_pos hk0, div_le_iff₀ hk0]
    refine (abs_add_le _ _).trans ?_
    rw [abs_mul, abs_of_nonneg (by linarith : (0 : ℝ) ≤ k - 1)]
    have := mul_le_mul_of_nonneg_left hm (by linarith : (0 : ℝ) ≤ k - 1)
    linarith

/-- The centroid of samples in single precision. -/
theorem centroid {d : ℕ} {M : ℝ} (hM1 : (2 : ℝ) ^ (-100 : ℤ) ≤ M) (hM2 : M ≤ (2 : ℝ) ^ (120 : ℤ)) {l : List (List (S32 L))} (hl : l ≠ [])
    (hd : ∀ x ∈ l, x.length = d) (hx : ∀ x ∈ l, ∀ a ∈ x, Within M a) (hN : l.length ≤ 2 ^ 24) {j : ℕ} (hj : j < d) :
    ∃ a, (Stat.of l).v[j]? = some a ∧ Finite a ∧ ∃ mt, |real a - mt| ≤ (l.length - 1) * (1 / 2 ^ 49 * M) ∧
      |mt - Rounding.mean real l j| ≤ 1 / 2 ^ 22 * M := by
  have hM0 : 0 < M := lt_of_lt_of_le (by positivity) hM1
  have hget : ∀ x ∈ l, x[j]? = some (x.getD j 0) := by
    intro x hx
    have : j < x.length := by rw [hd x hx]; exact hj
    simp [this]
  induction l using List.reverseRecOn with
  | nil => exact absurd rfl hl
  | append_singleton l x ih =>
    have hxm : x.getD j 0 ∈ x := List.mem_of_getElem? (hget x (by simp))
    have Wx := hx x (by simp) _ hxm
    by_cases e : l = []
    · subst e
      refine ⟨x.getD j 0, hget x (by simp), Wx.2.1, real (x.getD j 0), by simp, ?_⟩
      simp only [Rounding.mean, List.nil_append, List.map_cons, List.map_nil, List.sum_cons, List.sum_nil, List.length_cons, List.length_nil,
        zero_add, add_zero, Nat.cast_one, div_one, sub_self, abs_zero]
      positivity
    · simp only [List.length_append, List.length_cons, List.length_nil, zero_add] at hN
      obtain ⟨a, h1, h2, mt, h3, h4⟩ := ih e (fun y hy => hd y (by simp [hy])) (fun y hy => hx y (by simp [hy])) (by omega)
        (fun y hy => hget y (by simp [hy]))
      have hn := (Stat.of_length e fun y hy => hd y (by simp [hy])).1
      have hn0 := List.length_pos_iff.mpr e
      have hn1 : (1 : ℝ) ≤ l.length := by exact_mod_cast hn0
      have hNr : (l.length + 1 : ℝ) ≤ 2 ^ 24 := by exact_mod_cast hN
      have hE : 0 ≤ ((l.length : ℝ) - 1) * (1 / 2 ^ 49 * M) := mul_nonneg (by linarith) (by positivity)
      have hE2 : ((l.length : ℝ) - 1) * (1 / 2 ^ 49 * M) ≤ M := by
        have : ((l.length : ℝ) - 1) * (1 / 2 ^ 49 * M) ≤ 2 ^ 24 * (1 / 2 ^ 49 * M) := mul_le_mul_of_nonneg_right (by linarith) (by positivity)
        linarith
      obtain ⟨s1, mt', s2, s3⟩ := step (k := l.length + 1) (by omega) hN hM1 hM2 rfl hE hE2 h2 h3 h4
        (Rounding.mean_abs (fun y hy => (hx y (by simp [hy]) _ (List.mem_of_getElem? (hget y (by simp [hy])))).2.2) e) Wx
      refine ⟨_, ?_, s1, mt', ?_, ?_⟩
      · rw [Stat.of_append _ e]
        simp only [Stat.more, blend, hn, List.getElem?_zipWith, List.getElem?_map, h1, hget x (by simp), Option.map_some]
      · refine s2.trans (le_of_eq ?_)
        simp only [List.length_append, List.length_cons, List.length_nil, zero_add]
        push_cast
        ring
      · rw [Rounding.mean_append e]
        exact s3

end S32
end Verif.Gen
