import Verif.Gen.RoundingCP
import Mathlib.Data.Int.Log
import Mathlib.Algebra.Order.Round
import Mathlib.Analysis.SpecialFunctions.Exp
import Mathlib.Analysis.Real.Sqrt

/-!
# Reals with 53 significant binary digits

The numbers are reals; the result of every operation is rounded to 53 significant digits, to the nearest.  Like float64, but without
bounds on the exponent (no overflow, no underflow, no special values).  Used in examples.
-/

namespace Verif.Gen

/-- The distance of neighbouring numbers with 53 digits near `x`. -/
noncomputable def ulp (x : ℝ) : ℝ := (2 : ℝ) ^ (Int.log 2 |x| - 52)

/-- The nearest number with 53 digits. -/
noncomputable def rnd (x : ℝ) : ℝ := round (x / ulp x) * ulp x

theorem rnd_error (x : ℝ) : |rnd x - x| ≤ (2 : ℝ) ^ (-53 : ℤ) * |x| := by
  by_cases h : x = 0
  · subst h; simp [rnd]
  have hs : 0 < ulp x := zpow_pos (by norm_num) _
  have e : rnd x - x = (round (x / ulp x) - x / ulp x) * ulp x := by rw [rnd]; field_simp
  have h1 := abs_sub_round (x / ulp x)
  rw [e, abs_mul, abs_of_pos hs, abs_sub_comm]
  have h2 : (2 : ℝ) ^ Int.log 2 |x| ≤ |x| := by
    have := Int.zpow_log_le_self (b := 2) (r := |x|) (by norm_num) (abs_pos.mpr h)
    exact_mod_cast this
  have h3 : ulp x = (2 : ℝ) ^ Int.log 2 |x| * (2 * (2 : ℝ) ^ (-53 : ℤ)) := by
    rw [ulp, zpow_sub₀ (by norm_num)]; norm_num; ring
  calc |x / ulp x - round (x / ulp x)| * ulp x ≤ 1 / 2 * ulp x := mul_le_mul_of_nonneg_right h1 hs.le
    _ = (2 : ℝ) ^ (-53 : ℤ) * (2 : ℝ) ^ Int.log 2 |x| := by rw [h3]; ring
    _ ≤ _ := mul_le_mul_of_nonneg_left h2 (by positivity)

/-- A number after rounding. -/
structure R53 where
  val : ℝ

namespace R53

noncomputable def sum (l : List R53) : R53 := l.foldl (fun a b => ⟨rnd (a.val + b.val)⟩) ⟨0⟩
noncomputable def dot (a b : List R53) : R53 := sum (List.zipWith (fun x y => ⟨rnd (x.val * y.val)⟩) a b)

/-- `det` and `inv` are not meant to be those of numpy; the examples do not use them. -/
noncomputable instance : Arith R53 where
  zero := ⟨0⟩
  add a b := ⟨rnd (a.val + b.val)⟩
  sub a b := ⟨rnd (a.val - b.val)⟩
  mul a b := ⟨rnd (a.val * b.val)⟩
  div a b := ⟨rnd (a.val / b.val)⟩
  neg a := ⟨-a.val⟩
  one := ⟨1⟩
  two := ⟨2⟩
  negHalf := ⟨-(1 / 2)⟩
  ofNat n := ⟨rnd n⟩
  oneMinusInv n := ⟨rnd (1 - rnd (1 / n))⟩
  invNat n := ⟨rnd (1 / n)⟩
  invPred n := ⟨rnd (1 / (n - 1))⟩
  intDiv a b := ⟨rnd (a / b)⟩
  chFactor n k := ⟨rnd ((n - k) / (k - 1))⟩
  delta d := ⟨rnd ((10 : ℝ) ^ (-(12 : ℝ) / d))⟩
  normConst d := .ok ⟨rnd (1 / rnd (Real.sqrt (rnd ((2 * Real.pi) ^ d))))⟩
  sq a := ⟨rnd (a.val * a.val)⟩
  sqrt a := ⟨rnd (Real.sqrt a.val)⟩
  exp a := ⟨rnd (Real.exp a.val)⟩
  max2 a b := ⟨max a.val b.val⟩
  truthy a := by classical exact decide (a.val ≠ 0)
  npSum := sum
  pySum := sum
  rowSum := sum
  sum2 l := sum (l.map sum)
  colMean l := ⟨rnd ((sum l).val / l.length)⟩
  dot := dot
  minOf a l := ⟨(l.map val).foldl min a.val⟩
  maxOf a l := ⟨(l.map val).foldl max a.val⟩
  mm a b i j := dot (a.rows.getD i []) (b.rows.map fun s => s.getD j ⟨0⟩)
  vm v a j := dot v (a.rows.map fun s => s.getD j ⟨0⟩)
  det _ := .ok ⟨1⟩
  inv A := .ok A

/-- 53 digits satisfy the standard model. -/
theorem standard (Ω : ℝ) (N : ℕ) : Standard R53 val (fun _ => True) ((2 : ℝ) ^ (-53 : ℤ)) 0 Ω N where
  add a b _ _ _ := ⟨trivial, rnd_error _⟩
  mul a b _ _ _ := ⟨trivial, by rw [add_zero]; exact rnd_error _⟩
  inv n _ _ := ⟨trivial, by
    have := rnd_error (1 / n)
    rwa [abs_of_nonneg (a := (1 / n : ℝ)) (by positivity)] at this⟩
  oneMinus n _ _ := ⟨trivial, rnd_error _⟩

/-- Whole numbers up to `2 ^ 53` need no rounding. -/
theorem rnd_nat {n : ℕ} (hn : n < 2 ^ 53) : rnd n = n := by
  by_cases h0 : n = 0
  · subst h0; simp [rnd]
  have hlog : Int.log 2 |(n : ℝ)| = (Nat.log 2 n : ℕ) := by rw [abs_of_nonneg (Nat.cast_nonneg n), Int.log_natCast]
  have hle : Nat.log 2 n ≤ 52 := by
    have := Nat.log_lt_of_lt_pow h0 hn
    omega
  obtain ⟨k, hk⟩ := Nat.exists_eq_add_of_le hle
  have hu : ulp n = ((2 : ℝ) ^ k)⁻¹ := by
    rw [ulp, hlog, show ((Nat.log 2 n : ℕ) : ℤ) - 52 = -(k : ℤ) by omega, zpow_neg, zpow_natCast]
  have e : (n : ℝ) / ulp n = ((n * 2 ^ k : ℕ) : ℤ) := by rw [hu]; push_cast; field_simp
  rw [rnd, e, round_intCast, ← e, div_mul_cancel₀]
  rw [hu]; positivity

theorem foldl_error (l : List R53) (s : R53) :
    |(l.foldl (fun a b => (⟨rnd (a.val + b.val)⟩ : R53)) s).val - (s.val + (l.map val).sum)| ≤
      ((1 + (2 : ℝ) ^ (-53 : ℤ)) ^ l.length - 1) * (|s.val| + (l.map fun y => |y.val|).sum) := by
  induction l generalizing s with
  | nil => simp
  | cons y l ih =>
    obtain ⟨u, hu⟩ : ∃ u : ℝ, u = (2 : ℝ) ^ (-53 : ℤ) := ⟨_, rfl⟩
    have hu0 : 0 ≤ u := by rw [hu]; positivity
    rw [← hu] at ih ⊢
    simp only [List.foldl_cons, List.map_cons, List.sum_cons, List.length_cons]
    have h1 := ih ⟨rnd (s.val + y.val)⟩
    have h2 : |rnd (s.val + y.val) - (s.val + y.val)| ≤ u * |s.val + y.val| := hu ▸ rnd_error _
    have h3 := Rounding.abs_le_of_err h2
    have h4 := abs_add_le s.val y.val
    have hP : 1 ≤ (1 + u) ^ l.length := one_le_pow₀ (by linarith)
    obtain ⟨A, hA⟩ : ∃ A, A = |s.val + y.val| := ⟨_, rfl⟩
    obtain ⟨R, hR⟩ : ∃ R, R = (l.map fun y => |y.val|).sum := ⟨_, rfl⟩
    have hR0 : 0 ≤ R := by rw [hR]; exact List.sum_nonneg (by simp)
    rw [← hR] at h1 ⊢
    rw [← hA] at h2 h3 h4
    have hA0 : 0 ≤ A := hA ▸ abs_nonneg _
    have h5 : |(l.foldl (fun a b => (⟨rnd (a.val + b.val)⟩ : R53)) ⟨rnd (s.val + y.val)⟩).val -
        (s.val + (y.val + (l.map val).sum))| ≤ ((1 + u) ^ l.length - 1) * (|rnd (s.val + y.val)| + R) + u * A := by
      refine (abs_sub_le _ (rnd (s.val + y.val) + (l.map val).sum) _).trans (add_le_add h1 ?_)
      have e : rnd (s.val + y.val) + (l.map val).sum - (s.val + (y.val + (l.map val).sum)) =
        rnd (s.val + y.val) - (s.val + y.val) := by ring
      rw [e]; exact h2
    refine h5.trans ?_
    have h6 : ((1 + u) ^ l.length - 1) * (|rnd (s.val + y.val)| + R) ≤ ((1 + u) ^ l.length - 1) * ((1 + u) * A + R) :=
      mul_le_mul_of_nonneg_left (by linarith) (by linarith)
    have h7 : ((1 + u) ^ l.length - 1) * ((1 + u) * A + R) + u * A ≤ ((1 + u) ^ (l.length + 1) - 1) * (A + R) := by
      have e : ((1 + u) ^ (l.length + 1) - 1) * (A + R) - (((1 + u) ^ l.length - 1) * ((1 + u) * A + R) + u * A) =
        u * (1 + u) ^ l.length * R := by ring
      have : 0 ≤ u * (1 + u) ^ l.length * R := by positivity
      linarith
    have h8 : ((1 + u) ^ (l.length + 1) - 1) * (A + R) ≤ ((1 + u) ^ (l.length + 1) - 1) * (|s.val| + (|y.val| + R)) := by
      refine mul_le_mul_of_nonneg_left (by linarith) ?_
      have : 1 ≤ (1 + u) ^ (l.length + 1) := one_le_pow₀ (by linarith)
      linarith
    linarith

theorem sum_range_zip (f : ℝ → ℝ) (a b : List R53) : ∀ d, a.length = d → b.length = d →
    ((List.zipWith (fun x y : R53 => f (x.val * y.val)) a b).sum) =
      ∑ j ∈ Finset.range d, f ((a.getD j 0).val * (b.getD j 0).val) := by
  induction a generalizing b with
  | nil => rintro d rfl h; simp
  | cons x a ih =>
    intro d ha hb
    cases b with
    | nil => simp at hb; subst hb; simp at ha
    | cons y b =>
      obtain _ | d := d
      · simp at ha
      rw [Finset.sum_range_succ', List.zipWith_cons_cons, List.sum_cons, ih b d (by simpa using ha) (by simpa using hb)]
      simp [add_comm]

/-- The inner product is summed from left to right. -/
theorem standardDot (Ω : ℝ) {N : ℕ} (hN : N < 2 ^ 53) (d : ℕ) : StandardDot R53 val (fun _ => True) ((2 : ℝ) ^ (-53 : ℤ)) 0 Ω N
    ((1 + (2 : ℝ) ^ (-53 : ℤ)) ^ (d + 1) - 1) d where
  toStandard := standard Ω N
  sub a b _ _ _ := ⟨trivial, rnd_error _⟩
  zero := ⟨trivial, rfl⟩
  two := ⟨trivial, rfl⟩
  ofNat n hn := ⟨trivial, rnd_nat (by omega)⟩
  dot a b ha hb _ _ _ := ⟨trivial, by
    obtain ⟨u, hu⟩ : ∃ u : ℝ, u = (2 : ℝ) ^ (-53 : ℤ) := ⟨_, rfl⟩
    have hu0 : 0 ≤ u := by rw [hu]; positivity
    have h1 := foldl_error (List.zipWith (fun x y : R53 => (⟨rnd (x.val * y.val)⟩ : R53)) a b) ⟨0⟩
    have e1 := sum_range_zip rnd a b d ha hb
    have e2 := sum_range_zip (fun r => |rnd r|) a b d ha hb
    simp only [List.map_zipWith, e1, e2, List.length_zipWith, ha, hb, min_self, zero_add, abs_zero] at h1
    have e3 : (List.foldl (fun a b => (⟨rnd (a.val + b.val)⟩ : R53)) ⟨0⟩
      (List.zipWith (fun x y : R53 => (⟨rnd (x.val * y.val)⟩ : R53)) a b)) = Arith.dot a b := rfl
    rw [e3] at h1
    rw [← hu] at h1 ⊢
    obtain ⟨S, hS⟩ : ∃ S, S = ∑ j ∈ Finset.range d, |(a.getD j 0).val * (b.getD j 0).val| := ⟨_, rfl⟩
    have hS0 : 0 ≤ S := by rw [hS]; exact Finset.sum_nonneg fun _ _ => abs_nonneg _
    have h2 : |∑ j ∈ Finset.range d, rnd ((a.getD j 0).val * (b.getD j 0).val) -
        ∑ j ∈ Finset.range d, (a.getD j 0).val * (b.getD j 0).val| ≤ u * S := by
      rw [← Finset.sum_sub_distrib, hS, Finset.mul_sum]
      exact (Finset.abs_sum_le_sum_abs _ _).trans (Finset.sum_le_sum fun _ _ => hu ▸ rnd_error _)
    have h3 : ∑ j ∈ Finset.range d, |rnd ((a.getD j 0).val * (b.getD j 0).val)| ≤ (1 + u) * S := by
      rw [hS, Finset.mul_sum]
      refine Finset.sum_le_sum fun j _ => ?_
      have := Rounding.abs_le_of_err (hu ▸ rnd_error ((a.getD j 0).val * (b.getD j 0).val))
      linarith
    have hP : 1 ≤ (1 + u) ^ d := one_le_pow₀ (by linarith)
    have h4 := mul_le_mul_of_nonneg_left h3 (by linarith : 0 ≤ (1 + u) ^ d - 1)
    have e4 : ((1 + u) ^ d - 1) * ((1 + u) * S) + u * S = ((1 + u) ^ (d + 1) - 1) * S := by ring
    have h5 := abs_sub_le (Arith.dot a b).val (∑ j ∈ Finset.range d, rnd ((a.getD j 0).val * (b.getD j 0).val))
      (∑ j ∈ Finset.range d, (a.getD j 0).val * (b.getD j 0).val)
    rw [← hS]
    linarith⟩

theorem invShape (d : ℕ) : InvShape R53 d := fun A B hA h => by injection h with h; exact h ▸ hA

end R53
end Verif.Gen
