import Mathlib.Analysis.SpecialFunctions.Exp
import Mathlib.Analysis.Real.Sqrt
import Mathlib.Algebra.BigOperators.Group.List.Basic
import Mathlib.Algebra.BigOperators.Group.Finset.Basic

/-!
# Numbers

`XR` is the value of a numpy/Python float in this model: exact real numbers extended with the IEEE-754
special values.  It models the special-value behaviour of float arithmetic (division by zero, NaN
propagation, `inf - inf`, `0 * inf`).  It does **not** model rounding, overflow, underflow or the sign of zero.
-/

namespace Verif

/-- A float: an exact real, `+inf`, `-inf` or `nan`.
Models the `float64` values every module computes with (numpy; no file of /repo defines it). -/
inductive XR where
  | fin (r : ℝ)
  | pinf
  | ninf
  | nan

namespace XR

/-- IEEE addition on special values. -/
noncomputable def add : XR → XR → XR
  | fin a, fin b => fin (a + b)
  | nan, _ => nan
  | _, nan => nan
  | pinf, ninf => nan
  | ninf, pinf => nan
  | pinf, _ => pinf
  | ninf, _ => ninf
  | fin _, pinf => pinf
  | fin _, ninf => ninf

/-- IEEE negation. -/
noncomputable def neg : XR → XR
  | fin a => fin (-a)
  | pinf => ninf
  | ninf => pinf
  | nan => nan

/-- The signed infinity with the sign of `r`; `nan` for `0` (this is both `r * inf` and, for `r ≠ 0`, `r / 0`). -/
noncomputable def infOfSign (r : ℝ) : XR :=
  if 0 < r then pinf else if r < 0 then ninf else nan

/-- IEEE multiplication. -/
noncomputable def mul : XR → XR → XR
  | fin a, fin b => fin (a * b)
  | nan, _ => nan
  | _, nan => nan
  | fin a, pinf => infOfSign a
  | fin a, ninf => infOfSign (-a)
  | pinf, fin b => infOfSign b
  | ninf, fin b => infOfSign (-b)
  | pinf, pinf => pinf
  | pinf, ninf => ninf
  | ninf, pinf => ninf
  | ninf, ninf => pinf

/-- IEEE division of two reals: `a/0` is `±inf` by the sign of `a`, `0/0` is `nan` (zero is taken as `+0`). -/
noncomputable def idiv (a b : ℝ) : XR := if b = 0 then infOfSign a else fin (a / b)

/-- IEEE division. -/
noncomputable def div : XR → XR → XR
  | fin a, fin b => idiv a b
  | nan, _ => nan
  | _, nan => nan
  | fin _, pinf => fin 0
  | fin _, ninf => fin 0
  | pinf, fin b => if b < 0 then ninf else pinf
  | ninf, fin b => if b < 0 then pinf else ninf
  | pinf, _ => nan
  | ninf, _ => nan

noncomputable instance : Add XR := ⟨add⟩
noncomputable instance : Neg XR := ⟨neg⟩
noncomputable instance : Sub XR := ⟨fun a b => a + -b⟩
noncomputable instance : Mul XR := ⟨mul⟩
noncomputable instance : Div XR := ⟨div⟩
noncomputable instance : Zero XR := ⟨fin 0⟩
noncomputable instance : One XR := ⟨fin 1⟩

theorem zero_def : (0 : XR) = fin 0 := rfl
theorem one_def : (1 : XR) = fin 1 := rfl

@[simp] theorem fin_add (a b : ℝ) : fin a + fin b = fin (a + b) := rfl
@[simp] theorem fin_neg (a : ℝ) : -fin a = fin (-a) := rfl
@[simp] theorem fin_sub (a b : ℝ) : fin a - fin b = fin (a - b) := by
  show fin (a + -b) = _; rw [sub_eq_add_neg]
@[simp] theorem fin_mul (a b : ℝ) : fin a * fin b = fin (a * b) := rfl
theorem fin_div (a b : ℝ) : fin a / fin b = idiv a b := rfl
theorem fin_div_of_ne {b : ℝ} (a : ℝ) (h : b ≠ 0) : fin a / fin b = fin (a / b) := by
  rw [fin_div, idiv, if_neg h]
theorem idiv_of_ne {b : ℝ} (a : ℝ) (h : b ≠ 0) : idiv a b = fin (a / b) := by
  rw [idiv, if_neg h]
@[simp] theorem idiv_zero_zero : idiv 0 0 = nan := by simp [idiv, infOfSign]
theorem idiv_pos_zero {a : ℝ} (h : 0 < a) : idiv a 0 = pinf := by simp [idiv, infOfSign, h]

@[simp] theorem nan_add (a : XR) : nan + a = nan := by cases a <;> rfl
@[simp] theorem add_nan (a : XR) : a + nan = nan := by cases a <;> rfl
@[simp] theorem neg_nan : -nan = nan := rfl
@[simp] theorem nan_sub (a : XR) : nan - a = nan := nan_add _
@[simp] theorem sub_nan (a : XR) : a - nan = nan := add_nan _
@[simp] theorem nan_mul (a : XR) : nan * a = nan := by cases a <;> rfl
@[simp] theorem mul_nan (a : XR) : a * nan = nan := by cases a <;> rfl
@[simp] theorem nan_div (a : XR) : nan / a = nan := by cases a <;> rfl
@[simp] theorem div_nan (a : XR) : a / nan = nan := by cases a <;> rfl

@[simp] theorem fin_inj {a b : ℝ} : fin a = fin b ↔ a = b := ⟨fun h => XR.fin.inj h, fun h => h ▸ rfl⟩
@[simp] theorem fin_ne_nan (a : ℝ) : fin a ≠ nan := nofun
@[simp] theorem fin_ne_pinf (a : ℝ) : fin a ≠ pinf := nofun
@[simp] theorem fin_ne_ninf (a : ℝ) : fin a ≠ ninf := nofun
@[simp] theorem nan_ne_fin (a : ℝ) : nan ≠ fin a := nofun
@[simp] theorem pinf_ne_fin (a : ℝ) : pinf ≠ fin a := nofun
@[simp] theorem pinf_ne_nan : pinf ≠ nan := nofun
@[simp] theorem nan_ne_pinf : nan ≠ pinf := nofun

noncomputable instance : AddCommMonoid XR where
  add_assoc a b c := by
    cases a <;> cases b <;> cases c <;> first | exact congrArg fin (add_assoc _ _ _) | rfl
  zero_add a := by cases a <;> first | exact congrArg fin (zero_add _) | rfl
  add_zero a := by cases a <;> first | exact congrArg fin (add_zero _) | rfl
  add_comm a b := by
    cases a <;> cases b <;> first | exact congrArg fin (add_comm _ _) | rfl
  nsmul := nsmulRec

/-- `np.sqrt`: `nan` on negative numbers. -/
noncomputable def sqrt : XR → XR
  | fin a => if a < 0 then nan else fin (Real.sqrt a)
  | pinf => pinf
  | ninf => nan
  | nan => nan

/-- `np.exp`. -/
noncomputable def exp : XR → XR
  | fin a => fin (Real.exp a)
  | pinf => pinf
  | ninf => fin 0
  | nan => nan

@[simp] theorem exp_fin (a : ℝ) : exp (fin a) = fin (Real.exp a) := rfl
@[simp] theorem exp_nan : exp nan = nan := rfl
@[simp] theorem sqrt_nan : sqrt nan = nan := rfl
theorem sqrt_fin_of_nonneg {a : ℝ} (h : 0 ≤ a) : sqrt (fin a) = fin (Real.sqrt a) := by
  simp [sqrt, not_lt.mpr h]

/-- `np.minimum`: NaN-propagating minimum. -/
noncomputable def min : XR → XR → XR
  | nan, _ => nan
  | _, nan => nan
  | fin a, fin b => fin (Min.min a b)
  | ninf, _ => ninf
  | _, ninf => ninf
  | pinf, b => b
  | a, pinf => a

/-- `np.maximum`: NaN-propagating maximum. -/
noncomputable def max : XR → XR → XR
  | nan, _ => nan
  | _, nan => nan
  | fin a, fin b => fin (Max.max a b)
  | pinf, _ => pinf
  | _, pinf => pinf
  | ninf, b => b
  | a, ninf => a

@[simp] theorem min_fin (a b : ℝ) : min (fin a) (fin b) = fin (Min.min a b) := rfl
@[simp] theorem max_fin (a b : ℝ) : max (fin a) (fin b) = fin (Max.max a b) := rfl
@[simp] theorem min_nan (a : XR) : min a nan = nan := by cases a <;> rfl
@[simp] theorem nan_min (a : XR) : min nan a = nan := by cases a <;> rfl
@[simp] theorem max_nan (a : XR) : max a nan = nan := by cases a <;> rfl
@[simp] theorem nan_max (a : XR) : max nan a = nan := by cases a <;> rfl

/-- Truth value of a float as used by `np.any`: everything except zero (NaN is true). -/
noncomputable def truthy : XR → Bool
  | fin a => decide (a ≠ 0)
  | _ => true

/-- `x ** 2` -/
noncomputable def sq (x : XR) : XR := x * x

@[simp] theorem sq_fin (a : ℝ) : sq (fin a) = fin (a ^ 2) := by simp [sq, pow_two]
@[simp] theorem sq_nan : sq nan = nan := by simp [sq]

/-- `x` is a finite number. -/
def IsFin : XR → Prop
  | fin _ => True
  | _ => False

/-- `x < 0` holds for the float `x` (so it is a negative number or `-inf`). -/
def IsNeg : XR → Prop
  | fin a => a < 0
  | ninf => True
  | _ => False

theorem sum_fin {ι : Type*} (l : List ι) (f : ι → ℝ) :
    (l.map fun i => fin (f i)).sum = fin ((l.map f).sum) := by
  induction l with
  | nil => rfl
  | cons a l ih => simp [ih]

theorem sum_eq_nan {l : List XR} (h : nan ∈ l) : l.sum = nan := by
  induction l with
  | nil => simp at h
  | cons a l ih =>
    rcases List.mem_cons.mp h with h | h
    · subst h; simp
    · simp [ih h]

end XR
end Verif
