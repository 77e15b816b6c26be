import Verif.Gen.B64Full
import Verif.Gen.Units
import Verif.Gen.RoundingLink

/-!
# Samples of single precision

A sample may be an array of `float32`.  numpy then computes an operation of the sample with a Python float in single precision; with an array of
`float64` the sample is converted first, which is exact.  In the incremental methods of XB, DB, GD43, GD53 and PS a sample meets

* in `np.vstack` the array `self._v` of doubles, which stays an array of doubles (XB.py:105, DB.py:105, GD43.py:107, GD53.py:107, PS.py:95),
* in differences a centroid, an array of doubles (XB.py:94, 117, DB.py:93, 117, GD43.py:96, 119, GD53.py:119, PS.py:85),
* in the product `(1 / n_new) * sample` (XB.py:114, DB.py:114, GD43.py:116, GD53.py:116, PS.py:103) a Python float.

So this product alone is computed in single precision; `1 / n_new` is rounded to single precision first.  (The running mean `self._mu` of all samples is
in single precision, too; of these classes none uses it for its value.)

`S32 L` is the arithmetic of these methods: doubles, of which those that come from samples are marked, and so are the quotients `1 / n`.
-/

namespace Verif.Gen
namespace B64

/-- `a / b` (`b ≠ 0`) rounded to a multiple of `2 ^ s`, to the nearest, ties to even. -/
def nearest (s a b : ℕ) : ℕ :=
  let w := b * 2 ^ s
  (if 2 * (a % w) < w ∨ 2 * (a % w) = w ∧ a / w % 2 = 0 then a / w else a / w + 1) * 2 ^ s

/-- `a / b` rounded to single precision: 24 significant bits, multiples of `2 ^ -149`, in units of `2 ^ -1074`. -/
def rndMag32 (a b : ℕ) : ℕ := nearest (max (Nat.log2 (a / b) - 23) 925) a b

/-- `2 ^ 128` in units of `2 ^ -1074`: the first magnitude that is infinite in single precision. -/
@[irreducible] def limit32 : ℕ := 2 ^ 1202

/-- `± a / b` in units of `2 ^ -1074`, rounded to single precision. -/
def ofMag32 (neg : Bool) (a b : ℕ) : B64 := if rndMag32 a b < limit32 then fin neg (rndMag32 a b) else inf neg

/-- Conversion to single precision. -/
def to32 : B64 → B64
  | fin s m => ofMag32 s m 1
  | inf s => inf s
  | nan => nan

/-- The product of two numbers in single precision. -/
def mul32 : B64 → B64 → B64
  | fin s m, fin t n => ofMag32 (xor s t) (m * n) unit
  | inf s, inf t => inf (xor s t)
  | inf s, fin t n => if n = 0 then nan else inf (xor s t)
  | fin s m, inf t => if m = 0 then nan else inf (xor s t)
  | _, _ => nan

/-- It is a number of single precision. -/
def IsSingle (a : B64) : Prop := to32 a = a

instance (a : B64) : Decidable (IsSingle a) := inferInstanceAs (Decidable (_ = _))

end B64

/-- Where a number comes from: a sample in single precision, a Python float, or an array of doubles. -/
inductive Origin
  | sample
  | python
  | array
  deriving DecidableEq

/-- A number, where it comes from, and whether single precision made a difference on the way. -/
structure Mixed where
  num : B64
  origin : Origin
  hit : Bool
  deriving DecidableEq

namespace Mixed
open B64

/-- The double `x`. -/
def dbl (x : B64) : Mixed := ⟨x, .array, false⟩

/-- An operation of doubles. -/
def op1 (f : B64 → B64) (x : Mixed) : Mixed := ⟨f x.num, .array, x.hit⟩
def op2 (f : B64 → B64 → B64) (x y : Mixed) : Mixed := ⟨f x.num y.num, .array, x.hit || y.hit⟩
def opL (f : List B64 → B64) (l : List Mixed) : Mixed := ⟨f (l.map num), .array, l.any hit⟩

/-- The product: a Python float times a sample is computed in single precision. -/
def mul (x y : Mixed) : Mixed :=
  if x.origin = .python ∧ y.origin = .sample then
    ⟨mul32 (to32 x.num) y.num, .array, x.hit || y.hit || decide (mul32 (to32 x.num) y.num ≠ B64.mul x.num y.num)⟩
  else op2 B64.mul x y

end Mixed

/-- Doubles and samples in single precision, with the library `L`. -/
def S32 (_ : Lib) : Type := Mixed

namespace S32
open Mixed

variable {L : Lib}

instance : DecidableEq (S32 L) := inferInstanceAs (DecidableEq Mixed)

/-- The operations that only rCIP uses are missing. -/
instance : Arith (S32 L) where
  zero := dbl (B64.fin false 0)
  add := op2 B64.add
  sub := op2 B64.sub
  mul := Mixed.mul
  div := op2 B64.div
  neg := op1 B64.neg
  one := dbl (B64.ofNat 1)
  two := dbl (B64.ofNat 2)
  negHalf := dbl (B64.intDiv (-1) 2)
  ofNat n := dbl (B64.ofNat n)
  oneMinusInv n := dbl (B64.sub (B64.ofNat 1) (B64.intDiv 1 n))
  invNat n := (⟨B64.intDiv 1 n, .python, false⟩ : Mixed)
  invPred n := dbl (B64.intDiv 1 (n - 1))
  intDiv m n := dbl (B64.intDiv m n)
  chFactor n k := dbl (B64.intDiv (n - k) (k - 1))
  delta n := dbl (L.delta n)
  normConst n := (L.normConst n).map dbl
  sq a := op2 B64.mul a a
  sqrt := op1 B64.sqrt
  exp := op1 L.exp
  max2 := op2 B64.max2
  truthy a := B64.truthy (Mixed.num a)
  npSum := opL L.npSum
  pySum := opL fun l => l.foldl B64.add (B64.fin false 0)
  rowSum := opL L.rowSum
  sum2 l := (⟨L.sum2 (l.map fun r => r.map Mixed.num), .array, l.any fun r => r.any Mixed.hit⟩ : Mixed)
  colMean := opL fun l => B64.div (L.colSum l) (B64.ofNat l.length)
  dot a b := (⟨L.dot (a.map Mixed.num) (b.map Mixed.num), .array, a.any Mixed.hit || b.any Mixed.hit⟩ : Mixed)
  minOf a l := (⟨(l.map Mixed.num).foldl B64.min2 (Mixed.num a), .array, Mixed.hit a || l.any Mixed.hit⟩ : Mixed)
  maxOf a l := (⟨(l.map Mixed.num).foldl B64.max2 (Mixed.num a), .array, Mixed.hit a || l.any Mixed.hit⟩ : Mixed)
  mm _ _ _ _ := dbl B64.nan
  vm _ _ _ := dbl B64.nan
  det _ := .ok (dbl B64.nan)
  inv _ := .error .linAlgError

/-- The number. -/
def num (a : S32 L) : F64 L := Mixed.num a

/-- Single precision made a difference. -/
def hit (a : S32 L) : Bool := Mixed.hit a

/-- A number of a sample. -/
def ofSample (a : F64 L) : S32 L := (⟨a, .sample, false⟩ : Mixed)

/-! ## Without a difference the numbers are those of `F64` -/

/-- The number is `b`, unless single precision made a difference. -/
def Is (x : Mixed) (b : B64) : Prop := x.hit = false → x.num = b

theorem op1_is (f : B64 → B64) {x : Mixed} {b : B64} (h : Is x b) : Is (op1 f x) (f b) := fun e => congrArg f (h e)

theorem op2_is (f : B64 → B64 → B64) {x y : Mixed} {b c : B64} (h : Is x b) (h' : Is y c) : Is (op2 f x y) (f b c) := by
  intro e
  obtain ⟨e1, e2⟩ := Bool.or_eq_false_iff.mp e
  exact congrArg₂ f (h e1) (h' e2)

theorem mul_is {x y : Mixed} {b c : B64} (h : Is x b) (h' : Is y c) : Is (Mixed.mul x y) (B64.mul b c) := by
  unfold Mixed.mul
  split
  · intro e
    obtain ⟨e1, e2⟩ := Bool.or_eq_false_iff.mp e
    obtain ⟨e3, e4⟩ := Bool.or_eq_false_iff.mp e1
    rw [← h e3, ← h' e4]
    exact of_not_not (of_decide_eq_false e2)
  · exact op2_is _ h h'

theorem list_is {l : List Mixed} {m : List B64} (h : List.Forall₂ Is l m) (e : l.any Mixed.hit = false) : l.map Mixed.num = m := by
  induction h with
  | nil => rfl
  | cons h _ ih =>
    rw [List.any_cons, Bool.or_eq_false_iff] at e
    rw [List.map_cons, h e.1, ih e.2]

theorem opL_is (f : List B64 → B64) {l : List Mixed} {m : List B64} (h : List.Forall₂ Is l m) : Is (opL f l) (f m) :=
  fun e => congrArg f (list_is h e)

theorem rows_is {l : List (List Mixed)} {m : List (List B64)} (h : List.Forall₂ (List.Forall₂ Is) l m)
    (e : (l.any fun r => r.any Mixed.hit) = false) : (l.map fun r => r.map Mixed.num) = m := by
  induction h with
  | nil => rfl
  | cons h _ ih =>
    rw [List.any_cons, Bool.or_eq_false_iff] at e
    rw [List.map_cons, list_is h e.1, ih e.2]

theorem fold_is (f : B64 → B64 → B64) {x : Mixed} {b : B64} {l : List Mixed} {m : List B64} (h : Is x b) (h' : List.Forall₂ Is l m) :
    Is ⟨(l.map Mixed.num).foldl f x.num, .array, x.hit || l.any Mixed.hit⟩ (m.foldl f b) := by
  intro e
  obtain ⟨e1, e2⟩ := Bool.or_eq_false_iff.mp e
  show (l.map Mixed.num).foldl f x.num = _
  rw [list_is h' e2, h e1]

/-- All operations compute the numbers of `F64 L` as long as single precision makes no difference. -/
def same (L : Lib) : Units (S32 L) (F64 L) where
  Rel _ := Is
  zero _ := fun _ => rfl
  add := op2_is B64.add
  sub := op2_is B64.sub
  mul := mul_is
  div := op2_is B64.div
  neg := op1_is B64.neg
  sq h := op2_is B64.mul h h
  sqrt := op1_is B64.sqrt
  exp := op1_is L.exp
  max2 := op2_is B64.max2
  one := fun _ => rfl
  two := fun _ => rfl
  ofNat _ := fun _ => rfl
  oneMinusInv _ := fun _ => rfl
  invNat _ := fun _ => rfl
  intDiv _ _ := fun _ => rfl
  chFactor _ _ := fun _ => rfl
  npSum := opL_is L.npSum
  pySum := opL_is _
  rowSum := opL_is L.rowSum
  sum2 h := fun e => congrArg L.sum2 (rows_is h e)
  colMean := opL_is _
  dot h h' := by
    intro e
    obtain ⟨e1, e2⟩ := Bool.or_eq_false_iff.mp e
    exact congrArg₂ L.dot (list_is h e1) (list_is h' e2)
  minOf h h' := fold_is B64.min2 h h'
  maxOf h h' := fold_is B64.max2 h h'

end S32
end Verif.Gen
