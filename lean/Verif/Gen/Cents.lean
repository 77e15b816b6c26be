import Verif.Gen.Arith

/-!
# A small rounding arithmetic

Numbers with two decimal places; products and quotients are rounded down, `x / 0` is `0`.  Used in the examples next to the
theorems about every arithmetic: everything can be computed by the kernel, and sums of products depend on the order.
-/

namespace Verif.Gen

/-- A number of hundredths. -/
structure Cents where
  raw : ℤ
  deriving DecidableEq

namespace Cents

def mul (a b : Cents) : Cents := ⟨a.raw * b.raw / 100⟩
def div (a b : Cents) : Cents := ⟨a.raw * 100 / b.raw⟩
def add (a b : Cents) : Cents := ⟨a.raw + b.raw⟩
def sum (l : List Cents) : Cents := l.foldl add ⟨0⟩
def dot (a b : List Cents) : Cents := sum (List.zipWith mul a b)
/-- The largest of `0, 0.1, 0.2, …, 9.9` whose square is at most `a`. -/
def sqrt (a : Cents) : Cents := ⟨10 * (((List.range 100).filter fun i => decide ((i : ℤ) * i ≤ a.raw)).length - 1)⟩

instance : Arith Cents where
  zero := ⟨0⟩
  add := add
  sub a b := ⟨a.raw - b.raw⟩
  mul := mul
  div := div
  neg a := ⟨-a.raw⟩
  one := ⟨100⟩
  two := ⟨200⟩
  negHalf := ⟨-50⟩
  ofNat n := ⟨100 * n⟩
  oneMinusInv n := ⟨100 - 100 / n⟩
  invNat n := ⟨100 / n⟩
  invPred n := ⟨100 / ((n : ℤ) - 1)⟩
  intDiv a b := ⟨100 * a / b⟩
  chFactor n k := ⟨100 * ((n : ℤ) - k) / ((k : ℤ) - 1)⟩
  delta _ := ⟨1⟩
  normConst d := if d < 3 then .ok ⟨20⟩ else .error .overflowError
  sq a := mul a a
  sqrt := sqrt
  exp a := ⟨100 + a.raw⟩
  max2 a b := ⟨max a.raw b.raw⟩
  truthy a := decide (a.raw ≠ 0)
  npSum := sum
  pySum := sum
  rowSum := sum
  sum2 l := sum (l.map sum)
  colMean l := ⟨(sum l).raw / l.length⟩
  dot := dot
  minOf a l := ⟨(l.map raw).foldl min a.raw⟩
  maxOf a l := ⟨(l.map raw).foldl max a.raw⟩
  mm a b i j := dot (a.rows.getD i []) (b.rows.map fun s => s.getD j ⟨0⟩)
  vm v a j := dot v (a.rows.map fun s => s.getD j ⟨0⟩)
  det A := .ok (A.rows.foldl (fun p r => mul p (sum r)) ⟨100⟩)
  inv A := if A.rows.all fun r => r.all fun x => decide (x.raw = 0) then .error .linAlgError
    else .ok ⟨A.cols, A.rows.map fun r => r.map fun x => div ⟨100⟩ x⟩

end Cents

/-- Addition is exact, so it is associative; multiplication is not distributive. -/
example : (⟨33⟩ + ⟨33⟩ : Cents) * ⟨50⟩ ≠ (⟨33⟩ : Cents) * ⟨50⟩ + (⟨33⟩ : Cents) * ⟨50⟩ := by decide

end Verif.Gen
