import Verif.Linalg
import Mathlib.Analysis.SpecialFunctions.Pow.Real
import Mathlib.Analysis.Real.Pi.Bounds

/-!
# Arithmetics

The other files of the model compute with `XR`: exact reals and the IEEE special values.  The files under `Verif/Gen`
compute with an arbitrary type `F` of floats and **arbitrary** operations on it.  Nothing is assumed about the operations:
`+` need not be associative, a reduction such as `np.sum` may add in any order, `np.linalg.inv` may return anything or raise.
IEEE float64 with the rounding, summation order and libraries of an actual numpy is one instance, `XR` is another.
Every distinct kind of floating point operation in the source is one field.
-/

namespace Verif

/-- A type of floats with the operations the package performs on floats. -/
class Arith (F : Type) extends Zero F, Add F, Sub F, Mul F, Div F, Neg F where
  /-- `1` and `2` as floats -/
  one : F
  two : F
  /-- `-0.5` -/
  negHalf : F
  /-- conversion of a Python integer that meets a float -/
  ofNat : ℕ → F
  /-- `1 - 1 / n` -/
  oneMinusInv : ℕ → F
  /-- `1 / n` -/
  invNat : ℕ → F
  /-- `1 / (n - 1)` -/
  invPred : ℕ → F
  /-- `a / b` on integers, `b ≠ 0` -/
  intDiv : ℤ → ℤ → F
  /-- `(n_samples - n_clusters) / (n_clusters - 1)` -/
  chFactor : ℕ → ℕ → F
  /-- `10.0 ** (-12.0 / dim)` -/
  delta : ℕ → F
  /-- `1 / np.sqrt((2 * np.pi) ** dim)`; a power of Python floats, which raises OverflowError when it is too large -/
  normConst : ℕ → Except PyErr F
  /-- `x ** 2`, `np.sqrt(x)`, `np.exp(x)` -/
  sq : F → F
  sqrt : F → F
  exp : F → F
  /-- `np.maximum(a, b)` -/
  max2 : F → F → F
  /-- is it different from zero (`any`) -/
  truthy : F → Bool
  /-- `np.sum` of a 1-D array -/
  npSum : List F → F
  /-- builtin `sum`, or a loop adding up -/
  pySum : List F → F
  /-- `np.sum(a, axis=1)`: one row -/
  rowSum : List F → F
  /-- `np.sum` of all entries of a 2-D array -/
  sum2 : List (List F) → F
  /-- `np.mean(a, axis=0)`: one column -/
  colMean : List F → F
  /-- `np.inner` of two 1-D arrays of the same length -/
  dot : List F → List F → F
  /-- `np.min`, `np.max` of a non-empty array -/
  minOf : F → List F → F
  maxOf : F → List F → F
  /-- entry `i, j` of `a @ b` -/
  mm : Arr2 F → Arr2 F → ℕ → ℕ → F
  /-- entry `j` of `v @ a` -/
  vm : List F → Arr2 F → ℕ → F
  /-- `np.linalg.det`, `np.linalg.inv` -/
  det : Arr2 F → Except PyErr F
  inv : Arr2 F → Except PyErr (Arr2 F)

/-- The arithmetic of the rest of the development. -/
noncomputable instance : Arith XR where
  one := .fin 1
  two := .fin 2
  negHalf := .fin (-(1 / 2))
  ofNat n := .fin n
  oneMinusInv n := .fin (1 - 1 / (n : ℝ))
  invNat n := .fin (1 / (n : ℝ))
  invPred n := .fin (1 / ((n : ℝ) - 1))
  intDiv a b := .fin ((a : ℝ) / (b : ℝ))
  chFactor n k := .fin (((n : ℝ) - (k : ℝ)) / ((k : ℝ) - 1))
  delta d := .fin ((10 : ℝ) ^ (-(12 : ℝ) / (d : ℝ)))
  normConst d := .ok (.fin 1 / XR.sqrt (.fin ((2 * Real.pi) ^ d)))
  sq := XR.sq
  sqrt := XR.sqrt
  exp := XR.exp
  max2 := XR.max
  truthy := XR.truthy
  npSum := List.sum
  pySum := List.sum
  rowSum := List.sum
  sum2 l := (l.map List.sum).sum
  colMean l := l.sum / XR.fin l.length
  dot a b := (List.zipWith (· * ·) a b).sum
  minOf a l := l.foldl XR.min a
  maxOf a l := l.foldl XR.max a
  mm a b i j := (List.zipWith (· * ·) (a.rows.getD i []) (b.rows.map fun s => s.getD j 0)).sum
  vm v a j := (List.zipWith (· * ·) v (a.rows.map fun s => s.getD j 0)).sum
  det := Arr2.det
  inv := Arr2.inv

end Verif

namespace Verif.Gen

variable {F : Type} [Arith F]

/-! ## The array operations of `Verif/Py.lean` that compute with floats -/

namespace Vec
/-- `a + b` -/
def add (a b : Vec F) : Except PyErr (Vec F) := Vec.bin (· + ·) a b
/-- `a - b` -/
def sub (a b : Vec F) : Except PyErr (Vec F) := Vec.bin (· - ·) a b
/-- `c * a` for a scalar `c` -/
def smul (c : F) (a : Vec F) : Vec F := a.map fun x => c * x
/-- `np.inner(a, b)` -/
def inner (a b : Vec F) : Except PyErr F :=
  if a.length = b.length then .ok (Arith.dot a b) else .error .valueError
/-- `np.sum((a - b) ** 2)` -/
def sqDist (a b : Vec F) : Except PyErr F := do
  let d ← sub a b
  pure (Arith.npSum (d.map Arith.sq))
/-- `sum((a - b) ** 2)` with the builtin `sum` -/
def sqDistPy (a b : Vec F) : Except PyErr F := do
  let d ← sub a b
  pure (Arith.pySum (d.map Arith.sq))
/-- `np.min(a)` -/
def amin : Vec F → Except PyErr F
  | [] => .error .valueError
  | a :: l => .ok (Arith.minOf a l)
/-- `np.max(a)` -/
def amax : Vec F → Except PyErr F
  | [] => .error .valueError
  | a :: l => .ok (Arith.maxOf a l)
end Vec

namespace Arr2
/-- `a + b` -/
def add (a b : Arr2 F) : Except PyErr (Arr2 F) := Arr2.bin (· + ·) a b
/-- `a - b` -/
def sub (a b : Arr2 F) : Except PyErr (Arr2 F) := Arr2.bin (· - ·) a b
/-- `c * a` for a scalar `c` -/
def smul (c : F) (a : Arr2 F) : Arr2 F := ⟨a.cols, a.rows.map (Vec.smul c)⟩
/-- `np.outer(a, b)` -/
def outer (a b : Vec F) : Arr2 F := ⟨b.length, a.map fun x => b.map fun y => x * y⟩
/-- `a @ b` -/
def matmul (a b : Arr2 F) : Except PyErr (Arr2 F) :=
  if a.cols = b.rows.length then
    .ok ⟨b.cols, (List.range a.rows.length).map fun i => (List.range b.cols).map fun j => Arith.mm a b i j⟩
  else .error .valueError
/-- `v @ a` -/
def vecMul (v : Vec F) (a : Arr2 F) : Except PyErr (Vec F) :=
  if v.length = a.rows.length then .ok ((List.range a.cols).map fun j => Arith.vm v a j)
  else .error .valueError
/-- `np.mean(a, axis=0)` -/
def mean0 (a : Arr2 F) : Vec F := (List.range a.cols).map fun j => Arith.colMean (a.rows.map fun r => r.getD j 0)
/-- `a.any()` -/
def any (a : Arr2 F) : Bool := a.rows.any fun r => r.any Arith.truthy
end Arr2

/-- Python `a / b` on `int`s -/
def pyDiv (a b : ℤ) : Except PyErr F :=
  if b = 0 then .error .zeroDivisionError else .ok (Arith.intDiv a b)

end Verif.Gen
