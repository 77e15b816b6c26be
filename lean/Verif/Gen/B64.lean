import Verif.Gen.RoundingCP
import Mathlib.Data.Nat.Log

/-!
# IEEE-754 binary64

Finite numbers are multiples of `2 ^ -1074`; `fin neg m` stands for `± m * 2 ^ -1074`, with a sign for zero.  Every operation rounds
the exact result to 53 significant bits, to the nearest, ties to even; from `2 ^ 1024` on the result is infinite.  Since the unit is the
smallest subnormal number, gradual underflow needs no special case.

What IEEE-754 does not determine — the order in which numpy and BLAS add, fused multiply-add, `exp`, powers, `det`, `inv` — is left open
(`Lib`).
-/

namespace Verif.Gen

/-- A binary64 number. -/
inductive B64
  | fin (neg : Bool) (mag : ℕ)
  | inf (neg : Bool)
  | nan
  deriving DecidableEq

namespace B64

/-- `a / b` (`b ≠ 0`) rounded to 53 significant bits, or to an integer if that is coarser; to the nearest, ties to even. -/
def rndMag (a b : ℕ) : ℕ :=
  let s := Nat.log2 (a / b) - 52
  let w := b * 2 ^ s
  (if 2 * (a % w) < w ∨ 2 * (a % w) = w ∧ a / w % 2 = 0 then a / w else a / w + 1) * 2 ^ s

/-- `2 ^ 1024` in units of `2 ^ -1074`: the first magnitude that is infinite. -/
@[irreducible] def limit : ℕ := 2 ^ 53 * 2 ^ 2045

/-- One, in units of `2 ^ -1074`. -/
@[irreducible] def unit : ℕ := 2 ^ 1074

/-- `± a / b` in units of `2 ^ -1074`, rounded. -/
def ofMag (neg : Bool) (a b : ℕ) : B64 := if rndMag a b < limit then fin neg (rndMag a b) else inf neg

/-- A multiple of `2 ^ -1074`, rounded; zero is positive. -/
def ofInt (z : ℤ) : B64 := ofMag (decide (z < 0)) z.natAbs 1

/-- The magnitude with its sign. -/
def signed (neg : Bool) (m : ℕ) : ℤ := if neg then -m else m

def neg : B64 → B64
  | fin s m => fin (!s) m
  | inf s => inf (!s)
  | nan => nan

def add : B64 → B64 → B64
  | fin s m, fin t n => if signed s m + signed t n = 0 then fin (s && t) 0 else ofInt (signed s m + signed t n)
  | inf s, inf t => if s = t then inf s else nan
  | inf s, fin _ _ => inf s
  | fin _ _, inf t => inf t
  | _, _ => nan

def sub (a b : B64) : B64 := add a (neg b)

def mul : B64 → B64 → B64
  | fin s m, fin t n => ofMag (xor s t) (m * n) unit
  | inf s, inf t => inf (xor s t)
  | inf s, fin t n => if n = 0 then nan else inf (xor s t)
  | fin s m, inf t => if m = 0 then nan else inf (xor s t)
  | _, _ => nan

def div : B64 → B64 → B64
  | fin s m, fin t n => if n = 0 then (if m = 0 then nan else inf (xor s t)) else ofMag (xor s t) (m * unit) n
  | inf s, fin t _ => inf (xor s t)
  | fin s _, inf t => fin (xor s t) 0
  | _, _ => nan

/-- `a * b + c` with one rounding. -/
def fma : B64 → B64 → B64 → B64
  | fin s m, fin t n, fin r k =>
    if signed (xor s t) (m * n) + signed r k * unit = 0 then fin (xor s t && r) 0
    else ofMag (decide (signed (xor s t) (m * n) + signed r k * unit < 0))
      (signed (xor s t) (m * n) + signed r k * unit).natAbs unit
  | fin _ _, fin _ _, c => c
  | a, b, c => add (mul a b) c

/-- Correctly rounded: the integer part of the square root, and whether something is left, decide the rounding, because results have many more than
53 bits before the point. -/
def sqrt : B64 → B64
  | fin s m =>
    if m = 0 then fin s 0 else if s then nan
    else
      let q := Nat.sqrt (m * unit)
      ofMag false (2 * q + if q * q = m * unit then 0 else 1) 2
  | inf s => if s then nan else inf false
  | nan => nan

/-- `a / b` for integers, correctly rounded as in Python. -/
def intDiv (a b : ℤ) : B64 := if b = 0 then nan else ofMag (decide (a * b < 0)) (a.natAbs * unit) b.natAbs

def ofNat (n : ℕ) : B64 := ofMag false (n * unit) 1

/-- `a < b` -/
def lt : B64 → B64 → Bool
  | fin s m, fin t n => decide (signed s m < signed t n)
  | inf s, inf t => s && !t
  | inf s, fin _ _ => s
  | fin _ _, inf t => !t
  | _, _ => false

/-- `np.minimum`, `np.maximum`: NaN if one is NaN. -/
def min2 (a b : B64) : B64 := if a = nan then nan else if b = nan then nan else if lt b a then b else a
def max2 (a b : B64) : B64 := if a = nan then nan else if b = nan then nan else if lt a b then b else a

def truthy : B64 → Bool
  | fin _ m => decide (m ≠ 0)
  | _ => true

/-- The number it stands for; 0 if it is not finite. -/
noncomputable def val : B64 → ℝ
  | fin s m => (signed s m : ℝ) * (2 : ℝ) ^ (-1074 : ℤ)
  | _ => 0

/-- It is finite. -/
def Fin : B64 → Prop
  | fin _ _ => True
  | _ => False

end B64

/-- What IEEE-754 leaves open. -/
structure Lib where
  exp : B64 → B64
  delta : ℕ → B64
  normConst : ℕ → Except PyErr B64
  npSum : List B64 → B64
  rowSum : List B64 → B64
  sum2 : List (List B64) → B64
  /-- the sum in `np.mean` along a column -/
  colSum : List B64 → B64
  dot : List B64 → List B64 → B64
  mm : Arr2 B64 → Arr2 B64 → ℕ → ℕ → B64
  vm : List B64 → Arr2 B64 → ℕ → B64
  det : Arr2 B64 → Except PyErr B64
  inv : Arr2 B64 → Except PyErr (Arr2 B64)

/-- binary64 with the library `L`. -/
def F64 (_ : Lib) : Type := B64

namespace F64

variable {L : Lib}

/-- NaN -/
def nan : F64 L := B64.nan

instance : DecidableEq (F64 L) := inferInstanceAs (DecidableEq B64)

instance : Arith (F64 L) where
  zero := B64.fin false 0
  add := B64.add
  sub := B64.sub
  mul := B64.mul
  div := B64.div
  neg := B64.neg
  one := B64.ofNat 1
  two := B64.ofNat 2
  negHalf := B64.intDiv (-1) 2
  ofNat := B64.ofNat
  oneMinusInv n := B64.sub (B64.ofNat 1) (B64.intDiv 1 n)
  invNat n := B64.intDiv 1 n
  invPred n := B64.intDiv 1 (n - 1)
  intDiv := B64.intDiv
  chFactor n k := B64.intDiv (n - k) (k - 1)
  delta := L.delta
  normConst := L.normConst
  sq a := B64.mul a a
  sqrt := B64.sqrt
  exp := L.exp
  max2 := B64.max2
  truthy := B64.truthy
  npSum := L.npSum
  pySum l := l.foldl B64.add (B64.fin false 0)
  rowSum := L.rowSum
  sum2 := L.sum2
  colMean l := B64.div (L.colSum l) (B64.ofNat l.length)
  dot := L.dot
  minOf a l := l.foldl B64.min2 a
  maxOf a l := l.foldl B64.max2 a
  mm := L.mm
  vm := L.vm
  det := L.det
  inv := L.inv

end F64
end Verif.Gen
