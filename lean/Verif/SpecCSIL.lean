import Verif.Spec

/-!
# What incremental cSIL computes instead of its definition

Two formulas of cSIL.py are wrong (the new-cluster row, lines 85-89, and the old-cluster row, lines 139-144).  This file says,
in terms of the data set only, which numbers the object holds because of that.
-/

namespace Verif.CSIL
open Spec

variable {d : ℕ}

/-- Inner product. -/
def dot (x y : Pt d) : ℝ := ∑ i, x i * y i

/-- Sum of squared norms of a cluster. -/
def sqSum (S : Stream d) (c : ℤ) : ℝ := ((cluster S c).map fun p => dot p p).sum

/-- Sum of the points of a cluster. -/
def vecSum (S : Stream d) (c : ℤ) : Pt d := fun i => ((cluster S c).map fun p => p i).sum

/-- The latest sample with label `a` or `b`. -/
def lastOf (S : Stream d) (a b : ℤ) : Option (Pt d × ℤ) := (S.filter fun p => decide (p.2 = a ∨ p.2 = b)).getLast?

/-- The error of the entry `a, b` of the matrix of an incremental cSIL object. -/
noncomputable def csilErr (S : Stream d) (a b : ℤ) : ℝ :=
  if a = b then 0
  else match lastOf S a b with
    | none => 0
    | some (x, c) =>
      if c = b then 0
      else if size S a = 1 then dot x (centroid S b)
      else -(2 * dot x (centroid S b)) / size S a

/-- The entry `a, b` of the matrix of an incremental cSIL object. -/
noncomputable def entry (S : Stream d) (a b : ℤ) : ℝ := crossScatter S a b + csilErr S a b

/-- The silhouette of a matrix: mean over `c` of `(b - a) / max(a, b)`, `a = E c c`, `b = min_{b ≠ c} E b c`. -/
noncomputable def silValue (S : Stream d) (E : ℤ → ℤ → ℝ) : XR :=
  if numClusters S ≤ 1 then .fin 0
  else if ∀ a ∈ labels S, ∀ b ∈ labels S, E a b = 0 then .fin 0
  else (∑ c ∈ labels S, XR.fin (sInf (otherValues S c fun b => E b c) - E c c) /
    XR.fin (max (E c c) (sInf (otherValues S c fun b => E b c)))) / .fin (numClusters S)

/-- What an incremental cSIL object returns. -/
noncomputable def actual (S : Stream d) : XR := silValue S (entry S)

end Verif.CSIL
