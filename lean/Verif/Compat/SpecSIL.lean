import Verif.Compat.Spec
import Verif.SpecCSIL

/-! # What `iSIL` computes: specification

`iSIL` counts the first sample of every cluster twice, adds a squared norm too many to some entries of its matrix, forgets the matrix whenever a
cluster is opened (it is filled with `inf`), and leaves out the wrong column when it looks for the nearest other cluster.  This file
says, in terms of the samples only, which value results. -/

namespace Verif.V0
open Spec CSIL

variable {d : ℕ}

/-- The stream with the first sample of every cluster twice, if the clusters `seen` have been seen before. -/
def doubledFrom (seen : List ℤ) : Stream d → Stream d
  | [] => []
  | (x, c) :: T => if c ∈ seen then (x, c) :: doubledFrom seen T else (x, c) :: (x, c) :: doubledFrom (c :: seen) T

/-- The stream with the first sample of every cluster twice. -/
def doubled (S : Stream d) : Stream d := doubledFrom [] S

/-- The cluster of the last sample. -/
def lastLabel (S : Stream d) : Option ℤ := S.getLast?.map Prod.snd

/-- The entry for clusters `i` and `j` as it is computed when a sample of one of them arrives, at the end of `P`: the mean squared distance of the
samples of `j` to the centroid of `i`, and in one case something else on top. -/
noncomputable def silTerm (P : Stream d) (i j : ℤ) : ℝ :=
  crossScatter (doubled P) j i
    + if lastLabel P = some j ∧ i ≠ j then dot (centroid (doubled P) i) (centroid (doubled P) i) / size (doubled P) j else 0

open Classical in
/-- The entry for clusters `i` and `j`: as it was when the last sample of one of them arrived, if that was since the last cluster was opened, else `inf`. -/
noncomputable def silEntry (S : Stream d) (i j : ℤ) : XR :=
  match (S.inits.filter fun P => (lastLabel P = some i ∨ lastLabel P = some j) ∧ numClusters P = numClusters S).getLast? with
  | some P => .fin (silTerm P i j)
  | none => .pinf

/-- The entries of row `i` that `iSIL` compares with: those of all columns but that of the cluster of the last sample, `c`. -/
def silOthers (S : Stream d) (c i : ℤ) : Set XR := {r | ∃ j ∈ labels S, j ≠ c ∧ r = silEntry S i j}

open Classical in
/-- The least of a set of numbers and infinities. -/
noncomputable def least (A : Set XR) : XR := if ∃ r, XR.fin r ∈ A then .fin (sInf {r | .fin r ∈ A}) else .pinf

open Classical in
/-- The greatest of a set of numbers and infinities. -/
noncomputable def greatest (A : Set XR) : XR := if .pinf ∈ A then .pinf else .fin (sSup {r | .fin r ∈ A})

/-- The coefficient of cluster `i` after a sample of cluster `c`. -/
noncomputable def silCoef (S : Stream d) (c i : ℤ) : XR :=
  (least (silOthers S c i) - silEntry S i c) / greatest ({silEntry S i c} ∪ silOthers S c i)

/-- What `iSIL.update` returns after the stream `S`, whose last sample is of cluster `c`. -/
noncomputable def silOutput (S : Stream d) (c : ℤ) : XR := .fin (1 / numClusters S) * ∑ i ∈ labels S, silCoef S c i

/-- The coefficients for which `iSIL` divides infinity by infinity or zero by zero. -/
def Undefined (S : Stream d) (c i : ℤ) : Prop :=
  (∀ j ∈ labels S, j ≠ c → silEntry S i j = .pinf) ∨ ∀ j ∈ labels S, silEntry S i j = .fin 0

/-! ## Arrays

`iSIL` writes to arrays of the caller, so the samples are given as arrays, by number. -/

/-- The samples presented, if array number `b` holds `pts b`. -/
def samples (pts : ℕ → Pt d) (T : List (ℕ × ℤ)) : Stream d := T.map fun p => (pts p.1, p.2)

/-- The array that was presented as the first sample of cluster `c`. -/
def firstArray (T : List (ℕ × ℤ)) (c : ℤ) : ℕ := ((T.find? fun p => p.2 = c).map Prod.fst).getD 0

/-- An array that was presented as the first sample of a cluster is not presented again. -/
def FirstsOnce (T : List (ℕ × ℤ)) : Prop := ∀ P p Q, T = P ++ p :: Q → p.2 ∉ P.map Prod.snd → p.1 ∉ Q.map Prod.fst

end Verif.V0
