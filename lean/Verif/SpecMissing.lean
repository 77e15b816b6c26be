import Verif.Api

/-!
# Samples with missing values

A sample some of whose features are missing; a missing feature is presented to the package as NaN.
-/

namespace Verif
open Spec

variable {d : ℕ}

/-- A sample with possibly missing features. -/
abbrev Gappy (d : ℕ) := Fin d → Option ℝ

/-- A labelled stream of such samples. -/
abbrev GappyStream (d : ℕ) := List (Gappy d × ℤ)

/-- The number presented to the package for a feature. -/
def cell : Option ℝ → XR
  | some r => .fin r
  | none => .nan

/-- The 1-D array holding the sample. -/
def encG (x : Gappy d) : Vec := List.ofFn fun i => cell (x i)

/-- The 2-D array with the samples as rows. -/
def encRowsG (l : List (Gappy d)) : Arr2 := ⟨d, l.map encG⟩

/-- The samples of a stream as arrays. -/
def encSG (T : GappyStream d) : List (Vec × ℤ) := T.map fun p => (encG p.1, p.2)

/-- The point `x` agrees with the sample `y` where `y` has a value. -/
def Fills (x : Pt d) (y : Gappy d) : Prop := ∀ i r, y i = some r → x i = r

/-- `S` is `T` with the missing values filled in. -/
def Completes (S : Stream d) (T : GappyStream d) : Prop := List.Forall₂ (fun p q => Fills p.1 q.1 ∧ p.2 = q.2) S T

/-- The sample has a missing feature. -/
def HasGap (x : Gappy d) : Prop := ∃ i, x i = none

/-- Some sample has a missing feature. -/
def SomeGap (T : GappyStream d) : Prop := ∃ p ∈ T, HasGap p.1

/-- Some sample with a missing feature is not alone in its cluster. -/
def SharedGap (T : GappyStream d) : Prop := ∃ p ∈ T, HasGap p.1 ∧ 2 ≤ (T.map Prod.snd).count p.2

/-- At least two clusters occur. -/
def TwoLabels (T : GappyStream d) : Prop := ∃ p ∈ T, ∃ q ∈ T, p.2 ≠ q.2

/-- The values returned by a fresh object of class `I` fed the stream `T` sample by sample. -/
noncomputable def incRunG (I : Index) (T : GappyStream d) : Except PyErr (List XR) := (feed I.mod (encSG T) I.mod.fresh).val

/-- The object left by feeding the stream `T` to a fresh object of class `I`. -/
noncomputable def objAfterG (I : Index) (T : GappyStream d) : Obj := (feed I.mod (encSG T) I.mod.fresh).state

/-- The value returned by a fresh object of class `I` in batch mode. -/
noncomputable def batchRunG (I : Index) (T : GappyStream d) : Except PyErr XR :=
  (getCvi I.mod (.d2 (encRowsG (T.map Prod.fst))) (.arr (T.map Prod.snd)) I.mod.fresh).val

end Verif
