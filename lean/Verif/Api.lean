import Verif.Model.All
import Verif.Spec

/-!
# Observables

What a user of the package can do and see: construct an object, call `get_cvi`, look at what is returned or raised.
The property theorems are stated with these definitions and with `Verif/Spec.lean`.
-/

namespace Verif
open Spec

variable {d : ℕ}

/-- The 1-D array holding the point `x`. -/
noncomputable def enc (x : Pt d) : Vec := List.ofFn fun i => XR.fin (x i)

/-- The 2-D array with the points `l` as rows. -/
noncomputable def encRows (l : List (Pt d)) : Arr2 := ⟨d, l.map enc⟩

/-- The samples of a stream as arrays. -/
noncomputable def encS (S : Stream d) : List (Vec × ℤ) := S.map fun p => (enc p.1, p.2)

/-- Present the labelled samples one by one to `get_cvi`; the list of returned values. -/
def feed {F : Type} (M : Module F) : List (Vec F × ℤ) → Py (Obj F) (List F)
  | [] => pure []
  | p :: l => do
    let r ← getCvi M (.d1 p.1) (.int p.2)
    let rs ← feed M l
    pure (r :: rs)

/-! ## What an object records for a label, read through its own label map -/

/-- The entry of the table `t` for label `c`. -/
def Obj.entry {F α : Type} (o : Obj F) (t : List α) (c : ℤ) : Option α := (o.labelMap.lookup c).bind fun i => t[i]?

/-- The count recorded for label `c`. -/
def Obj.count {F : Type} (o : Obj F) (c : ℤ) : Option ℕ := o.entry o.core.n.items c

/-- The centroid recorded for label `c`. -/
def Obj.centroid {F : Type} (o : Obj F) (c : ℤ) : Option (Vec F) := o.entry o.core.v.rows c

/-- The compactness recorded for label `c` (CH, WB, XB, DB, GD43, GD53: scatter; cSIL: sum of squared norms). -/
def Obj.compactness {F : Type} (o : Obj F) (c : ℤ) : Option F := o.core.CP.bind fun cp => o.entry cp.items c

/-- The covariance page recorded for label `c` (rCIP). -/
def Obj.page {F : Type} (o : Obj F) (c : ℤ) : Option (Arr2 F) := o.entry o.core.sigma c

/-- What the caller sees: the returned value or the exception. -/
def Res.val {σ α : Type} : Res σ α → Except PyErr α
  | .ok a _ => .ok a
  | .err e _ => .error e

/-- The values returned by a fresh object of class `I` fed the stream `S` sample by sample. -/
noncomputable def incRun (I : Index) (S : Stream d) : Except PyErr (List XR) := (feed I.mod (encS S) I.mod.fresh).val

/-- The last value returned by a fresh object fed the non-empty stream `S`. -/
noncomputable def incLast (I : Index) (S : Stream d) : Except PyErr (Option XR) := (incRun I S).map List.getLast?

/-- The object left by feeding the stream `S` to a fresh object of class `I`. -/
noncomputable def objAfter (I : Index) (S : Stream d) : Obj := (feed I.mod (encS S) I.mod.fresh).state

/-- The value returned by a fresh object of class `I` in batch mode: the samples of `S` as rows, with the label vector. -/
noncomputable def batchRun (I : Index) (S : Stream d) : Except PyErr XR :=
  (getCvi I.mod (.d2 (encRows (S.map Prod.fst))) (.arr (S.map Prod.snd)) I.mod.fresh).val

/-- The definition of the index with that name. -/
noncomputable def Spec.value : Index → Stream d → XR
  | .CH, S => Spec.CH S
  | .WB, S => Spec.WB S
  | .XB, S => Spec.XB S
  | .DB, S => Spec.DB S
  | .GD43, S => Spec.GD43 S
  | .GD53, S => Spec.GD53 S
  | .PS, S => Spec.PS S
  | .rCIP, S => Spec.rCIP S
  | .cSIL, S => Spec.cSIL S

/-- The labels are exactly `0, 1, .., k-1`. -/
def Spec.Consecutive (S : Stream d) : Prop := ∀ c, c ∈ labels S ↔ 0 ≤ c ∧ c < numClusters S

/-- rCIP divides by the number of features, so it needs at least one. -/
def DimOk (I : Index) (d : ℕ) : Prop := I = .rCIP → 0 < d

/-- One call of the public API. -/
structure Call (F : Type := XR) where
  data : Data F
  label : LabelArg

/-- The object after a sequence of calls whose exceptions, if any, are caught by the caller. -/
def after {F : Type} (M : Module F) : List (Call F) → Obj F → Obj F
  | [], o => o
  | c :: l, o => after M l (getCvi M c.data c.label o).state

end Verif
