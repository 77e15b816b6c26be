import Verif.Model.Base

/-!
# Labels of any kind

`get_cvi` is annotated with `label: int`, but in incremental mode a label is used in one place only, as a key of a dict
(`LabelMap.get_internal_label`, _base.py:31-48).  Here `K` is the type of hashable Python objects, where two objects are the same element of `K` if a dict
takes them for the same key (`1`, `1.0`, `True` and `np.int64(1)` are; two NaN objects are not).  A label is an element of `K`, or not hashable (`none`).
-/

namespace Verif
open Py

variable {F K : Type} [DecidableEq K]

/-- An object whose dict has keys in `K`. -/
structure KeyObj (K F : Type) where
  labelMap : List (K × ℕ)
  core : Core F

/-- `LabelMap.get_internal_label`, _base.py:31-48. -/
def keyLabel (m : List (K × ℕ)) (c : K) : ℕ × List (K × ℕ) :=
  match List.lookup c m with
  | some i => (i, m)
  | none => (m.length, m ++ [(c, m.length)])

/-- `get_cvi(x, label)` for a one-dimensional `x`, _base.py:118-181.  `label in self.map` raises TypeError for a label that is not hashable. -/
def keyCvi (M : Module F) (x : Vec F) (label : Option K) (o : KeyObj K F) : Res (KeyObj K F) F :=
  if M.abstract then .err .notImplementedError o
  else match label with
    | none => .err .typeError o
    | some c =>
      let r := keyLabel o.labelMap c
      match M.incBody x r.1 o.core with
      | .err e s => .err e ⟨r.2, s⟩
      | .ok _ s => match M.evaluate s with
        | .err e s => .err e ⟨r.2, s⟩
        | .ok _ s => .ok s.criterion ⟨r.2, s⟩

end Verif
