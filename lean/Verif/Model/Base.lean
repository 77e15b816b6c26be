import Verif.Py

/-!
# Model of `src/cvi/modules/_base.py`
-/

namespace Verif

/-! ## LabelMap -/

/-- `LabelMap.map`: the Python dict from labels to internal labels, in insertion order. (_base.py:28-29) -/
abbrev LabelMap := List (ℤ × ℕ)

/-- `LabelMap.get_internal_label`, _base.py:31-48: the internal label and the dict afterwards.
Labels are integers here (the documented type). -/
def LabelMap.getInternalLabel (m : LabelMap) (label : ℤ) : ℕ × LabelMap :=
  match m.lookup label with
  | some i => (i, m)
  | none => (m.length, m ++ [(label, m.length)])

/-! ## Objects -/

/-- All attributes of the nine CVI classes except `_label_map`: the common ones of `CVI.__init__` (_base.py:56-70) and the
class-specific ones of each `__init__`.  A class never reads an attribute that only another class has. -/
structure Core (F : Type := XR) where
  /-- `_dim` -/
  dim : ℕ
  /-- `_n_samples` -/
  nSamples : ℕ
  /-- `_n` -/
  n : Seq ℕ
  /-- `_v` -/
  v : Arr2 F
  /-- `_CP`; `none` after `del self._CP` (PS.py:54) or when set to `None` (rCIP.py:44) -/
  CP : Option (Seq F)
  /-- `_G`; `none` after `del self._G` (PS.py:53) -/
  G : Option (Arr2 F)
  /-- `_n_clusters` -/
  nClusters : ℕ
  /-- `criterion_value` -/
  criterion : F
  /-- `_is_setup` -/
  isSetup : Bool
  /-- `_mu` (CH, WB, XB, DB, GD43, GD53; PS in batch mode) -/
  mu : Vec F
  /-- `_SEP` (CH, WB: 1-D array; XB overwrites it by a scalar, modelled as a one-element array) -/
  SEP : Vec F
  /-- `_BGSS` (CH, WB) -/
  BGSS : F
  /-- `_WGSS` (CH, WB, XB) -/
  WGSS : F
  /-- `_D` (XB, DB, GD43, GD53, PS, rCIP) -/
  D : Arr2 F
  /-- `_R` (DB) -/
  R : Arr2 F
  /-- `_S` of DB, a list of floats -/
  Sv : Seq F
  /-- `_S` of cSIL, a matrix -/
  Sm : Arr2 F
  /-- `_sil_coefs` (cSIL) -/
  silCoefs : Vec F
  /-- `_inter` (GD43, GD53) -/
  inter : F
  /-- `_intra` (GD43, GD53) -/
  intra : F
  /-- `_v_bar` (PS) -/
  vBar : Vec F
  /-- `_beta_t` (PS) -/
  betaT : F
  /-- `_PS_i` (PS) -/
  PSi : Vec F
  /-- the pages `_sigma[:, :, i]` (rCIP) -/
  sigma : List (Arr2 F)
  /-- `_sigma.shape[0]` and `_sigma.shape[1]` (rCIP) -/
  sigmaShape : ℕ × ℕ
  /-- `_delta_term` (rCIP) -/
  deltaTerm : Arr2 F
  /-- `_constant` (rCIP) -/
  constant : F

/-- A CVI object. -/
structure Obj (F : Type := XR) where
  /-- `_label_map` -/
  labelMap : LabelMap
  /-- every other attribute -/
  core : Core F

/-- The attributes set by `CVI.__init__` (_base.py:61-70) and the empty/zero initial values of the class-specific attributes
(CH.py:41-44, WB.py:43-46, XB.py:39-42, DB.py:39-42, GD43.py:43-46, GD53.py:43-46, PS.py:37-40, cSIL.py:39-40, rCIP.py:39-42). -/
noncomputable def Core.init : Core where
  dim := 0
  nSamples := 0
  n := ⟨false, []⟩
  v := Arr2.zeros 0 0
  CP := some ⟨false, []⟩
  G := some (Arr2.zeros 0 0)
  nClusters := 0
  criterion := .fin 0
  isSetup := false
  mu := []
  SEP := []
  BGSS := .fin 0
  WGSS := .fin 0
  D := Arr2.zeros 0 0
  R := Arr2.zeros 0 0
  Sv := ⟨false, []⟩
  Sm := Arr2.zeros 0 0
  silCoefs := []
  inter := .fin 0
  intra := .fin 0
  vBar := []
  betaT := .fin 0
  PSi := []
  sigma := []
  sigmaShape := (0, 0)
  deltaTerm := Arr2.zeros 0 0
  constant := .fin 0

open Py

variable {F : Type}

/-- `CVI._setup`, _base.py:72-90. -/
def Base.setup [Zero F] (sample : Vec F) : Py (Core F) Unit :=
  modify fun s => { s with
    dim := sample.length
    v := Arr2.zeros 0 sample.length
    G := some (Arr2.zeros 0 sample.length)
    isSetup := true }

/-- `CVI._setup_batch`, _base.py:92-104. -/
def Base.setupBatch (data : Arr2 F) : Py (Core F) Unit :=
  modify fun s => { s with
    nSamples := data.rows.length
    dim := data.cols
    isSetup := true }

/-- A CVI class: what `__init__`, `_param_inc`, `_param_batch` and `_evaluate` do.
`incBody sample i` is `_param_inc` after its first statement `i = self._label_map.get_internal_label(label)`
(the same first statement in all nine classes; `label` is not used again).  `abstract` marks the base class, whose
three methods raise before touching anything. -/
structure Module (F : Type := XR) where
  abstract : Bool
  init : Core F
  incBody : Vec F → ℕ → Py (Core F) Unit
  paramBatch : Arr2 F → List ℤ → Py (Core F) Unit
  evaluate : Py (Core F) Unit

/-- A freshly constructed object. -/
def Module.fresh (M : Module F) : Obj F := ⟨[], M.init⟩

/-- Run a method that only touches `core`. -/
def onCore {α : Type} (x : Py (Core F) α) : Py (Obj F) α := fun o =>
  (x o.core).mapState fun c => { o with core := c }

/-- The `label` argument of `get_cvi`: an integer or a vector of integers. -/
inductive LabelArg where
  | int (c : ℤ)
  | arr (l : List ℤ)

/-- The `data` argument of `get_cvi` by number of dimensions; `other` stands for any `ndim` other than 1 and 2. -/
inductive Data (F : Type := XR) where
  | d1 (x : Vec F)
  | d2 (a : Arr2 F)
  | other (shape : List ℕ)

/-- `len(np.unique(label))`, _base.py:148. -/
def LabelArg.numUnique : LabelArg → ℕ
  | .int _ => 1
  | .arr l => l.dedup.length

/-- `self._param_inc(data, label)`, first statement `self._label_map.get_internal_label(label)`
(CH.py:66, WB.py:68, XB.py:64, DB.py:63, GD43.py:67, GD53.py:67, PS.py:63, rCIP.py:68, cSIL.py:58), then the body.
A label vector is unhashable, so `label in self.map` (_base.py:40) raises TypeError.
The base class raises NotImplementedError (_base.py:106-108). -/
def Module.paramInc (M : Module F) (sample : Vec F) (label : LabelArg) : Py (Obj F) Unit := fun o =>
  if M.abstract then .err .notImplementedError o
  else match label with
    | .arr _ => .err .typeError o
    | .int c =>
      let r := o.labelMap.getInternalLabel c
      onCore (M.incBody sample r.1) { o with labelMap := r.2 }

/-- `labels` as the batch methods use it (`labels[x]`, `len(labels)`); an integer label never gets there
because it has only one unique value. -/
def LabelArg.toList : LabelArg → List ℤ
  | .int c => [c]
  | .arr l => l

/-- The parameter update of `CVI.get_cvi`, _base.py:137-174. -/
def Module.update (M : Module F) (data : Data F) (label : LabelArg) : Py (Obj F) Unit := fun o =>
  match data with
  -- _base.py:138-139
  | .d1 x => M.paramInc x label o
  -- _base.py:142-162
  | .d2 a =>
    if o.core.isSetup = false then
      if ¬ (label.numUnique > 1) then .err .valueError o
      else if M.abstract then .err .notImplementedError o
      else onCore (M.paramBatch a label.toList) o
    else .err .valueError o
  -- _base.py:169-174
  | .other _ => .err .valueError o

/-- `CVI.get_cvi`, _base.py:118-181. -/
def getCvi (M : Module F) (data : Data F) (label : LabelArg) : Py (Obj F) F := do
  M.update data label
  -- _base.py:177-181
  onCore M.evaluate
  let o ← Py.get
  pure o.core.criterion

/-- The base class `CVI` itself (_base.py:51-116): its abstract methods raise NotImplementedError. -/
noncomputable def BaseCVI : Module where
  abstract := true
  init := Core.init
  incBody _ _ := Py.raise .notImplementedError
  paramBatch _ _ := Py.raise .notImplementedError
  evaluate := Py.raise .notImplementedError

/-! ## `_add_docs` -/

/-- A function object, as far as `_add_docs` is concerned: its identity and its `__doc__`. -/
structure PyFunc where
  ident : ℕ
  doc : Option String

/-- `_add_docs(docstring)(func)`, _base.py:189-203: `func.__doc__ = func.__doc__ + docstring; return func`.
`None + str` raises TypeError. -/
def addDocs (docstring : String) (func : PyFunc) : Except PyErr PyFunc :=
  match func.doc with
  | none => .error .typeError
  | some d => .ok { func with doc := some (d ++ docstring) }

end Verif
