import Verif.Source.PSBatch
import Verif.Source.GD43Batch
import Verif.Source.GD53Batch
import Verif.Source.XBBatch
import Verif.Source.DBBatch
import Verif.Source.CHBatch
import Verif.Source.WBBatch
import Verif.Source.RCIPBatch
import Verif.Source.CSILBatch
import Verif.Source.Feed

set_option linter.unusedSectionVars false
set_option linter.constructorNameAsVariable false

/-! # The text of `get_cvi` on matrices, and sequences of calls of any kind -/

namespace Verif.Source

variable {F : Type} [Arith F] [Laws F] (K : Lits F)

/-- The rows of a matrix have the length its shape says. -/
def WellFormed (a : Arr2 F) : Prop := ∀ r ∈ a.rows, r.length = a.cols

theorem batch_same (I : Index) (hI : I ≠ .rCIP) (a : Arr2 F) (labels : List ℤ) (hw : WellFormed a) (hk : 1 < uniqueSize labels) (o : Obj F) :
    Same (cviCall K I .self_param_batch [.mat a, .zs labels] o)
      ((onCore ((Gen.mod F I).paramBatch a labels) o).bind fun _ o => .ok .none o) := by
  cases I with
  | CH => exact CHp.batch_eq K a labels hw _ _
  | WB => exact WBp.batch_eq K a labels hw _ _
  | XB => exact XBp.batch_eq K a labels hw hk _ _
  | DB => exact DBp.batch_eq K a labels hw hk _ _
  | GD43 => exact GD43p.batch_eq K a labels hw hk _ _
  | GD53 => exact GD53p.batch_eq K a labels hw hk _ _
  | PS => exact PSp.batch_eq K a labels hw hk _ _
  | rCIP => exact absurd rfl hI
  | cSIL => exact CSILp.batch_eq K a labels hw _ _

theorem batch_agree (I : Index) (hK : I = .rCIP → LitLaws K) (a : Arr2 F) (labels : List ℤ) (hw : WellFormed a) (hk : 1 < uniqueSize labels)
    (o : Obj F) :
    Agree (cviCall K I .self_param_batch [.mat a, .zs labels] o)
      ((onCore ((Gen.mod F I).paramBatch a labels) o).bind fun _ o => .ok .none o) := by
  by_cases hI : I = .rCIP
  · subst hI; exact RCIPp.batch_eq K (hK rfl) a labels hw hk _ _
  · exact (batch_same K I hI a labels hw hk o).agree

/-! ## The counts stay a list -/

macro "keeps_list_batch" : tactic => `(tactic|
  repeat' first
    | with_reducible exact keeps_list_appendN _
    | with_reducible exact keeps_list_setN _ _
    | with_reducible exact keeps_get
    | with_reducible exact keeps_lift _
    | with_reducible exact keeps_raise _
    | with_reducible exact keeps_pure _
    | with_reducible apply keeps_bind
    | with_reducible apply keeps_ite
    | with_reducible apply keeps_forEach
    | exact keeps_modify fun _ h => h
    | exact keeps_modify fun _ _ => rfl
    | intro _)

theorem keeps_list_batch (I : Index) (hI : I = .PS ∨ I = .rCIP) (a : Arr2 F) (l : List ℤ) :
    Keeps (IsList (F := F)) ((Gen.mod F I).paramBatch a l) := by
  rcases hI with rfl | rfl
  · show Keeps _ (Gen.PS.paramBatch (F := F) a l)
    unfold Gen.PS.paramBatch Base.setupBatch Gen.PS.batchStep setV
    keeps_list_batch
  · show Keeps _ (Gen.RCIP.paramBatch (F := F) a l)
    unfold Gen.RCIP.paramBatch Base.setupBatch Gen.RCIP.batchStep setV Verif.RCIP.setSigma
    keeps_list_batch

theorem Counted.batch {I : Index} (a : Arr2 F) (l : List ℤ) {o : Obj F} (ho : Counted I o) :
    Counted I (Verif.onCore ((Gen.mod F I).paramBatch a l) o).state :=
  Counted.onCore (fun hI => keeps_list_batch I hI a l) ho

/-! ## One call -/

/-- An argument `data` of `get_cvi`: a matrix is rectangular; `other` has neither one nor two dimensions. -/
def Sound : Data F → Prop
  | .d1 _ => True
  | .d2 a => WellFormed a
  | .other sh => sh.length ≠ 1 ∧ sh.length ≠ 2

theorem getCvi_eq (M : Module F) (data : Data F) (l : LabelArg) (o : Obj F) :
    getCvi M data l o = (M.update data l o).bind fun _ s => (onCore M.evaluate s).bind fun _ s => .ok s.core.criterion s := rfl

theorem getCvi_d2 (I : Index) (a : Arr2 F) (l : List ℤ) (o : Obj F) (h : o.core.isSetup = false) (hk : 1 < uniqueSize l) :
    getCvi (Gen.mod F I) (.d2 a) (.arr l) o = (onCore ((Gen.mod F I).paramBatch a l) o).bind fun _ s =>
      (onCore (Gen.mod F I).evaluate s).bind fun _ s => .ok s.core.criterion s := by
  have hk' : (LabelArg.arr l).numUnique > 1 := hk
  have ha : (Gen.mod F I).abstract = false := by cases I <;> rfl
  rw [getCvi_eq]
  simp only [Module.update, h, if_true, hk', not_true, if_false, ha, Bool.false_eq_true, LabelArg.toList]

theorem refused_eq (M : Module F) (data : Data F) (l : LabelArg) (o : Obj F) {e : PyErr} (h : M.update data l o = .err e o) :
    (getCvi M data l o).bind (fun y o => Res.ok (Val.flt y) o) = .err e o := by
  rw [getCvi_eq, h]; rfl

theorem call_arr (I : Index) (x : Vec F) (l : List ℤ) (o : Obj F) :
    runGetCvi K I (.d1 x) (.arr l) o = (getCvi (Gen.mod F I) (.d1 x) (.arr l) o).bind fun y o => .ok (.flt y) o := by
  have ha : (Gen.mod F I).abstract = false := by cases I <;> rfl
  rw [get_cvi_d1_arr, refused_eq (e := .typeError)]
  simp [Module.update, Module.paramInc, ha]

theorem call_other (I : Index) (sh : List ℕ) (h : sh.length ≠ 1 ∧ sh.length ≠ 2) (l : LabelArg) (o : Obj F) :
    runGetCvi K I (.other sh) l o = (getCvi (Gen.mod F I) (.other sh) l o).bind fun y o => .ok (.flt y) o := by
  rw [get_cvi_other K I sh h.1 h.2, refused_eq (e := .valueError)]
  rfl

theorem call_few (I : Index) (a : Arr2 F) (l : LabelArg) (o : Obj F) (h : o.core.isSetup = true ∨ ¬ l.numUnique > 1) :
    runGetCvi K I (.d2 a) l o = (getCvi (Gen.mod F I) (.d2 a) l o).bind fun y o => .ok (.flt y) o := by
  by_cases hs : o.core.isSetup = true
  · rw [get_cvi_d2_setup K I a l o hs, refused_eq (e := .valueError)]
    simp [Module.update, hs]
  · have hl : ¬ l.numUnique > 1 := h.resolve_left hs
    have hs' : o.core.isSetup = false := by simpa using hs
    rw [get_cvi_d2 K I a l o hs', if_neg hl, refused_eq (e := .valueError)]
    simp only [Module.update, hs', if_true, hl, not_false_eq_true]

/-- In batch mode cSIL, too, raises the exception of the model. -/
theorem batch_call_same (I : Index) (h2 : I ≠ .rCIP) (a : Arr2 F) (hd : WellFormed a) (l : LabelArg) (o : Obj F) (ho : Counted I o) :
    Same (runGetCvi K I (.d2 a) l o) ((getCvi (Gen.mod F I) (.d2 a) l o).bind fun y o => .ok (.flt y) o) := by
  by_cases hr : o.core.isSetup = true ∨ ¬ l.numUnique > 1
  · exact .of_eq (call_few K I a l o hr)
  · simp only [not_or, not_not] at hr
    obtain ⟨hs, hk⟩ := hr
    have hs' : o.core.isSetup = false := by simpa using hs
    cases l with
    | int z => exact absurd hk (lt_irrefl 1)
    | arr l =>
      rw [get_cvi_d2 K I a _ o hs', if_pos hk, getCvi_d2 I a l o hs' hk, bind_flt]
      exact tail_same (batch_same K I h2 a l hd hk o) _ _ fun _ s h => eval_tail K I s (by have := ho.batch a l; rw [h] at this; exact this)

theorem call_same (I : Index) (h1 : I ≠ .cSIL) (h2 : I ≠ .rCIP) (data : Data F) (hd : Sound data) (l : LabelArg) (o : Obj F) (ho : Counted I o) :
    Same (runGetCvi K I data l o) ((getCvi (Gen.mod F I) data l o).bind fun y o => .ok (.flt y) o) := by
  cases data with
  | d1 x =>
    cases l with
    | int z => exact get_cvi_same K I h1 h2 x z o ho
    | arr l => exact .of_eq (call_arr K I x l o)
  | other sh => exact .of_eq (call_other K I sh hd l o)
  | d2 a => exact batch_call_same K I h2 a hd l o ho

theorem call_agree (I : Index) (hK : I = .rCIP → LitLaws K) (data : Data F) (hd : Sound data) (l : LabelArg) (o : Obj F) (ho : Counted I o) :
    Agree (runGetCvi K I data l o) ((getCvi (Gen.mod F I) data l o).bind fun y o => .ok (.flt y) o) := by
  cases data with
  | d1 x =>
    cases l with
    | int z => exact get_cvi_agree K I hK x z o ho
    | arr l => exact .of_eq (call_arr K I x l o)
  | other sh => exact .of_eq (call_other K I sh hd l o)
  | d2 a =>
    by_cases hr : o.core.isSetup = true ∨ ¬ l.numUnique > 1
    · exact .of_eq (call_few K I a l o hr)
    · simp only [not_or, not_not] at hr
      obtain ⟨hs, hk⟩ := hr
      have hs' : o.core.isSetup = false := by simpa using hs
      cases l with
      | int z => exact absurd hk (lt_irrefl 1)
      | arr l =>
        rw [get_cvi_d2 K I a _ o hs', if_pos hk, getCvi_d2 I a l o hs' hk, bind_flt]
        exact tail_agree (batch_agree K I hK a l hd hk o) _ _ fun _ s h =>
          (eval_tail K I s (by have := ho.batch a l; rw [h] at this; exact this)).agree

theorem Counted.call {I : Index} {data : Data F} {l : LabelArg} {o : Obj F} (ho : Counted I o) {y : F} {o' : Obj F}
    (h : getCvi (Gen.mod F I) data l o = .ok y o') : Counted I o' := by
  rw [getCvi_eq] at h
  have h1 : Counted I ((Gen.mod F I).update data l o).state := by
    cases data with
    | d1 x => exact ho.inc x l
    | other sh => exact ho
    | d2 a =>
      simp only [Module.update]
      split
      · split
        · exact ho
        · split
          · exact ho
          · exact ho.batch a _
      · exact ho
  cases hm : (Gen.mod F I).update data l o with
  | err e s => rw [hm] at h; cases h
  | ok a s =>
    rw [hm] at h h1
    have h2 := Counted.eval (I := I) (o := s) h1
    simp only [Res.bind_ok] at h
    cases he : Verif.onCore (Gen.mod F I).evaluate s with
    | err e s => rw [he] at h; cases h
    | ok b t => rw [he] at h h2; cases h; exact h2

/-! ## Sequences of calls -/

/-- Call `get_cvi` again and again, in the model. -/
def calls (M : Module F) : List (Data F × LabelArg) → Py (Obj F) (List F)
  | [] => pure []
  | p :: l => do
    let r ← getCvi M p.1 p.2
    let rs ← calls M l
    pure (r :: rs)

/-- Call `get_cvi` again and again, by the text. -/
def callsSrc (K : Lits F) (I : Index) : List (Data F × LabelArg) → Py (Obj F) (List (Val F))
  | [] => pure []
  | p :: l => do
    let r ← runGetCvi K I p.1 p.2
    let rs ← callsSrc K I l
    pure (r :: rs)

/-- Construct an object of class `I` and call `get_cvi` again and again. -/
def runCalls (K : Lits F) (I : Index) (S : List (Data F × LabelArg)) : Py (Obj F) (List (Val F)) := do
  let _ ← runInit K I
  callsSrc K I S

theorem calls_same (I : Index) (h1 : I ≠ .cSIL) (h2 : I ≠ .rCIP) (S : List (Data F × LabelArg)) (hS : ∀ p ∈ S, Sound p.1) (o : Obj F)
    (ho : Counted I o) : Same (callsSrc K I S o) ((calls (Gen.mod F I) S o).bind fun ys o => .ok (ys.map .flt) o) := by
  induction S generalizing o with
  | nil => exact .of_eq rfl
  | cons p S ih =>
    simp only [callsSrc, calls, Py.bind_apply, Py.pure_apply, bind_bind, Res.bind_ok]
    have h := call_same K I h1 h2 p.1 (hS p (by simp)) p.2 o ho
    have := Same.bind (f := fun r s => (callsSrc K I S s).bind fun rs s => .ok (r :: rs) s)
      (g := fun r s => ((calls (Gen.mod F I) S s).bind fun ys o => .ok (ys.map Val.flt) o).bind fun rs s => .ok (r :: rs) s) h
      fun a s hm => by
        cases hg : getCvi (Gen.mod F I) p.1 p.2 o with
        | err e t => rw [hg] at hm; cases hm
        | ok y t =>
          rw [hg] at hm; cases hm
          exact Same.bind (ih (fun q hq => hS q (by simp [hq])) _ (ho.call hg)) fun _ _ _ => .of_eq rfl
    simpa only [bind_bind, Res.bind_ok, List.map_cons] using this

theorem calls_agree (I : Index) (hK : I = .rCIP → LitLaws K) (S : List (Data F × LabelArg)) (hS : ∀ p ∈ S, Sound p.1) (o : Obj F)
    (ho : Counted I o) : Agree (callsSrc K I S o) ((calls (Gen.mod F I) S o).bind fun ys o => .ok (ys.map .flt) o) := by
  induction S generalizing o with
  | nil => exact .of_eq rfl
  | cons p S ih =>
    simp only [callsSrc, calls, Py.bind_apply, Py.pure_apply, bind_bind, Res.bind_ok]
    have h := call_agree K I hK p.1 (hS p (by simp)) p.2 o ho
    have := Agree.bind (f := fun r s => (callsSrc K I S s).bind fun rs s => .ok (r :: rs) s)
      (g := fun r s => ((calls (Gen.mod F I) S s).bind fun ys o => .ok (ys.map Val.flt) o).bind fun rs s => .ok (r :: rs) s) h
      fun a s hm => by
        cases hg : getCvi (Gen.mod F I) p.1 p.2 o with
        | err e t => rw [hg] at hm; cases hm
        | ok y t =>
          rw [hg] at hm; cases hm
          exact Agree.bind (ih (fun q hq => hS q (by simp [hq])) _ (ho.call hg)) fun _ _ _ => .of_eq rfl
    simpa only [bind_bind, Res.bind_ok, List.map_cons] using this

theorem runCalls_eq (I : Index) (S : List (Data F × LabelArg)) (m : LabelMap) (s : Core F) :
    runCalls K I S ⟨m, blank I s⟩ = callsSrc K I S (Gen.mod F I).fresh := by
  simp only [runCalls, Py.bind_apply, init_eq, Res.bind_ok]

end Verif.Source
