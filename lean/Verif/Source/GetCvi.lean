import Verif.Source.CH
import Verif.Source.WB
import Verif.Source.XB
import Verif.Source.DB
import Verif.Source.GD43
import Verif.Source.GD53
import Verif.Source.PS
import Verif.Source.CSIL
import Verif.Source.RCIP
import Verif.Proofs.Keeps

set_option linter.unusedSectionVars false
set_option linter.constructorNameAsVariable false

/-! # The text of `get_cvi` in incremental mode -/

namespace Verif.Source

variable {F : Type} [Arith F] [Laws F] (K : Lits F)

/-- Where the counts must be a list: `_n` of these classes meets integer division. -/
def Counted (I : Index) (o : Obj F) : Prop := I = .PS ∨ I = .rCIP → o.core.n.isArr = false

theorem inc_same (I : Index) (h1 : I ≠ .cSIL) (h2 : I ≠ .rCIP) (x : Vec F) (z : ℤ) (o : Obj F) :
    cviCall K I .self_param_inc [.fs ⟨true, x⟩, .int false z] o =
      ((Gen.mod F I).paramInc x (.int z) o).bind fun _ o => .ok .none o := by
  cases I with
  | CH => exact CHp.inc_eq K x z _ _
  | WB => exact WBp.inc_eq K x z _ _
  | XB => exact XBp.inc_eq K x z _ _
  | DB => exact DBp.inc_eq K x z _ _
  | GD43 => exact GD43p.inc_eq K x z _ _
  | GD53 => exact GD53p.inc_eq K x z _ _
  | PS => exact PSp.inc_eq K x z _ _
  | rCIP => exact absurd rfl h2
  | cSIL => exact absurd rfl h1

theorem inc_agree (I : Index) (hK : I = .rCIP → LitLaws K) (x : Vec F) (z : ℤ) (o : Obj F) (ho : Counted I o) :
    Agree (cviCall K I .self_param_inc [.fs ⟨true, x⟩, .int false z] o)
      (((Gen.mod F I).paramInc x (.int z) o).bind fun _ o => .ok .none o) := by
  by_cases h1 : I = .cSIL
  · subst h1; exact CSILp.inc_eq K x z _ _
  · by_cases h2 : I = .rCIP
    · subst h2; exact RCIPp.inc_eq K (hK rfl) x z _ _ (ho (.inr rfl))
    · exact .of_eq (inc_same K I h1 h2 x z o)

theorem eval_same (I : Index) (o : Obj F) (ho : Counted I o) :
    Same (cviCall K I .self_evaluate [] o) ((onCore (Gen.mod F I).evaluate o).bind fun _ o => .ok .none o) := by
  cases I with
  | CH => exact .of_eq (CHp.eval_eq K _ _)
  | WB => exact .of_eq (WBp.eval_eq K _ _)
  | XB => exact .of_eq (XBp.eval_eq K _ _)
  | DB => exact DBp.eval_eq K _ _
  | GD43 => exact .of_eq (GD43p.eval_eq K _ _)
  | GD53 => exact .of_eq (GD53p.eval_eq K _ _)
  | PS => exact PSp.eval_eq K _ _ (ho (.inl rfl))
  | rCIP => exact .of_eq (RCIPp.eval_eq K _ _)
  | cSIL => exact CSILp.eval_eq K _ _

/-! ## The counts stay a list -/

/-- `_n` is a list. -/
def IsList (s : Core F) : Prop := s.n.isArr = false

theorem append_list {α : Type} {l l' : Seq α} {x : α} (h : l.append x = .ok l') : l'.isArr = false := by
  unfold Seq.append at h
  split at h
  · exact absurd h (by simp)
  · cases h; rfl

theorem set_list {α : Type} {l l' : Seq α} {i : ℕ} {x : α} (h : l.set i x = .ok l') : l'.isArr = l.isArr := by
  unfold Seq.set at h
  split at h
  · cases h; rfl
  · exact absurd h (by simp)

theorem keeps_list_appendN (x : ℕ) : Keeps (IsList (F := F)) (appendN x) := by
  intro s hs
  simp only [appendN, Py.bind_apply, Py.get_apply, Res.bind_ok]
  cases h : s.n.append x with
  | ok l => simpa [Res.state, IsList] using append_list h
  | error e => simpa [Res.state] using hs

theorem keeps_list_setN (i x : ℕ) : Keeps (IsList (F := F)) (setN i x) := by
  intro s hs
  simp only [setN, Py.bind_apply, Py.get_apply, Res.bind_ok]
  cases h : s.n.set i x with
  | ok l => simpa [Res.state, IsList] using (set_list h).trans hs
  | error e => simpa [Res.state] using hs

/-- Like `keeps_all`, for `IsList`. -/
macro "keeps_list" : tactic => `(tactic|
  repeat' first
    | with_reducible exact keeps_list_appendN _
    | with_reducible exact keeps_list_setN _ _
    | with_reducible exact keeps_get
    | with_reducible exact keeps_lift _
    | with_reducible exact keeps_raise _
    | with_reducible exact keeps_pure _
    | with_reducible apply keeps_bind
    | with_reducible apply keeps_ite
    | with_reducible apply keeps_forEach
    | exact keeps_modify fun _ h => h
    | intro _)

theorem keeps_list_PS_inc (x : Vec F) (i : ℕ) : Keeps (IsList (F := F)) (Gen.PS.incBody x i) := by
  unfold Gen.PS.incBody setupIfFirst Gen.PS.setup Base.setup Gen.PS.incNew Gen.PS.incOld incClusters vstackV setV setD
  keeps_list

theorem keeps_list_RCIP_inc (x : Vec F) (i : ℕ) : Keeps (IsList (F := F)) (Gen.RCIP.incBody x i) := by
  unfold Gen.RCIP.incBody setupIfFirst Gen.RCIP.setup Base.setup Gen.RCIP.incNew Gen.RCIP.incOld incClusters vstackV setV setD
    Verif.RCIP.dstackSigma Verif.RCIP.setSigma
  keeps_list

theorem keeps_list_inc (I : Index) (hI : I = .PS ∨ I = .rCIP) (x : Vec F) (i : ℕ) : Keeps (IsList (F := F)) ((Gen.mod F I).incBody x i) := by
  rcases hI with rfl | rfl
  · exact keeps_list_PS_inc x i
  · exact keeps_list_RCIP_inc x i

theorem keeps_list_eval (I : Index) (hI : I = .PS ∨ I = .rCIP) : Keeps (IsList (F := F)) (Gen.mod F I).evaluate := by
  rcases hI with rfl | rfl
  · show Keeps _ (Gen.PS.evaluate (F := F)); unfold Gen.PS.evaluate; keeps_list
  · show Keeps _ (Gen.RCIP.evaluate (F := F)); unfold Gen.RCIP.evaluate; keeps_list

theorem Counted.onCore {I : Index} {α : Type} {x : Py (Core F) α} (hx : I = .PS ∨ I = .rCIP → Keeps IsList x) {o : Obj F} (ho : Counted I o) :
    Counted I (onCore x o).state := by
  intro hI
  have := hx hI o.core (ho hI)
  unfold Verif.onCore
  cases h : x o.core with
  | ok a s => rw [h] at this; exact this
  | err e s => rw [h] at this; exact this

theorem Counted.inc {I : Index} (x : Vec F) (l : LabelArg) {o : Obj F} (ho : Counted I o) :
    Counted I ((Gen.mod F I).paramInc x l o).state := by
  unfold Module.paramInc
  split
  · exact ho
  · cases l with
    | arr l => exact ho
    | int z => exact Counted.onCore (fun hI => keeps_list_inc I hI x _) (o := ⟨_, o.core⟩) ho

theorem Counted.eval {I : Index} {o : Obj F} (ho : Counted I o) : Counted I (Verif.onCore (Gen.mod F I).evaluate o).state :=
  Counted.onCore (fun hI => keeps_list_eval I hI) ho

attribute [local congr] andThen_head bind_head ebind_head mapState_head cond_head

/-- `get_cvi` on a single sample: `_param_inc`, then `_evaluate`, then `criterion_value`. -/
theorem get_cvi_d1 (I : Index) (x : Vec F) (l : LabelArg) (o : Obj F) :
    runGetCvi K I (.d1 x) l o =
      (cviCall K I .self_param_inc [.fs ⟨true, x⟩, labelVal l] o).bind fun _ s =>
        (cviCall K I .self_evaluate [] s).bind fun _ s => .ok (.flt s.core.criterion) s := by
  simp -implicitDefEqProofs only [runGetCvi, callMethod, CVI.get_cvi, pyrun, dataVal]

theorem getCvi_d1 (M : Module F) (x : Vec F) (l : LabelArg) (o : Obj F) :
    getCvi M (.d1 x) l o = (M.paramInc x l o).bind fun _ s => (onCore M.evaluate s).bind fun _ s => .ok s.core.criterion s := rfl

theorem bind_flt {σ : Type} (m : Res σ Unit) (f : σ → Res σ F) :
    (m.bind fun _ s => f s).bind (fun y o => .ok (Val.flt y) o) = m.bind fun _ s => (f s).bind fun y o => .ok (.flt y) o := by
  cases m <;> rfl

theorem tail_same {σ : Type} {r : Res σ (Val F)} {m : Res σ Unit} (h : Same r (m.bind fun _ o => .ok .none o)) (f g : σ → Res σ (Val F))
    (hf : ∀ a s, m = .ok a s → Same (f s) (g s)) : Same (r.bind fun _ s => f s) (m.bind fun _ s => g s) := by
  have := Same.bind (f := fun _ s => f s) (g := fun _ s => g s) h fun a s hm => by
    cases m with
    | ok b t => cases hm; exact hf _ _ rfl
    | err e t => cases hm
  cases m <;> exact this

theorem tail_agree {σ : Type} {r : Res σ (Val F)} {m : Res σ Unit} (h : Agree r (m.bind fun _ o => .ok .none o)) (f g : σ → Res σ (Val F))
    (hf : ∀ a s, m = .ok a s → Agree (f s) (g s)) : Agree (r.bind fun _ s => f s) (m.bind fun _ s => g s) := by
  have := Agree.bind (f := fun _ s => f s) (g := fun _ s => g s) h fun a s hm => by
    cases m with
    | ok b t => cases hm; exact hf _ _ rfl
    | err e t => cases hm
  cases m <;> exact this

theorem eval_tail (I : Index) (s : Obj F) (hs : Counted I s) :
    Same ((cviCall K I .self_evaluate [] s).bind fun _ s => .ok (Val.flt s.core.criterion) s)
      (((onCore (Gen.mod F I).evaluate s).bind fun _ s => .ok s.core.criterion s).bind fun y o => .ok (Val.flt y) o) := by
  rw [bind_flt]
  exact tail_same (eval_same K I s hs) _ _ fun _ _ _ => .of_eq rfl

/-- The text of `get_cvi` on a single sample returns, or raises, as the model does. -/
theorem get_cvi_same (I : Index) (h1 : I ≠ .cSIL) (h2 : I ≠ .rCIP) (x : Vec F) (z : ℤ) (o : Obj F) (ho : Counted I o) :
    Same (runGetCvi K I (.d1 x) (.int z) o) ((getCvi (Gen.mod F I) (.d1 x) (.int z) o).bind fun y o => .ok (.flt y) o) := by
  rw [get_cvi_d1, getCvi_d1, bind_flt]
  exact tail_same (.of_eq (inc_same K I h1 h2 x z o)) _ _ fun a s h => eval_tail K I s (by have := ho.inc x (.int z); rw [h] at this; exact this)

theorem get_cvi_agree (I : Index) (hK : I = .rCIP → LitLaws K) (x : Vec F) (z : ℤ) (o : Obj F) (ho : Counted I o) :
    Agree (runGetCvi K I (.d1 x) (.int z) o) ((getCvi (Gen.mod F I) (.d1 x) (.int z) o).bind fun y o => .ok (.flt y) o) := by
  rw [get_cvi_d1, getCvi_d1, bind_flt]
  exact tail_agree (inc_agree K I hK x z o ho) _ _ fun a s h =>
    (eval_tail K I s (by have := ho.inc x (.int z); rw [h] at this; exact this)).agree

theorem Counted.get_cvi {I : Index} (x : Vec F) (z : ℤ) {o : Obj F} (ho : Counted I o) {y : F} {o' : Obj F}
    (h : getCvi (Gen.mod F I) (.d1 x) (.int z) o = .ok y o') : Counted I o' := by
  rw [getCvi_d1] at h
  have h1 := ho.inc x (.int z)
  cases hm : (Gen.mod F I).paramInc x (.int z) o with
  | err e s => rw [hm] at h; cases h
  | ok a s =>
    rw [hm] at h h1
    have h2 := Counted.eval (I := I) (o := s) h1
    simp only [Res.bind_ok] at h
    cases he : Verif.onCore (Gen.mod F I).evaluate s with
    | err e s => rw [he] at h; cases h
    | ok b t => rw [he] at h h2; cases h; exact h2

/-! ## Calls that are refused -/

theorem inc_refuses (I : Index) (x : Vec F) (l : List ℤ) (o : Obj F) :
    cviCall K I .self_param_inc [.fs ⟨true, x⟩, labelVal (.arr l)] o = .err .typeError o := by
  obtain ⟨m, s⟩ := o
  cases I
  all_goals
    simp -implicitDefEqProofs only [cviCall, cls, callMethod]
    simp -implicitDefEqProofs only [CH._param_inc, WB._param_inc, XB._param_inc, DB._param_inc, GD43._param_inc, GD53._param_inc, PS._param_inc,
      rCIP._param_inc, cSIL._param_inc]
    simp -implicitDefEqProofs only [pyrun, selfCall, getLabel_arr, labelVal]

theorem get_cvi_d1_arr (I : Index) (x : Vec F) (l : List ℤ) (o : Obj F) :
    runGetCvi K I (.d1 x) (.arr l) o = .err .typeError o := by
  rw [get_cvi_d1, inc_refuses]; rfl

theorem two_ne_one' : ¬ (2 : ℤ) = 1 := by decide

theorem get_cvi_other (I : Index) (sh : List ℕ) (h1 : sh.length ≠ 1) (h2 : sh.length ≠ 2) (l : LabelArg) (o : Obj F) :
    runGetCvi K I (.other sh) l o = .err .valueError o := by
  have h1' : ¬ (sh.length : ℤ) = 1 := by exact_mod_cast h1
  have h2' : ¬ (sh.length : ℤ) = 2 := by exact_mod_cast h2
  simp -implicitDefEqProofs only [runGetCvi, callMethod, CVI.get_cvi, pyrun, dataVal, if_neg h1', if_neg h2']

theorem get_cvi_d2_setup (I : Index) (a : Arr2 F) (l : LabelArg) (o : Obj F) (h : o.core.isSetup = true) :
    runGetCvi K I (.d2 a) l o = .err .valueError o := by
  simp -implicitDefEqProofs only [runGetCvi, callMethod, CVI.get_cvi, pyrun, dataVal, if_neg two_ne_one', h]

theorem unique_length (l : LabelArg) : ∃ u : List ℤ, callFn .np_unique [(labelVal l : Val F)] = .ok (.zs u) ∧ u.length = l.numUnique := by
  cases l with
  | int z => exact ⟨[z], rfl, rfl⟩
  | arr l => exact ⟨_, rfl, List.length_insertionSort ..⟩

/-- `get_cvi` on a matrix before setup: the number of distinct labels decides. -/
theorem get_cvi_d2 (I : Index) (a : Arr2 F) (l : LabelArg) (o : Obj F) (h : o.core.isSetup = false) :
    runGetCvi K I (.d2 a) l o =
      if l.numUnique > 1 then
        (cviCall K I .self_param_batch [.mat a, labelVal l] o).bind fun _ s =>
          (cviCall K I .self_evaluate [] s).bind fun _ s => .ok (.flt s.core.criterion) s
      else .err .valueError o := by
  obtain ⟨u, hu, hl⟩ := unique_length (F := F) l
  rw [← hl]
  by_cases hk : u.length > 1
  · have hz : (u.length : ℤ) > 1 := by exact_mod_cast hk
    simp -implicitDefEqProofs only [runGetCvi, callMethod, CVI.get_cvi, pyrun, dataVal, if_neg two_ne_one', h, hu, hz, hk, decide_true, Bool.not_true, Bool.not_false]
  · have hz : ¬ (u.length : ℤ) > 1 := by exact_mod_cast hk
    simp -implicitDefEqProofs only [runGetCvi, callMethod, CVI.get_cvi, pyrun, dataVal, if_neg two_ne_one', h, hu, hz, hk, decide_true, decide_false, Bool.not_false]

end Verif.Source
