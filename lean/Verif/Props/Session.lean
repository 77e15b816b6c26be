import Verif.Props.WrongLength
import Verif.Props.Protocol
import Verif.Props.State

/-!
# C59: rejected calls in a session

A session is a list of calls, exceptions being caught by the caller.
-/

namespace Verif
open Spec

variable {d : ℕ}

/-- What the calls return or raise, one by one. -/
def answers {F : Type} (M : Module F) : List (Call F) → Obj F → List (Except PyErr F)
  | [], _ => []
  | c :: l, o => (getCvi M c.data c.label o).val :: answers M l (getCvi M c.data c.label o).state

/-- The values returned by those calls that returned. -/
def returnedValues {F : Type} (l : List (Except PyErr F)) : List F := l.filterMap Except.toOption

/-- A session that, after the samples `P`, presents the samples of `S` and between them makes mistakes of any of these kinds, any
number of times:
data of the wrong number of dimensions;
a batch with one label only;
a label vector with a single sample;
a batch although samples have been presented;
a sample of length neither `d` nor 1 for a cluster that exists. -/
inductive Session : Stream d → List Call → Stream d → Prop
  | nil (P) : Session P [] []
  | sample {P l S} (x : Pt d) (c : ℤ) : Session (P ++ [(x, c)]) l S → Session P (⟨.d1 (enc x), .int c⟩ :: l) ((x, c) :: S)
  | shape {P l S} (sh : List ℕ) (lab : LabelArg) : Session P l S → Session P (⟨.other sh, lab⟩ :: l) S
  | oneLabel {P l S} (a : Arr2) (lab : LabelArg) : lab.Trivial → Session P l S → Session P (⟨.d2 a, lab⟩ :: l) S
  | vector {P l S} (y : Vec) (ls : List ℤ) : Session P l S → Session P (⟨.d1 y, .arr ls⟩ :: l) S
  | late {P l S} (a : Arr2) (lab : LabelArg) : P ≠ [] → Session P l S → Session P (⟨.d2 a, lab⟩ :: l) S
  | length {P l S} (y : Vec) (c : ℤ) : d ≠ 1 → y.length ≠ d → y.length ≠ 1 → c ∈ labels P → Session P l S →
      Session P (⟨.d1 y, .int c⟩ :: l) S

theorem feed_append {M : Module} (l m : List (Vec × ℤ)) (o o' : Obj) (vs : List XR) (h : feed M l o = .ok vs o') :
    (feed M (l ++ m) o).state = (feed M m o').state := by
  induction l generalizing o vs with
  | nil =>
    obtain ⟨_, rfl⟩ : vs = [] ∧ o = o' := by simpa [feed] using h
    rfl
  | cons p l ih =>
    simp only [List.cons_append, feed, Py.bind_apply] at h ⊢
    cases hc : getCvi M (.d1 p.1) (.int p.2) o with
    | err e s => rw [hc] at h; simp at h
    | ok v s =>
      rw [hc, Res.bind_ok] at h
      rw [Res.bind_ok]
      cases hf : feed M l s with
      | err e s' => rw [hf] at h; simp at h
      | ok ws s' =>
        rw [hf] at h
        obtain rfl : s' = o' := congrArg Res.state h
        have := ih s ws hf
        rw [← this]
        cases feed M (l ++ m) s <;> rfl

/-- A sample presented to an object fed `P`. -/
theorem getCvi_objAfter {I : Index} (hd : DimOk I d) (P : Stream d) (x : Pt d) (c : ℤ) :
    getCvi I.mod (.d1 (enc x)) (.int c) (objAfter I P) = .ok (I.actual (P ++ [(x, c)])) (objAfter I (P ++ [(x, c)])) := by
  obtain ⟨o, h, _⟩ := (I.refines hd).run P
  have hP : objAfter I P = o := by rw [objAfter, h]; rfl
  obtain ⟨o2, h2, _⟩ := (I.refines hd).call (objAfter_inv hd P) x c
  have : objAfter I (P ++ [(x, c)]) = o2 := by
    rw [objAfter, encS, List.map_append, ← encS, ← encS]
    rw [feed_append _ _ _ o _ h, ← hP]
    simp only [encS, List.map_cons, List.map_nil, feed, Py.bind_apply, h2]
    rfl
  rw [h2, this]

theorem inits_tail_snoc {α : Type} (P : List α) (a : α) (S : List α) :
    ((a :: S).inits.tail.map fun Q => P ++ Q) = (P ++ [a]) :: S.inits.tail.map fun Q => (P ++ [a]) ++ Q := by
  simp
  cases S <;> simp

theorem objAfter_setInv {I : Index} (hd : DimOk I d) (P : Stream d) : SetInv (objAfter I P).core := by
  induction P using List.reverseRecOn with
  | nil => exact fresh_setInv I
  | append_singleton P p ih =>
    have := setInv_call (I := I) ⟨.d1 (enc p.1), .int p.2⟩ ih
    change SetInv (getCvi I.mod (.d1 (enc p.1)) (.int p.2) (objAfter I P)).state.core at this
    rwa [getCvi_objAfter hd] at this

theorem objAfter_isSet {I : Index} (hd : DimOk I d) {P : Stream d} (hP : P ≠ []) : IsSet (objAfter I P).core := by
  apply objAfter_setInv hd
  rw [(objAfter_tables hd P).2.2.1]
  simpa using hP

theorem session_step {I : Index} (hd : DimOk I d) {P S : Stream d} {calls : List Call} (h : Session P calls S) :
    after I.mod calls (objAfter I P) = objAfter I (P ++ S) ∧
    returnedValues (answers I.mod calls (objAfter I P)) = (S.inits.tail.map fun Q => P ++ Q).map I.actual := by
  have skip : ∀ {P S : Stream d} {call : Call} {l : List Call} {e : PyErr},
      getCvi I.mod call.data call.label (objAfter I P) = .err e (objAfter I P) →
      (after I.mod l (objAfter I P) = objAfter I (P ++ S) ∧
        returnedValues (answers I.mod l (objAfter I P)) = (S.inits.tail.map fun Q => P ++ Q).map I.actual) →
      after I.mod (call :: l) (objAfter I P) = objAfter I (P ++ S) ∧
        returnedValues (answers I.mod (call :: l) (objAfter I P)) = (S.inits.tail.map fun Q => P ++ Q).map I.actual := by
    intro P S call l e h1 h2
    simp only [after, answers, returnedValues, h1] at h2 ⊢
    exact h2
  induction h with
  | nil P => exact ⟨by rw [List.append_nil]; rfl, rfl⟩
  | sample x c _ ih =>
    rename_i P l S _
    have e := getCvi_objAfter hd P x c
    obtain ⟨i1, i2⟩ := ih
    refine ⟨?_, ?_⟩
    · rw [after, e]
      change after I.mod l (objAfter I (P ++ [(x, c)])) = _
      simpa using i1
    · rw [inits_tail_snoc]
      simp only [answers, returnedValues, e] at i2 ⊢
      rw [List.map_cons, ← i2]
      rfl
  | shape sh lab _ ih => exact skip (C03_ndim I.mod sh lab _) ih
  | oneLabel a lab ht _ ih => exact skip (C04_one_label I.mod a lab ht _).1 ih
  | vector y ls _ ih =>
    rename_i P l S _
    refine skip (e := .typeError) ?_ ih
    rw [getCvi, Py.bind_apply]
    have : I.mod.update (.d1 y) (.arr ls) (objAfter I P) = .err .typeError (objAfter I P) := by
      simp [Module.update, Module.paramInc, concrete]
    rw [this]; rfl
  | late a lab hP _ ih =>
    rename_i P l S _
    refine skip (e := .valueError) ?_ ih
    have hs : (objAfter I P).core.isSetup = true := objAfter_isSet hd hP
    have : I.mod.update (.d2 a) lab (objAfter I P) = .err .valueError (objAfter I P) := by
      simp [Module.update, hs]
    rw [getCvi, Py.bind_apply, this]; rfl
  | length y c h1 h2 h3 hc _ ih =>
    rename_i P l S _
    have hP : P ≠ [] := by rintro rfl; simp [labels] at hc
    exact skip ((C08_partial I hd P hP y c h1 h2 h3).1 hc) ih

/-- **C59**: whatever such mistakes are made between the samples of a stream, the calls that return give exactly the values of the
stream presented without mistakes, and the object ends in exactly the same state. -/
theorem C59_session (I : Index) (hd : DimOk I d) (S : Stream d) (calls : List Call) (h : Session [] calls S) :
    after I.mod calls I.mod.fresh = objAfter I S ∧
    incRun I S = .ok (returnedValues (answers I.mod calls I.mod.fresh)) := by
  obtain ⟨h1, h2⟩ := session_step hd h
  refine ⟨h1, ?_⟩
  rw [incRun_actual hd]
  refine congrArg Except.ok ((Eq.trans h2 ?_).symm)
  rw [List.map_map]; rfl

/-- A session with four mistakes. -/
example (a : Arr2) : incRun .XB [((![0, 0] : Pt 2), 4), (![2, 1], 4)] = .ok (returnedValues (answers (Index.mod .XB)
    [⟨.d2 a, .arr [1, 1, 1]⟩, ⟨.other [], .int 4⟩, ⟨.d1 (enc ![0, 0]), .int 4⟩, ⟨.d1 [.fin 1, .nan, .fin 3], .int 4⟩,
      ⟨.d2 a, .arr [0, 1]⟩, ⟨.d1 (enc ![2, 1]), .int 4⟩] (Index.mod .XB).fresh)) :=
  (C59_session .XB (by simp [DimOk]) _ _
    (.oneLabel a _ (by simp [LabelArg.Trivial]) (.shape _ _ (.sample _ _ (.length _ _ (by simp) (by simp) (by simp)
      (by simp [labels]) (.late a _ (by simp) (.sample _ _ (.nil _)))))))).2

end Verif
