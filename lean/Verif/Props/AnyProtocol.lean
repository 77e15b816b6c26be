import Verif.Gen.Atomic
import Verif.Gen.Cents
import Verif.Props.Session

/-!
# C72: rejected calls, in every arithmetic
-/

namespace Verif.Gen
open Py

variable {F : Type} [Arith F] {d : ℕ}

theorem held_isSetup {I : Index} {S : Samples F} {s : Core F} (h : Held I d S s) : s.isSetup = true := by
  cases I with
  | CH => exact RepSep.toCommon h |>.isSetup
  | WB => exact RepSep.toCommon h |>.isSetup
  | XB => exact RepD.toCommon h |>.isSetup
  | DB => exact (RepDB.toRepD h).toCommon.isSetup
  | GD43 => exact RepD.toCommon h |>.isSetup
  | GD53 => exact RepD.toCommon h |>.isSetup
  | PS => exact RepPS.isSetup h
  | rCIP => exact (RepG.toMidG h).isSetup
  | cSIL => exact RepSil.isSetup h

/-- A sample of length neither `d` nor 1 given to an object with `d ≠ 1` features. -/
theorem bad_call {I : Index} (hi : I = .rCIP → InvShape F d) {S : Samples F} (hS : S.Dim d) (hne : S ≠ []) {vs : List F} {o : Obj F}
    (h : feed (mod F I) S (mod F I).fresh = .ok vs o) {y : Vec F} (c : ℤ) (h1 : d ≠ 1) (hy : y.length ≠ d) (hy1 : y.length ≠ 1) :
    getCvi (mod F I) (.d1 y) (.int c) o = .err .valueError ⟨mapOf (addKey (order S) c), o.core⟩ := by
  obtain ⟨hm, hR, _⟩ := after hi hS hne h
  have hb := incBody_atomic (i := (order S).idxOf c) hS hne hR h1 hy hy1
  have : (mod F I).update (.d1 y) (.int c) o = .err .valueError ⟨mapOf (addKey (order S) c), o.core⟩ := by
    simp [Module.update, Module.paramInc, concrete, onCore, hm, getInternalLabel_mapOf, hb, Res.mapState]
  rw [getCvi, bind_apply, this]
  rfl

/-- **C72**, one rejected call: after any stream of `d`-dimensional samples that raised nothing, in every arithmetic, a sample of length
neither `d` nor 1 raises ValueError.
With a label seen before, the object is left exactly as it was.
With a new label the attributes are left exactly as they were, and a correct sample with that label, given next, is treated
as if the rejected call had not been made. -/
theorem C72_rejected (I : Index) (hi : I = .rCIP → InvShape F d) (S : Samples F) (hS : S.Dim d) (hne : S ≠ []) {vs : List F} {o : Obj F}
    (h : feed (mod F I) S (mod F I).fresh = .ok vs o) (y : Vec F) (c : ℤ) (h1 : d ≠ 1) (hy : y.length ≠ d) (hy1 : y.length ≠ 1) :
    ((∃ x, (x, c) ∈ S) → getCvi (mod F I) (.d1 y) (.int c) o = .err .valueError o) ∧
    ((¬ ∃ x, (x, c) ∈ S) → ∃ o', getCvi (mod F I) (.d1 y) (.int c) o = .err .valueError o' ∧ o'.core = o.core ∧
      ∀ z : Vec F, getCvi (mod F I) (.d1 z) (.int c) o' = getCvi (mod F I) (.d1 z) (.int c) o) := by
  have hb := bad_call hi hS hne h c h1 hy hy1
  obtain ⟨hm, _, _⟩ := after hi hS hne h
  constructor
  · intro hc
    rw [hb, addKey_old ((mem_order S).mpr hc), ← hm]
  · intro hc
    have hk : c ∉ order S := fun h => hc ((mem_order S).mp h)
    refine ⟨_, hb, rfl, fun z => ?_⟩
    have : (mod F I).update (.d1 z) (.int c) ⟨mapOf (addKey (order S) c), o.core⟩ = (mod F I).update (.d1 z) (.int c) o := by
      simp only [Module.update, Module.paramInc, concrete, hm, getInternalLabel_mapOf]
      rw [addKey_new hk, idxOf_append_new hk, List.idxOf_eq_length hk, addKey_old (by simp)]
      simp
    rw [getCvi, bind_apply, this]
    rfl

omit [Arith F] in
theorem ok_of_val {σ α : Type} {r : Res σ α} {a : α} (h : r.val.toOption = some a) : r = .ok a r.state := by
  cases r with
  | ok b s => simp only [Res.val, Except.toOption, Option.some.injEq] at h; rw [h]; rfl
  | err e s => simp [Res.val, Except.toOption] at h

/-- The rejected sample is the second one. -/
example : ∃ o, (feed (mod Cents .WB) [([⟨10⟩, ⟨20⟩], 4)] (mod Cents .WB).fresh) = .ok [⟨0⟩] o ∧
    getCvi (mod Cents .WB) (.d1 [⟨1⟩, ⟨2⟩, ⟨3⟩]) (.int 4) o = .err .valueError o := by
  have h : (feed (mod Cents .WB) [([⟨10⟩, ⟨20⟩], 4)] (mod Cents .WB).fresh).val.toOption = some [⟨0⟩] := by decide +kernel
  refine ⟨_, ok_of_val h, ?_⟩
  exact (C72_rejected (d := 2) .WB (fun h => nomatch h) _ (by simp [Samples.Dim]) (by simp) (ok_of_val h) _ 4
    (by simp) (by simp) (by simp)).1 ⟨_, List.mem_cons_self⟩

/-- A session that, after the samples `P`, presents the samples of `S` and between them makes mistakes, any number of times:
data of the wrong number of dimensions;
a batch with one label only;
a label vector with a single sample;
a batch although samples have been presented;
a sample of length neither `d` nor 1 for a cluster that exists. -/
inductive Session (d : ℕ) : Samples F → List (Call F) → Samples F → Prop
  | nil (P) : Session d P [] []
  | sample {P l S} (x : Vec F) (c : ℤ) : x.length = d → Session d (P ++ [(x, c)]) l S → Session d P (⟨.d1 x, .int c⟩ :: l) ((x, c) :: S)
  | shape {P l S} (sh : List ℕ) (lab : LabelArg) : Session d P l S → Session d P (⟨.other sh, lab⟩ :: l) S
  | oneLabel {P l S} (a : Arr2 F) (lab : LabelArg) : lab.Trivial → Session d P l S → Session d P (⟨.d2 a, lab⟩ :: l) S
  | vector {P l S} (y : Vec F) (ls : List ℤ) : Session d P l S → Session d P (⟨.d1 y, .arr ls⟩ :: l) S
  | late {P l S} (a : Arr2 F) (lab : LabelArg) : P ≠ [] → Session d P l S → Session d P (⟨.d2 a, lab⟩ :: l) S
  | length {P l S} (y : Vec F) (c : ℤ) : d ≠ 1 → y.length ≠ d → y.length ≠ 1 → (∃ x, (x, c) ∈ P) → Session d P l S →
      Session d P (⟨.d1 y, .int c⟩ :: l) S

omit [Arith F] in
theorem feed_snoc {M : Module F} (l : Samples F) (x : Vec F) (c : ℤ) {o o1 o2 : Obj F} {vs : List F} {v : F}
    (h : feed M l o = .ok vs o1) (h2 : getCvi M (.d1 x) (.int c) o1 = .ok v o2) :
    feed M (l ++ [(x, c)]) o = .ok (vs ++ [v]) o2 := by
  induction l generalizing o vs with
  | nil =>
    obtain ⟨rfl, rfl⟩ : [] = vs ∧ o = o1 := by simpa [feed] using h
    simp [feed, h2]
  | cons p l ih =>
    simp only [List.cons_append, feed, bind_apply] at h ⊢
    cases hc : getCvi M (.d1 p.1) (.int p.2) o with
    | err e s => rw [hc] at h; simp at h
    | ok w s =>
      rw [hc, Res.bind_ok] at h
      rw [Res.bind_ok]
      cases hf : feed M l s with
      | err e s' => rw [hf] at h; simp at h
      | ok ws s' =>
        rw [hf] at h
        simp only [Res.bind_ok, pure_apply, Res.ok.injEq] at h
        obtain ⟨rfl, rfl⟩ := h
        rw [ih hf]; rfl

theorem session_step {I : Index} (hi : I = .rCIP → InvShape F d) {P S : Samples F} {calls : List (Call F)} (h : Session d P calls S)
    (hP : P.Dim d) {ws vs : List F} {o o' : Obj F} (h1 : feed (mod F I) P (mod F I).fresh = .ok ws o)
    (h2 : feed (mod F I) S o = .ok vs o') :
    Verif.after (mod F I) calls o = o' ∧ returnedValues (answers (mod F I) calls o) = vs := by
  have skip : ∀ {call : Call F} {l : List (Call F)} {e : PyErr} {o : Obj F},
      getCvi (mod F I) call.data call.label o = .err e o →
      (Verif.after (mod F I) l o = o' ∧ returnedValues (answers (mod F I) l o) = vs) →
      Verif.after (mod F I) (call :: l) o = o' ∧ returnedValues (answers (mod F I) (call :: l) o) = vs := by
    intro call l e o h1 h2
    simp only [Verif.after, answers, returnedValues, h1] at h2 ⊢
    exact h2
  induction h generalizing ws vs o with
  | nil P =>
    obtain ⟨rfl, rfl⟩ : [] = vs ∧ o = o' := by simpa [feed] using h2
    exact ⟨rfl, rfl⟩
  | sample x c hx _ ih =>
    rename_i P l S _
    rw [feed, bind_apply] at h2
    cases hc : getCvi (mod F I) (.d1 x) (.int c) o with
    | err e s => simp only [hc] at h2; cases h2
    | ok w s =>
      simp only [hc, Res.bind_ok, bind_apply] at h2
      cases hf : feed (mod F I) S s with
      | err e s' => rw [hf] at h2; cases h2
      | ok us s' =>
        rw [hf] at h2
        simp only [Res.bind_ok, pure_apply, Res.ok.injEq] at h2
        obtain ⟨rfl, rfl⟩ := h2
        obtain ⟨i1, i2⟩ := ih (hP.append hx) (feed_snoc P x c h1 hc) hf (fun h h' => by
          rename_i call l' e o2
          simp only [Verif.after, answers, returnedValues, h] at h' ⊢
          exact h')
        refine ⟨?_, ?_⟩
        · simp only [Verif.after, hc]; exact i1
        · simp only [answers, returnedValues, hc] at i2 ⊢
          rw [← i2]; rfl
  | shape sh lab _ ih => exact skip (C03_ndim (mod F I) sh lab _) (ih hP h1 h2 skip)
  | oneLabel a lab ht _ ih => exact skip (C04_one_label (mod F I) a lab ht _).1 (ih hP h1 h2 skip)
  | vector y ls _ ih =>
    refine skip (e := .typeError) ?_ (ih hP h1 h2 skip)
    have : (mod F I).update (.d1 y) (.arr ls) o = .err .typeError o := by
      simp [Module.update, Module.paramInc, concrete]
    rw [getCvi, bind_apply, this]; rfl
  | late a lab hne _ ih =>
    refine skip (e := .valueError) ?_ (ih hP h1 h2 skip)
    obtain ⟨_, hR, _⟩ := after hi hP hne h1
    have hs := held_isSetup hR
    have : (mod F I).update (.d2 a) lab o = .err .valueError o := by
      simp [Module.update, hs]
    rw [getCvi, bind_apply, this]; rfl
  | length y c g1 g2 g3 hc _ ih =>
    have hne : _ ≠ [] := List.ne_nil_of_mem hc.choose_spec
    exact skip ((C72_rejected I hi _ hP hne h1 y c g1 g2 g3).1 hc) (ih hP h1 h2 skip)

/-- **C72**: in every arithmetic, whatever such mistakes are made between the samples of a stream that by itself raises nothing, the calls
that return give exactly the values of the stream presented without mistakes, bit for bit, and the object ends in exactly
the same state. -/
theorem C72_session (I : Index) (hi : I = .rCIP → InvShape F d) (S : Samples F) (calls : List (Call F)) (h : Session d [] calls S)
    {vs : List F} {o : Obj F} (hf : feed (mod F I) S (mod F I).fresh = .ok vs o) :
    Verif.after (mod F I) calls (mod F I).fresh = o ∧ returnedValues (answers (mod F I) calls (mod F I).fresh) = vs :=
  session_step hi h (by simp [Samples.Dim]) (ws := []) rfl hf

/-- Five mistakes. -/
example (a : Arr2 Cents) : returnedValues (answers (mod Cents .XB)
    [⟨.d2 a, .arr [1, 1, 1]⟩, ⟨.other [], .int 4⟩, ⟨.d1 [⟨0⟩, ⟨0⟩], .int 4⟩, ⟨.d1 [⟨1⟩, ⟨2⟩, ⟨3⟩], .int 4⟩, ⟨.d1 [], .arr [3]⟩,
      ⟨.d2 a, .arr [0, 1]⟩, ⟨.d1 [⟨200⟩, ⟨100⟩], .int 4⟩, ⟨.d1 [⟨300⟩, ⟨300⟩], .int 5⟩] (mod Cents .XB).fresh) = [⟨0⟩, ⟨0⟩, ⟨8⟩] := by
  have h : (feed (mod Cents .XB) [([⟨0⟩, ⟨0⟩], 4), ([⟨200⟩, ⟨100⟩], 4), ([⟨300⟩, ⟨300⟩], 5)] (mod Cents .XB).fresh).val.toOption =
    some [⟨0⟩, ⟨0⟩, ⟨8⟩] := by decide +kernel
  have s : Session (F := Cents) 2 [] [⟨.d2 a, .arr [1, 1, 1]⟩, ⟨.other [], .int 4⟩, ⟨.d1 [⟨0⟩, ⟨0⟩], .int 4⟩,
      ⟨.d1 [⟨1⟩, ⟨2⟩, ⟨3⟩], .int 4⟩, ⟨.d1 [], .arr [3]⟩, ⟨.d2 a, .arr [0, 1]⟩, ⟨.d1 [⟨200⟩, ⟨100⟩], .int 4⟩,
      ⟨.d1 [⟨300⟩, ⟨300⟩], .int 5⟩] [([⟨0⟩, ⟨0⟩], 4), ([⟨200⟩, ⟨100⟩], 4), ([⟨300⟩, ⟨300⟩], 5)] :=
    .oneLabel a _ (by simp [LabelArg.Trivial]) (.shape _ _ (.sample _ _ rfl (.length _ _ (by simp) (by simp) (by simp)
      ⟨_, List.mem_cons_self⟩ (.vector _ _ (.late a _ (by simp) (.sample _ _ rfl (.sample _ _ rfl (.nil _))))))))
  exact (C72_session .XB (fun h => nomatch h) _ _ s (ok_of_val h)).2

/-! ## C05 and C37 in another arithmetic -/

/-- A call that raises OverflowError and is caught. -/
def overflowing : Call Cents := ⟨.d1 [⟨1⟩, ⟨2⟩, ⟨3⟩], .int 5⟩

example (a : Arr2 Cents) (label : LabelArg) :
    getCvi (mod Cents .rCIP) (.d2 a) label (Verif.after (mod Cents .rCIP) [overflowing] (mod Cents .rCIP).fresh) =
      .err .valueError (Verif.after (mod Cents .rCIP) [overflowing] (mod Cents .rCIP).fresh) :=
  C05_batch_once .rCIP [overflowing] ⟨overflowing, by simp, by simp [overflowing, Call.Updates]⟩ a label

example : ∃ e o', getCvi (mod Cents .DB) (.d1 [⟨1⟩]) (.int 6)
    (Verif.after (mod Cents .DB) [⟨.d1 [⟨1⟩, ⟨2⟩, ⟨3⟩], .int 5⟩] (mod Cents .DB).fresh) = .err e o' :=
  C37_partial .DB _ _ _ (by decide +kernel) (by decide +kernel) (.inr (by decide +kernel))

end Verif.Gen
