import Verif.Proofs.Keeps
import Verif.Proofs.Run
import Verif.Proofs.BatchShort
import Verif.Props.Demo

/-!
# C03, C04, C05, C07, C10, C39, C40: the calling protocol of `get_cvi`
-/

namespace Verif
open Spec Py

variable {d : ℕ}

/-- **C03**: data that is neither 1-D nor 2-D is refused by every class in every state and every arithmetic, without any effect. -/
theorem C03_ndim {F : Type} (M : Module F) (shape : List ℕ) (label : LabelArg) (o : Obj F) :
    getCvi M (.other shape) label o = .err .valueError o := rfl

example : (getCvi (Index.mod .CH) (.other [2, 3, 4]) (.arr [0, 1]) (Index.mod .CH).fresh).val = .error .valueError := by
  rw [C03_ndim]; rfl

/-- The label argument has fewer than two distinct values. -/
def LabelArg.Trivial : LabelArg → Prop
  | .int _ => True
  | .arr l => ∀ a ∈ l, ∀ b ∈ l, a = b

theorem numUnique_le_one {label : LabelArg} (h : label.Trivial) : ¬ label.numUnique > 1 := by
  cases label with
  | int c => simp [LabelArg.numUnique]
  | arr l =>
    simp only [LabelArg.numUnique, gt_iff_lt, not_lt]
    rw [← List.toFinset_card_of_nodup (List.nodup_dedup l), Finset.card_le_one]
    intro a ha b hb
    simp only [List.mem_toFinset, List.mem_dedup] at ha hb
    exact h a ha b hb

theorem one_lt_numUnique {label : LabelArg} (h : ¬ label.Trivial) : label.numUnique > 1 := by
  cases label with
  | int c => exact absurd trivial h
  | arr l =>
    simp only [LabelArg.Trivial, not_forall] at h
    obtain ⟨a, ha, b, hb, hab⟩ := h
    simp only [LabelArg.numUnique, gt_iff_lt]
    rw [← List.toFinset_card_of_nodup (List.nodup_dedup l), Finset.one_lt_card]
    exact ⟨a, by simpa using ha, b, by simpa using hb, hab⟩

/-- **C04**: a batch with fewer than two distinct labels is refused by every class in every state without any effect; in
particular everything done afterwards goes as if the call had not been made. -/
theorem C04_one_label {F : Type} (M : Module F) (a : Arr2 F) (label : LabelArg) (h : label.Trivial) (o : Obj F) :
    getCvi M (.d2 a) label o = .err .valueError o ∧
    ∀ calls : List (Call F), after M (⟨.d2 a, label⟩ :: calls) o = after M calls o := by
  have e : getCvi M (.d2 a) label o = .err .valueError o := by
    rw [getCvi, bind_apply]
    have : M.update (.d2 a) label o = .err .valueError o := by
      simp only [Module.update]
      split
      · rw [if_pos (numUnique_le_one h)]
      · rfl
    rw [this]; rfl
  refine ⟨e, fun calls => ?_⟩
  rw [after, e]; rfl

example : getCvi (Index.mod .PS) (.d2 (encRows [![(1 : ℝ)], ![2]])) (.arr [4, 4]) (Index.mod .PS).fresh =
    .err .valueError (Index.mod .PS).fresh :=
  (C04_one_label _ _ _ (by simp [LabelArg.Trivial]) _).1

/-! ## C05 -/

/-- A call that starts an update: a single sample with an integer label, or a batch with two or more distinct labels. -/
def Call.Updates {F : Type} : Call F → Prop
  | ⟨.d1 _, .int _⟩ => True
  | ⟨.d2 _, .arr l⟩ => ∃ a ∈ l, ∃ b ∈ l, a ≠ b
  | _ => False

/-- A call that returns a value is one of these. -/
theorem Call.updates_of_ok {F : Type} {M : Module F} {c : Call F} {o o' : Obj F} {r : F} (h : getCvi M c.data c.label o = .ok r o') :
    c.Updates := by
  obtain ⟨data, label⟩ := c
  cases data with
  | other sh => rw [C03_ndim] at h; cases h
  | d1 x =>
    cases label with
    | int l => trivial
    | arr l =>
      have : M.update (.d1 x) (.arr l) o = .err (if M.abstract then .notImplementedError else .typeError) o := by
        simp only [Module.update, Module.paramInc]; split <;> rfl
      simp only [getCvi, bind_apply, this] at h
      cases h
  | d2 a =>
    by_cases ht : label.Trivial
    · simp only [(C04_one_label M a label ht o).1] at h; cases h
    · cases label with
      | int l => exact absurd trivial ht
      | arr l =>
        simp only [LabelArg.Trivial, not_forall] at ht
        obtain ⟨a, ha, b, hb, hab⟩ := ht
        exact ⟨a, ha, b, hb, hab⟩

namespace Gen
variable {F : Type} [Arith F]

/-- A call that does not start an update has no effect on the objects a program can get hold of. -/
theorem state_of_not_updates {I : Index} {c : Call F} (h : ¬ c.Updates) (o : Obj F) :
    (getCvi (mod F I) c.data c.label o).state = o := by
  obtain ⟨data, label⟩ := c
  cases data with
  | other sh => rw [C03_ndim]; rfl
  | d1 x =>
    cases label with
    | int l => exact absurd trivial h
    | arr l =>
      have : (mod F I).update (.d1 x) (.arr l) o = .err .typeError o := by
        simp [Module.update, Module.paramInc, concrete]
      simp [getCvi, bind_apply, this, Res.state]
  | d2 a =>
    have ht : label.Trivial := by
      cases label with
      | int l => trivial
      | arr l =>
        intro a ha b hb
        by_contra hab
        exact h ⟨a, ha, b, hb, hab⟩
    rw [(C04_one_label (mod F I) a label ht o).1]; rfl

omit [Arith F] in
theorem setInv_of_isSet {s : Core F} (h : IsSet s) : SetInv s := fun _ => h

theorem isSet_of_updates {I : Index} {c : Call F} (h : c.Updates) {o : Obj F} (ho : SetInv o.core) :
    IsSet (getCvi (mod F I) c.data c.label o).state.core := by
  obtain ⟨data, label⟩ := c
  apply isSet_getCvi
  cases data with
  | other sh => exact h.elim
  | d1 x =>
    cases label with
    | arr l => exact h.elim
    | int l =>
      simp only [Module.update, Module.paramInc, concrete, Bool.false_eq_true, if_false, onCore]
      have := ensures_incBody I x (o.labelMap.getInternalLabel l).1 o.core ho
      cases hr : (mod F I).incBody x (o.labelMap.getInternalLabel l).1 o.core <;> (rw [hr] at this; exact this)
  | d2 a =>
    cases label with
    | int l => exact h.elim
    | arr l =>
      have hu : LabelArg.numUnique (.arr l) > 1 := by
        apply one_lt_numUnique
        obtain ⟨a, ha, b, hb, hab⟩ := h
        exact fun ht => hab (ht a ha b hb)
      simp only [Module.update]
      split
      · rw [concrete, if_neg (by simp)]
        have := ensures_paramBatch I a l o.core
        simp only [LabelArg.toList, onCore]
        cases hr : (mod F I).paramBatch a l o.core <;> (rw [hr] at this; exact this)
      · rename_i hs
        exact Bool.eq_true_of_not_eq_false hs

theorem setInv_call {I : Index} (c : Call F) {o : Obj F} (ho : SetInv o.core) :
    SetInv (getCvi (mod F I) c.data c.label o).state.core := by
  by_cases h : c.Updates
  · exact setInv_of_isSet (isSet_of_updates h ho)
  · rwa [state_of_not_updates h]

theorem isSet_call {I : Index} (c : Call F) {o : Obj F} (ho : IsSet o.core) :
    IsSet (getCvi (mod F I) c.data c.label o).state.core := by
  by_cases h : c.Updates
  · exact isSet_of_updates h (setInv_of_isSet ho)
  · rwa [state_of_not_updates h]

theorem isSet_after {I : Index} (calls : List (Call F)) {o : Obj F} (ho : SetInv o.core)
    (h : IsSet o.core ∨ ∃ c ∈ calls, c.Updates) : IsSet (after (mod F I) calls o).core := by
  induction calls generalizing o with
  | nil => exact h.resolve_right (by simp)
  | cons c calls ih =>
    rw [after]
    refine ih (setInv_call c ho) ?_
    rcases h with h | ⟨c', hc', hu⟩
    · exact .inl (isSet_call c h)
    · rcases List.mem_cons.1 hc' with rfl | hm
      · exact .inl (isSet_of_updates hu ho)
      · exact .inr ⟨c', hm, hu⟩

theorem fresh_setInv (I : Index) : SetInv (mod F I).fresh.core := by
  cases I <;> exact fun h => absurd rfl h

/-- **C05**, in every arithmetic: once any call has started an update (every call that returned a value did, see `Call.updates_of_ok`), whatever
else was called before or after it and whatever exceptions were caught, every 2-D call raises ValueError and leaves the
object unchanged. -/
theorem C05_batch_once (I : Index) (calls : List (Call F)) (h : ∃ c ∈ calls, c.Updates) (a : Arr2 F) (label : LabelArg) :
    getCvi (mod F I) (.d2 a) label (after (mod F I) calls (mod F I).fresh) = .err .valueError (after (mod F I) calls (mod F I).fresh) := by
  have hs : IsSet (after (mod F I) calls (mod F I).fresh).core := isSet_after calls (fresh_setInv I) (.inr h)
  rw [getCvi, bind_apply]
  have : (mod F I).update (.d2 a) label (after (mod F I) calls (mod F I).fresh) = .err .valueError (after (mod F I) calls (mod F I).fresh) := by
    simp only [Module.update]
    rw [if_neg (by rw [show (after (mod F I) calls (mod F I).fresh).core.isSetup = true from hs]; simp)]
  rw [this]; rfl

/-- Conversely a history without such a call leaves the object as constructed. -/
theorem C05_converse (I : Index) (calls : List (Call F)) (h : ∀ c ∈ calls, ¬ c.Updates) :
    after (mod F I) calls (mod F I).fresh = (mod F I).fresh := by
  suffices ∀ o, after (mod F I) calls o = o from this _
  induction calls with
  | nil => exact fun _ => rfl
  | cons c calls ih =>
    intro o
    rw [after, state_of_not_updates (h c (by simp)), ih fun c hc => h c (by simp [hc])]

end Gen

theorem setInv_of_isSet {s : Core} (h : IsSet s) : SetInv s := fun _ => h

theorem setInv_call {I : Index} (c : Call) {o : Obj} (ho : SetInv o.core) :
    SetInv (getCvi I.mod c.data c.label o).state.core := by
  rw [← Gen.mod_XR]; exact Gen.setInv_call c ho

theorem fresh_setInv (I : Index) : SetInv I.mod.fresh.core := by rw [← Gen.mod_XR]; exact Gen.fresh_setInv I

theorem state_of_not_updates {I : Index} {c : Call} (h : ¬ c.Updates) (o : Obj) :
    (getCvi I.mod c.data c.label o).state = o := by
  rw [← Gen.mod_XR]; exact Gen.state_of_not_updates h o

theorem isSet_of_updates {I : Index} {c : Call} (h : c.Updates) {o : Obj} (ho : SetInv o.core) :
    IsSet (getCvi I.mod c.data c.label o).state.core := by
  rw [← Gen.mod_XR]; exact Gen.isSet_of_updates h ho

theorem isSet_call {I : Index} (c : Call) {o : Obj} (ho : IsSet o.core) :
    IsSet (getCvi I.mod c.data c.label o).state.core := by
  rw [← Gen.mod_XR]; exact Gen.isSet_call c ho

/-- **C05**: once any call has started an update (every call that returned a value did, see `Call.updates_of_ok`), whatever
else was called before or after it and whatever exceptions were caught, every 2-D call raises ValueError and leaves the
object unchanged. -/
theorem C05_batch_once (I : Index) (calls : List Call) (h : ∃ c ∈ calls, c.Updates) (a : Arr2) (label : LabelArg) :
    getCvi I.mod (.d2 a) label (after I.mod calls I.mod.fresh) = .err .valueError (after I.mod calls I.mod.fresh) := by
  rw [← Gen.mod_XR]; exact Gen.C05_batch_once I calls h a label

/-- Conversely a history without such a call leaves the object as constructed. -/
theorem C05_converse (I : Index) (calls : List Call) (h : ∀ c ∈ calls, ¬ c.Updates) :
    after I.mod calls I.mod.fresh = I.mod.fresh := by
  rw [← Gen.mod_XR]; exact Gen.C05_converse I calls h

example (a : Arr2) (label : LabelArg) :
    (getCvi (Index.mod .GD43) (.d2 a) label
      (after (Index.mod .GD43) [⟨.d1 (enc ![(1 : ℝ), 2]), .int 5⟩] (Index.mod .GD43).fresh)).val = .error .valueError := by
  rw [C05_batch_once _ _ ⟨⟨.d1 (enc ![(1 : ℝ), 2]), .int 5⟩, List.mem_singleton_self _, trivial⟩]; rfl

/-- **C07**: what `get_cvi` returns is the `criterion_value` attribute afterwards. -/
theorem C07_returned_value {F : Type} (M : Module F) (data : Data F) (label : LabelArg) (o o' : Obj F) (r : F)
    (h : getCvi M data label o = .ok r o') : r = o'.core.criterion := by
  rw [getCvi, bind_apply] at h
  cases hu : M.update data label o with
  | err e s => rw [hu] at h; cases h
  | ok a s =>
    rw [hu, Res.bind_ok, bind_apply] at h
    cases he : onCore M.evaluate s with
    | err e s' => rw [he] at h; cases h
    | ok b s' =>
      rw [he] at h
      injection h with h1 h2
      rw [← h1, ← h2]

example : ∃ o', getCvi (Index.mod .CH) (.d2 (encRows (demo.map Prod.fst))) (.arr (demo.map Prod.snd)) (Index.mod .CH).fresh =
    .ok (.fin (16 / 3)) o' ∧ o'.core.criterion = .fin (16 / 3) := by
  obtain ⟨o', h⟩ := CH.batch (fresh_notSetup .CH) demo_two demo_consecutive
  rw [demo_CH] at h
  exact ⟨o', h, (C07_returned_value _ _ _ _ _ _ h).symm⟩

/-! ## C10 -/

/-- **C10** is false for every class: a batch call that fails because there are more labels than rows (IndexError) spoils the
object: every later batch call, in particular the corrected one, raises ValueError. -/
theorem C10_false (I : Index) {a : Arr2} {l : List ℤ} (hd : DimOk I a.cols) (hu : ∃ b ∈ l, ∃ c ∈ l, b ≠ c)
    {t : ℕ} (hl : l[t]? = some 0) (ht : a.rows.length ≤ t) :
    ∃ o, getCvi I.mod (.d2 a) (.arr l) I.mod.fresh = .err .indexError o ∧
      ∀ a' l', getCvi I.mod (.d2 a') (.arr l') o = .err .valueError o := by
  obtain ⟨s', hs⟩ := paramBatch_fails I hd hl ht I.mod.fresh.core
  have hn : LabelArg.numUnique (.arr l) > 1 := by
    apply one_lt_numUnique
    obtain ⟨a, ha, b, hb, hab⟩ := hu
    exact fun ht => hab (ht a ha b hb)
  have hc : getCvi I.mod (.d2 a) (.arr l) I.mod.fresh = .err .indexError ⟨[], s'⟩ := by
    rw [getCvi, bind_apply]
    have : I.mod.update (.d2 a) (.arr l) I.mod.fresh = .err .indexError ⟨[], s'⟩ := by
      simp only [Module.update]
      rw [if_pos (fresh_notSetup I), if_neg (not_not.2 hn), concrete, if_neg (by simp), LabelArg.toList, onCore, hs]
      rfl
    rw [this]; rfl
  refine ⟨_, hc, fun a' l' => ?_⟩
  have h5 := C05_batch_once I [⟨.d2 a, .arr l⟩] ⟨_, List.mem_singleton_self _, hu⟩ a' (.arr l')
  simp only [after, hc, Res.state] at h5
  exact h5

/-- Two rows and the labels `0, 1, 0`; the corrected call on a fresh object would return. -/
example (I : Index) : (∃ o, getCvi I.mod (.d2 (encRows [![(1 : ℝ)], ![2]])) (.arr [0, 1, 0]) I.mod.fresh =
      .err .indexError o ∧
      getCvi I.mod (.d2 (encRows [![(1 : ℝ)], ![2], ![3]])) (.arr [0, 1, 0]) o = .err .valueError o) ∧
    ∃ v, batchRun I [(![(1 : ℝ)], 0), (![2], 1), (![3], 0)] = .ok v := by
  constructor
  · obtain ⟨o, h1, h2⟩ := C10_false I (a := encRows [![(1 : ℝ)], ![2]]) (l := [0, 1, 0]) (fun _ => Nat.one_pos)
      ⟨0, by simp, 1, by simp, by decide⟩ (t := 2) rfl (by simp [encRows])
    exact ⟨o, h1, h2 _ _⟩
  · refine ⟨_, batchRun_eq (fun _ => Nat.one_pos) ?_ ?_⟩
    · intro c
      have : labels ([(![(1 : ℝ)], 0), (![2], 1), (![3], 0)] : Stream 1) = {0, 1} := by ext; simp [labels, or_comm]
      rw [numClusters, this]; simp; omega
    · have : labels ([(![(1 : ℝ)], 0), (![2], 1), (![3], 0)] : Stream 1) = {0, 1} := by ext; simp [labels, or_comm]
      rw [numClusters, this]; rfl

/-- **C10**, part that holds: a batch call refused because of its labels leaves a fresh object usable. -/
theorem C10_partial (I : Index) (hd : DimOk I d) (a : Arr2) (label : LabelArg) (h : label.Trivial) (S : Stream d)
    (hS : Consecutive S) (hk : 2 ≤ numClusters S) :
    (getCvi I.mod (.d2 (encRows (S.map Prod.fst))) (.arr (S.map Prod.snd))
      (getCvi I.mod (.d2 a) label I.mod.fresh).state).val = .ok (Spec.value I S) := by
  rw [(C04_one_label I.mod a label h _).1]
  exact batchRun_eq hd hS hk

example : (getCvi (Index.mod .CH) (.d2 (encRows (demo.map Prod.fst))) (.arr (demo.map Prod.snd))
    (getCvi (Index.mod .CH) (.d2 (encRows (demo.map Prod.fst))) (.arr [0, 0]) (Index.mod .CH).fresh).state).val =
    .ok (.fin (16 / 3)) := by
  rw [C10_partial .CH (by simp [DimOk]) _ _ (by simp [LabelArg.Trivial]) demo demo_consecutive demo_two]
  exact congrArg _ demo_CH

/-! ## C39, C40 -/

/-- **C39**: the base class never returns a value and never changes; it raises NotImplementedError for single samples and for
batches with two labels, and ValueError in the other cases. -/
theorem C39_base_abstract (data : Data) (label : LabelArg) :
    ∃ e, getCvi BaseCVI data label BaseCVI.fresh = .err e BaseCVI.fresh ∧
      (e = .notImplementedError ↔ (∃ x, data = .d1 x) ∨ ∃ a, data = .d2 a ∧ ¬ label.Trivial) ∧
      (e ≠ .notImplementedError → e = .valueError) := by
  cases data with
  | other sh => exact ⟨.valueError, C03_ndim .., by simp, fun _ => rfl⟩
  | d1 x =>
    refine ⟨.notImplementedError, rfl, by simp, fun h => absurd rfl h⟩
  | d2 a =>
    by_cases ht : label.Trivial
    · exact ⟨.valueError, (C04_one_label _ a label ht _).1, by simp [ht], fun _ => rfl⟩
    · refine ⟨.notImplementedError, ?_, by simp [ht], fun h => absurd rfl h⟩
      have : BaseCVI.update (.d2 a) label BaseCVI.fresh = .err .notImplementedError BaseCVI.fresh := by
        simp only [Module.update]
        rw [if_pos (show BaseCVI.fresh.core.isSetup = false from rfl), if_neg (not_not.2 (one_lt_numUnique ht)),
          if_pos (show BaseCVI.abstract = true from rfl)]
      rw [getCvi, bind_apply, this]; rfl

example : ∃ e, getCvi BaseCVI (.d2 (encRows (demo.map Prod.fst))) (.arr [0, 0, 1]) BaseCVI.fresh = .err e BaseCVI.fresh ∧
    e = .notImplementedError := by
  obtain ⟨e, h1, h2, _⟩ := C39_base_abstract (.d2 (encRows (demo.map Prod.fst))) (.arr [0, 0, 1])
  exact ⟨e, h1, h2.2 (.inr ⟨_, rfl, by simp [LabelArg.Trivial]⟩)⟩

/-- **C40** is false: without a docstring (every function under `python -OO`) `_add_docs` raises TypeError, so importing the
package fails there. -/
theorem C40_false (extra : String) (f : ℕ) : addDocs extra ⟨f, none⟩ = .error .typeError := rfl

/-- **C40**, part that holds: a function with a docstring is returned itself, with the text appended. -/
theorem C40_partial (extra : String) (f : PyFunc) (doc : String) (h : f.doc = some doc) :
    ∃ g, addDocs extra f = .ok g ∧ g.ident = f.ident ∧ ∃ t, g.doc = some t ∧ t.toList = doc.toList ++ extra.toList := by
  refine ⟨{ f with doc := some (doc ++ extra) }, by rw [addDocs, h], rfl, _, rfl, ?_⟩
  simp

example : ∃ g, addDocs "b" ⟨3, some "a"⟩ = .ok g ∧ g.ident = 3 ∧ ∃ t, g.doc = some t ∧ t.toList = ['a', 'b'] :=
  C40_partial "b" ⟨3, some "a"⟩ "a" rfl

end Verif
