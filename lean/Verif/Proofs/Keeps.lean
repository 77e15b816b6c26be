import Verif.Gen.Link

/-!
# Properties of the object kept by a method, however it ends
-/

namespace Verif
open Py

variable {σ α β : Type} {F : Type}

/-- The method keeps `P`, whether it returns or raises. -/
def Keeps (P : σ → Prop) (x : Py σ α) : Prop := ∀ s, P s → P (x s).state

theorem keeps_pure {P : σ → Prop} (a : α) : Keeps P (pure a : Py σ α) := fun _ h => h
theorem keeps_get {P : σ → Prop} : Keeps P (Py.get : Py σ σ) := fun _ h => h
theorem keeps_raise {P : σ → Prop} (e : PyErr) : Keeps P (Py.raise e : Py σ α) := fun _ h => h
theorem keeps_lift {P : σ → Prop} (x : Except PyErr α) : Keeps P (Py.lift x : Py σ α) := by
  intro s h; cases x <;> exact h
theorem keeps_modify {P : σ → Prop} {f : σ → σ} (hf : ∀ s, P s → P (f s)) : Keeps P (Py.modify f) := fun s h => hf s h
theorem keeps_bind {P : σ → Prop} {x : Py σ α} {f : α → Py σ β} (hx : Keeps P x) (hf : ∀ a, Keeps P (f a)) :
    Keeps P (x >>= f) := by
  intro s h
  rw [bind_apply]
  have := hx s h
  cases hr : x s with
  | ok a s' => rw [hr] at this; exact hf a s' this
  | err e s' => rw [hr] at this; exact this
theorem keeps_ite {P : σ → Prop} {c : Prop} [Decidable c] {x y : Py σ α} (hx : Keeps P x) (hy : Keeps P y) :
    Keeps P (if c then x else y) := by split <;> assumption
theorem keeps_forEach {ι : Type} {P : σ → Prop} {l : List ι} {b : ι → Py σ Unit} (h : ∀ i, Keeps P (b i)) :
    Keeps P (Py.forEach l b) := by
  induction l with
  | nil => exact keeps_pure ()
  | cons i l ih => exact keeps_bind (h i) fun _ => ih

/-- `_is_setup` is true. -/
def IsSet (s : Core F) : Prop := s.isSetup = true

/-- Decompose a method into its statements; every assignment leaves `_is_setup` alone or sets it. -/
macro "keeps_set" : tactic => `(tactic|
  repeat' first
    | with_reducible exact keeps_get
    | with_reducible exact keeps_lift _
    | with_reducible exact keeps_raise _
    | with_reducible exact keeps_pure _
    | exact keeps_modify fun _ h => h
    | exact keeps_modify fun _ _ => rfl
    | with_reducible apply keeps_bind
    | with_reducible apply keeps_ite
    | with_reducible apply keeps_forEach
    | intro _)

theorem keeps_incClusters : Keeps IsSet (incClusters (F := F)) := by unfold incClusters; keeps_set
theorem keeps_appendN (x : ℕ) : Keeps IsSet (appendN (F := F) x) := by unfold appendN; keeps_set
theorem keeps_appendCP (x : F) : Keeps IsSet (appendCP x) := by unfold appendCP; keeps_set
theorem keeps_vstackV (x : Vec F) : Keeps IsSet (vstackV x) := by unfold vstackV; keeps_set
theorem keeps_vstackG (x : Vec F) : Keeps IsSet (vstackG x) := by unfold vstackG; keeps_set
theorem keeps_setN (i x : ℕ) : Keeps IsSet (setN (F := F) i x) := by unfold setN; keeps_set
theorem keeps_setV [Zero F] (i : ℕ) (x : Vec F) : Keeps IsSet (setV i x) := by unfold setV; keeps_set
theorem keeps_setCP (i : ℕ) (x : F) : Keeps IsSet (setCP i x) := by unfold setCP; keeps_set
theorem keeps_setG [Zero F] (i : ℕ) (x : Vec F) : Keeps IsSet (setG i x) := by unfold setG; keeps_set
theorem keeps_setD [Zero F] (i : ℕ) (x : Vec F) : Keeps IsSet (setD i x) := by unfold setD; keeps_set
theorem keeps_DB_appendS (x : F) : Keeps IsSet (DB.appendS x) := by unfold DB.appendS; keeps_set
theorem keeps_DB_setS (i : ℕ) (x : F) : Keeps IsSet (DB.setS i x) := by unfold DB.setS; keeps_set
theorem keeps_RCIP_dstackSigma (x : Arr2 F) : Keeps IsSet (RCIP.dstackSigma x) := by unfold RCIP.dstackSigma; keeps_set
theorem keeps_RCIP_setSigma [Zero F] (i : ℕ) (x : Arr2 F) : Keeps IsSet (RCIP.setSigma i x) := by unfold RCIP.setSigma; keeps_set
theorem keeps_CSIL_setS [Zero F] (i : ℕ) (c r : Vec F) : Keeps IsSet (CSIL.setS i c r) := by unfold CSIL.setS; keeps_set

/-- Like `keeps_set`, for methods using the shared statements. -/
macro "keeps_all" : tactic => `(tactic|
  repeat' first
    | with_reducible exact keeps_incClusters
    | with_reducible exact keeps_appendN _
    | with_reducible exact keeps_appendCP _
    | with_reducible exact keeps_vstackV _
    | with_reducible exact keeps_vstackG _
    | with_reducible exact keeps_setN _ _
    | with_reducible exact keeps_setV _ _
    | with_reducible exact keeps_setCP _ _
    | with_reducible exact keeps_setG _ _
    | with_reducible exact keeps_setD _ _
    | with_reducible exact keeps_DB_appendS _
    | with_reducible exact keeps_DB_setS _ _
    | with_reducible exact keeps_RCIP_dstackSigma _
    | with_reducible exact keeps_RCIP_setSigma _ _
    | with_reducible exact keeps_CSIL_setS _ _ _
    | with_reducible exact keeps_get
    | with_reducible exact keeps_lift _
    | with_reducible exact keeps_raise _
    | with_reducible exact keeps_pure _
    | with_reducible apply keeps_bind
    | with_reducible apply keeps_ite
    | with_reducible apply keeps_forEach
    | exact keeps_modify fun _ h => h
    | exact keeps_modify fun _ _ => rfl
    | intro _)

/-- The invariant: an object that has seen a sample is set up. -/
def SetInv (s : Core F) : Prop := s.nSamples ≠ 0 → s.isSetup = true

theorem ensures_bind {P Q : σ → Prop} {x : Py σ α} {f : α → Py σ β} (hx : ∀ s, P s → Q (x s).state)
    (hf : ∀ a, Keeps Q (f a)) : ∀ s, P s → Q ((x >>= f) s).state := by
  intro s h
  rw [bind_apply]
  have := hx s h
  cases hr : x s with
  | ok a s' => rw [hr] at this; exact hf a s' this
  | err e s' => rw [hr] at this; exact this

theorem ensures_get {P Q : σ → Prop} {f : σ → Py σ β} (hf : ∀ a s, P s → Q (f a s).state) :
    ∀ s, P s → Q ((Py.get >>= f) s).state := fun s h => hf s s h

namespace Gen
variable [Arith F]

/-- Every statement of `_evaluate` keeps `_is_setup`. -/
theorem keeps_evaluate (I : Index) : Keeps IsSet (mod F I).evaluate := by
  cases I
  · show Keeps IsSet (CH.evaluate (F := F)); unfold CH.evaluate; keeps_set
  · show Keeps IsSet (WB.evaluate (F := F)); unfold WB.evaluate; keeps_set
  · show Keeps IsSet (XB.evaluate (F := F)); unfold XB.evaluate; keeps_set
  · show Keeps IsSet (DB.evaluate (F := F)); unfold DB.evaluate; keeps_set
  · show Keeps IsSet (GD43.evaluate (F := F)); unfold GD43.evaluate; keeps_set
  · show Keeps IsSet (GD53.evaluate (F := F)); unfold GD53.evaluate; keeps_set
  · show Keeps IsSet (PS.evaluate (F := F)); unfold PS.evaluate; keeps_set
  · show Keeps IsSet (RCIP.evaluate (F := F)); unfold RCIP.evaluate; keeps_set
  · show Keeps IsSet (CSIL.evaluate (F := F)); unfold CSIL.evaluate; keeps_set

theorem ensures_setupOrMu {setupC : Vec F → Py (Core F) Unit} {x : Vec F} (h : ∀ s, IsSet (setupC x s).state) :
    ∀ s, SetInv s → IsSet (setupOrMu setupC x s).state := by
  intro s hs
  rw [setupOrMu, bind_apply, get_apply, Res.bind_ok]
  by_cases hn : s.nSamples = 0
  · rw [if_pos hn]; exact h s
  · rw [if_neg hn]
    have := hs hn
    exact (by keeps_set : Keeps IsSet (do
      let mu ← Py.lift (runningMean (s.nSamples + 1) s.mu x)
      Py.modify fun s => { s with mu := mu })) s this

omit [Arith F] in
theorem ensures_setupIfFirst {setupC : Vec F → Py (Core F) Unit} {x : Vec F} (h : ∀ s, IsSet (setupC x s).state) :
    ∀ s, SetInv s → IsSet (setupIfFirst setupC x s).state := by
  intro s hs
  rw [setupIfFirst, bind_apply, get_apply, Res.bind_ok]
  by_cases hn : s.nSamples = 0
  · rw [if_pos hn]; exact h s
  · rw [if_neg hn]; exact hs hn

theorem ensures_base {x : Vec F} : ∀ s, True → IsSet (Base.setup x s).state := fun _ _ => rfl

/-- After `_param_inc` the object is set up, whether it returned or raised. -/
theorem ensures_incBody (I : Index) (x : Vec F) (i : ℕ) : ∀ s, SetInv s → IsSet ((mod F I).incBody x i s).state := by
  cases I
  · refine ensures_get fun s0 => ensures_bind (ensures_setupOrMu fun s => ?_) fun _ => ?_
    · exact ensures_bind ensures_base (fun _ => by keeps_set) s trivial
    · unfold CH.incNew CH.incOld CH.finish; keeps_all
  · refine ensures_get fun s0 => ensures_bind (ensures_setupOrMu fun s => ?_) fun _ => ?_
    · exact ensures_bind ensures_base (fun _ => by keeps_set) s trivial
    · unfold WB.incNew WB.incOld WB.finish; keeps_all
  · refine ensures_get fun s0 => ensures_bind (ensures_setupOrMu fun s => ?_) fun _ => ?_
    · exact ensures_bind ensures_base (fun _ => by keeps_set) s trivial
    · unfold XB.incNew XB.incOld; keeps_all
  · refine ensures_get fun s0 => ensures_bind (ensures_setupOrMu fun s => ?_) fun _ => ?_
    · exact ensures_bind ensures_base (fun _ => by keeps_set) s trivial
    · unfold DB.incNew DB.incOld; keeps_all
  · refine ensures_get fun s0 => ensures_bind (ensures_setupOrMu fun s => ?_) fun _ => ?_
    · exact ensures_bind ensures_base (fun _ => by keeps_set) s trivial
    · unfold GD43.incNew GD43.incOld; keeps_all
  · refine ensures_get fun s0 => ensures_bind (ensures_setupOrMu fun s => ?_) fun _ => ?_
    · exact ensures_bind ensures_base (fun _ => by keeps_set) s trivial
    · unfold GD53.incNew GD53.incOld; keeps_all
  · refine ensures_get fun s0 => ensures_bind (ensures_setupIfFirst fun s => ?_) fun _ => ?_
    · exact ensures_bind ensures_base (fun _ => by keeps_set) s trivial
    · unfold PS.incNew PS.incOld; keeps_all
  · refine ensures_get fun s0 => ensures_bind (ensures_setupIfFirst fun s => ?_) fun _ => ?_
    · exact ensures_bind ensures_base (fun _ => by keeps_set) s trivial
    · unfold RCIP.incNew RCIP.incOld; keeps_all
  · refine ensures_get fun s0 => ensures_bind (ensures_setupIfFirst fun s => ?_) fun _ => ?_
    · rfl
    · unfold CSIL.incNew CSIL.incOld; keeps_all

omit [Arith F] in
theorem ensures_setupBatch {a : Arr2 F} : ∀ s, True → IsSet (Base.setupBatch a s).state := fun _ _ => rfl

/-- After `_param_batch` the object is set up, whether it returned or raised. -/
theorem ensures_paramBatch (I : Index) (a : Arr2 F) (l : List ℤ) (s : Core F) : IsSet ((mod F I).paramBatch a l s).state := by
  cases I
  · refine ensures_bind ensures_setupBatch (fun _ => ?_) s trivial
    unfold CH.batchStep; keeps_all
  · refine ensures_bind ensures_setupBatch (fun _ => ?_) s trivial
    unfold WB.batchStep; keeps_all
  · refine ensures_bind ensures_setupBatch (fun _ => ?_) s trivial
    unfold XB.batchStep; keeps_all
  · refine ensures_bind ensures_setupBatch (fun _ => ?_) s trivial
    unfold DB.batchStep; keeps_all
  · refine ensures_bind ensures_setupBatch (fun _ => ?_) s trivial
    unfold GD43.batchStep; keeps_all
  · refine ensures_bind ensures_setupBatch (fun _ => ?_) s trivial
    unfold GD53.batchStep; keeps_all
  · refine ensures_bind ensures_setupBatch (fun _ => ?_) s trivial
    unfold PS.batchStep; keeps_all
  · refine ensures_bind ensures_setupBatch (fun _ => ?_) s trivial
    unfold RCIP.batchStep; keeps_all
  · refine ensures_bind ensures_setupBatch (fun _ => ?_) s trivial
    unfold CSIL.batchStep; keeps_all

theorem concrete (I : Index) : (mod F I).abstract = false := by cases I <;> rfl

/-- If the parameter update leaves the object set up, so does the whole call. -/
theorem isSet_getCvi {I : Index} {data : Data F} {label : LabelArg} {o : Obj F}
    (h : IsSet ((mod F I).update data label o).state.core) : IsSet (getCvi (mod F I) data label o).state.core := by
  rw [getCvi, bind_apply]
  cases hr : (mod F I).update data label o with
  | err e s => rw [hr] at h; exact h
  | ok a s =>
    rw [hr] at h
    rw [Res.bind_ok, bind_apply, onCore]
    have := keeps_evaluate I s.core h
    cases he : (mod F I).evaluate s.core with
    | err e s' => rw [he] at this; exact this
    | ok b s' => rw [he] at this; exact this

end Gen

theorem concrete (I : Index) : I.mod.abstract = false := by cases I <;> rfl

end Verif
