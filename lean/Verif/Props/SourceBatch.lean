import Verif.Source.Session
import Verif.Props.SourceText
import Verif.Props.AnyArithBatch

/-!
# C98: the text of the package in batch mode, and any sequence of calls

`runCalls K I S` runs the embedded text: construct an object of class `I`, then call `get_cvi(data, label)` for each pair of `S`, whatever
its kind — a sample with a label, a sample with a vector of labels, a matrix with labels, an array of another number of dimensions.
-/

namespace Verif.Source
open Gen

variable {F : Type} [Arith F] [Laws F] {d : ℕ}

/-- **C98** (one call in batch mode, all classes but rCIP): on any object whose counts are a list where the class is PS, the text called
with a rectangular matrix and any labels returns the value and leaves the object of the model, or raises the exception of the model. -/
theorem C98_batch (K : Lits F) (I : Index) (hI : I ≠ .rCIP) (a : Arr2 F) (ha : ∀ r ∈ a.rows, r.length = a.cols) (l : LabelArg) (o : Obj F)
    (ho : I = .PS → o.core.n.isArr = false) :
    match getCvi (mod F I) (.d2 a) l o with
    | .ok y o' => runGetCvi K I (.d2 a) l o = .ok (.flt y) o'
    | .err e _ => ∃ o', runGetCvi K I (.d2 a) l o = .err e o' := by
  have h := batch_call_same K I hI a ha l o (fun h => ho (h.resolve_right hI))
  cases hf : getCvi (mod F I) (.d2 a) l o with
  | ok y o' => rw [hf] at h; exact h
  | err e o' => rw [hf] at h; exact h

/-- **C98** (one call, every class): the same for `data` of any kind; for cSIL and rCIP the exceptions may differ. -/
theorem C98_call (K : Lits F) (I : Index) (hK : I = .rCIP → LitLaws K) (data : Data F) (hd : Sound data) (l : LabelArg) (o : Obj F)
    (ho : I = .PS ∨ I = .rCIP → o.core.n.isArr = false) :
    match getCvi (mod F I) data l o with
    | .ok y o' => runGetCvi K I data l o = .ok (.flt y) o'
    | .err _ _ => ∃ e o', runGetCvi K I data l o = .err e o' := by
  have h := call_agree K I hK data hd l o ho
  cases hf : getCvi (mod F I) data l o with
  | ok y o' => rw [hf] at h; exact h
  | err e o' => rw [hf] at h; exact h

/-- **C98** (any calls, all classes but cSIL and rCIP): the text returns the values the model returns, or stops at the exception at which
the model stops. -/
theorem C98_calls (K : Lits F) (I : Index) (h1 : I ≠ .cSIL) (h2 : I ≠ .rCIP) (S : List (Data F × LabelArg)) (hS : ∀ p ∈ S, Sound p.1)
    (m : LabelMap) (s : Core F) :
    (runCalls K I S ⟨m, blank I s⟩).val = (calls (mod F I) S (mod F I).fresh).val.map fun ys => ys.map Val.flt := by
  rw [runCalls_eq]
  exact same_val (calls_same K I h1 h2 S hS _ (counted_fresh I))

/-- **C98** (any calls, every class): if the model returns values, the text returns the same and leaves the same object; if the model raises
then the text raises. -/
theorem C98_calls_agree (K : Lits F) (I : Index) (hK : I = .rCIP → LitLaws K) (S : List (Data F × LabelArg)) (hS : ∀ p ∈ S, Sound p.1)
    (m : LabelMap) (s : Core F) :
    match calls (mod F I) S (mod F I).fresh with
    | .ok ys o => runCalls K I S ⟨m, blank I s⟩ = .ok (ys.map .flt) o
    | .err _ _ => ∃ e o, runCalls K I S ⟨m, blank I s⟩ = .err e o := by
  have h := calls_agree K I hK S hS _ (counted_fresh I)
  rw [runCalls_eq]
  cases hf : calls (mod F I) S (mod F I).fresh with
  | ok ys o => rw [hf] at h; exact h
  | err e o => rw [hf] at h; exact h

/-! ## Which value -/

/-- The text called once, on the rows of `S` with their labels followed by rows `E` without. -/
def textBatch (K : Lits F) (d : ℕ) (I : Index) (S : Samples F) (E : List (List F)) : Py (Obj F) (List (Val F)) :=
  runCalls K I [(.d2 ⟨d, allRows S E⟩, .arr (S.map Prod.snd))]

omit [Laws F] in
theorem allRows_dim {S : Samples F} {E : List (List F)} (hS : S.Dim d) (hE : ∀ x ∈ E, x.length = d) :
    WellFormed (⟨d, allRows S E⟩ : Arr2 F) := by
  intro r hr
  rcases List.mem_append.mp hr with hr | hr
  · obtain ⟨p, hp, rfl⟩ := List.mem_map.mp hr
    exact hS p hp
  · exact hE r hr

theorem textBatch_eq (K : Lits F) (I : Index) (S : Samples F) (E : List (List F)) (m : LabelMap) (s : Core F) :
    (textBatch K d I S E ⟨m, blank I s⟩).val =
      (runGetCvi K I (.d2 ⟨d, allRows S E⟩) (.arr (S.map Prod.snd)) (mod F I).fresh).val.map fun v => [v] := by
  rw [textBatch, runCalls_eq]
  simp only [callsSrc, Py.bind_apply, Py.pure_apply]
  cases runGetCvi K I (.d2 ⟨d, allRows S E⟩) (.arr (S.map Prod.snd)) (mod F I).fresh <;> rfl

theorem fresh_isSetup (I : Index) : (mod F I).fresh.core.isSetup = false := by cases I <;> rfl

/-- **C98** (all classes but rCIP): the text, run on rows with the same number of features under at least two labels, raises nothing and
returns the value of the specification of C70.  PS needs a row with a label among `0 … k-1`. -/
theorem C98_values (K : Lits F) (I : Index) (hI : I ≠ .rCIP) (S : Samples F) (E : List (List F)) (hS : S.Dim d) (hE : ∀ x ∈ E, x.length = d)
    (hk : 1 < (order S).length) (hp : I = .PS → ∃ i < (order S).length, ∃ x, (x, (i : ℤ)) ∈ S) (m : LabelMap) (s : Core F) :
    (textBatch K d I S E ⟨m, blank I s⟩).val = .ok [.flt (Batch.value d (order S).length (part S) (allRows S E) I)] := by
  obtain ⟨c, h, -⟩ := C70_batch I hI S E hS hE hk hp (mod F I).fresh (fresh_isSetup I)
  have hc := C98_batch K I hI ⟨d, allRows S E⟩ (allRows_dim hS hE) (.arr (S.map Prod.snd)) (mod F I).fresh
    (fun h => counted_fresh I (.inl h))
  rw [batchCall] at h
  rw [h] at hc
  rw [textBatch_eq, hc]
  rfl

/-- **C98** (PS): if no label is among `0 … k-1`, the text of PS raises ZeroDivisionError. -/
theorem C98_PS_raises (K : Lits F) (S : Samples F) (E : List (List F)) (hS : S.Dim d) (hE : ∀ x ∈ E, x.length = d)
    (hk : 1 < (order S).length) (hp : ∀ i < (order S).length, ∀ x, (x, (i : ℤ)) ∉ S) (m : LabelMap) (s : Core F) :
    (textBatch K d .PS S E ⟨m, blank .PS s⟩).val = .error .zeroDivisionError := by
  have h := C70_PS_raises S E hS hE hk hp (mod F .PS).fresh rfl
  have hc := C98_batch K .PS (by decide) ⟨d, allRows S E⟩ (allRows_dim hS hE) (.arr (S.map Prod.snd)) (mod F .PS).fresh
    (fun h => counted_fresh _ (.inl h))
  rw [batchCall] at h
  rw [textBatch_eq]
  cases hg : getCvi (mod F .PS) (.d2 ⟨d, allRows S E⟩) (.arr (S.map Prod.snd)) (mod F .PS).fresh with
  | ok y o => rw [hg] at h; cases h
  | err e o =>
    rw [hg] at h hc
    cases h
    obtain ⟨o', hc⟩ := hc
    rw [hc]; rfl

/-- **C98** (rCIP): the text returns a value of the specification of C70, or an exception of the libraries stops it. -/
theorem C98_rCIP (K : Lits F) (hK : LitLaws K) (hi : InvShape F d) (S : Samples F) (E : List (List F)) (hS : S.Dim d)
    (hE : ∀ x ∈ E, x.length = d) (hk : 1 < (order S).length) (m : LabelMap) (s : Core F) :
    (∃ r, (textBatch K d .rCIP S E ⟨m, blank .rCIP s⟩).val = .ok [.flt r] ∧
      Batch.Returns d (order S).length (part S) (allRows S E) .rCIP r) ∨
    (∃ e, (textBatch K d .rCIP S E ⟨m, blank .rCIP s⟩).val = .error e) ∧
      ∃ e, LibRaises d (Batch.Summed d (order S).length (part S)) e := by
  have hc := C98_call K .rCIP (fun _ => hK) (.d2 ⟨d, allRows S E⟩) (allRows_dim hS hE) (.arr (S.map Prod.snd)) (mod F .rCIP).fresh
    (counted_fresh _)
  rw [textBatch_eq]
  rcases C70_rCIP hi S E hS hE hk (mod F .rCIP).fresh rfl with ⟨r, c, h, hr, -⟩ | ⟨e, h, hl, -⟩
  · rw [batchCall] at h
    rw [h] at hc
    exact .inl ⟨r, by rw [hc]; rfl, hr⟩
  · refine .inr ⟨?_, e, hl⟩
    rw [batchCall] at h
    cases hg : getCvi (mod F .rCIP) (.d2 ⟨d, allRows S E⟩) (.arr (S.map Prod.snd)) (mod F .rCIP).fresh with
    | ok y o => rw [hg] at h; cases h
    | err e' o =>
      rw [hg] at hc
      obtain ⟨e2, o2, hc⟩ := hc
      exact ⟨e2, by rw [hc]; rfl⟩

/-- **C98** (binary64): the text run in IEEE 754 double precision, with any library, returns bit for bit the value of C70. -/
theorem C98_binary64 (L : Lib) (K : Lits (F64 L)) (I : Index) (hI : I ≠ .rCIP) (S : Samples (F64 L)) (E : List (List (F64 L)))
    (hS : S.Dim d) (hE : ∀ x ∈ E, x.length = d) (hk : 1 < (order S).length)
    (hp : I = .PS → ∃ i < (order S).length, ∃ x, (x, (i : ℤ)) ∈ S) (m : LabelMap) (s : Core (F64 L)) :
    (textBatch K d I S E ⟨m, blank I s⟩).val = .ok [.flt (Batch.value d (order S).length (part S) (allRows S E) I)] :=
  C98_values K I hI S E hS hE hk hp m s

/-- **C98** (reals): over the extended reals the text returns what the theorems about `batchRun` say. -/
theorem C98_reals (K : Lits XR) (I : Index) (hK : I = .rCIP → LitLaws K) (S : Spec.Stream d) (m : LabelMap) (s : Core XR) {v : XR}
    (h : batchRun I S = .ok v) :
    (runCalls K I [(.d2 (encRows (S.map Prod.fst)), .arr (S.map Prod.snd))] ⟨m, blank I s⟩).val = .ok [.flt v] := by
  have hc := C98_call K I hK (.d2 (encRows (S.map Prod.fst))) (by
    intro r hr
    obtain ⟨x, -, rfl⟩ := List.mem_map.mp hr
    simp [enc, encRows]) (.arr (S.map Prod.snd)) (mod XR I).fresh (counted_fresh I)
  unfold batchRun at h
  rw [← mod_XR] at h
  rw [runCalls_eq]
  simp only [callsSrc, Py.bind_apply, Py.pure_apply]
  cases hf : getCvi (mod XR I) (.d2 (encRows (S.map Prod.fst))) (.arr (S.map Prod.snd)) (mod XR I).fresh with
  | ok y o =>
    rw [hf] at h hc
    cases h
    rw [hc]; rfl
  | err e o => rw [hf] at h; cases h

/-! ## Concrete runs of the text -/

/-- The value the text returns on `batchSample` with one row without label. -/
def textCents (I : Index) : Option (List (Option Cents)) :=
  (textBatch centsLits 1 I batchSample [[⟨300⟩]] ⟨[], blank I Gen.init⟩).val.toOption.map fun l => l.map Val.num

/-- The value the model returns. -/
def modelCents (I : Index) : Option (List (Option Cents)) :=
  (batchCall 1 I batchSample [[⟨300⟩]] (mod Cents I).fresh).val.toOption.map fun y => [some y]

example : textCents .CH = some [some ⟨2088⟩] := by decide +kernel
example : ∀ I ∈ [Index.CH, .WB, .XB, .DB, .GD43, .GD53, .PS, .rCIP, .cSIL], textCents I = modelCents I ∧ modelCents I ≠ Option.none := by
  decide +kernel

/-- No label among `0, 1`. -/
example : (textBatch centsLits 1 .PS [([⟨0⟩], 7), ([⟨500⟩], -1)] [] ⟨[], blank .PS Gen.init⟩).val = .error .zeroDivisionError :=
  C98_PS_raises centsLits [([⟨0⟩], 7), ([⟨500⟩], -1)] _ (dim_of_all (by decide)) (by simp) (by decide) (by
    intro i hi x hx
    have hi : i < 2 := hi
    simp only [List.mem_cons, Prod.mk.injEq, List.not_mem_nil, or_false] at hx
    omega) _ _

/-- A matrix, then samples: the second call goes on from the state the batch left. -/
def mixed : List (Data Cents × LabelArg) :=
  [(.d2 ⟨1, batchSample.map Prod.fst⟩, .arr (batchSample.map Prod.snd)), (.d1 [⟨150⟩], .int 0), (.d1 [⟨480⟩], .int 1)]

example : ∀ p ∈ mixed, Sound p.1 := by
  intro p hp
  simp only [mixed, List.mem_cons, List.not_mem_nil, or_false] at hp
  rcases hp with rfl | rfl | rfl
  · exact fun r hr => by revert r; decide
  · trivial
  · trivial

/-- What the text returns on `mixed`, if nothing raises. -/
def textMixed (I : Index) : Option (List (Option Cents)) :=
  (runCalls centsLits I mixed ⟨[], blank I Gen.init⟩).val.toOption.map fun l => l.map Val.num

example : textMixed .DB = some [some ⟨46⟩, some ⟨30⟩, some ⟨30⟩] := by decide +kernel
example : textMixed .rCIP = some [some ⟨-3735⟩, some ⟨-3805⟩, some ⟨-6526⟩] := by decide +kernel

/-- `CH` cannot go on: a batch leaves `_G` without rows, and the next sample of cluster `0` reads one. -/
example : textMixed .CH = Option.none := by decide +kernel

end Verif.Source
