import Verif.Props.SourceBatch
import Verif.Props.Labels
import Verif.Props.Values
import Verif.Props.BatchAccuracy
import Verif.Props.PSAccuracy
import Verif.Props.SilIncAccuracy

/-!
# C102: the text of the package returns the defined indices

C97 and C98 compare the interpreted source text with the model, C11–C19 and C77–C82 compare the model with the definitions of `Spec.lean`.
Here the model is left out: on the left of each statement there is the text, on the right the definition.
-/

namespace Verif.Source
open Gen

variable {d : ℕ}

/-- **C102** (exact arithmetic, incremental): after every sample of any stream the text returns the index of the samples so far. -/
theorem C102_incremental (I : Index) (hI : I ≠ .cSIL) (hd : DimOk I d) (S : Spec.Stream d) (m : LabelMap) (s : Core XR) :
    (runStream realLits I (encS S) ⟨m, blank I s⟩).val = .ok (S.inits.tail.map fun P => Val.flt (Spec.value I P)) := by
  rw [C97_reals realLits I (fun _ => realLits_laws) S m s (incRun_eq hI hd S), List.map_map]
  rfl

/-- The text called once, with the points of `S` as rows and their labels. -/
noncomputable def textOnce (I : Index) (S : Spec.Stream d) : Py (Obj XR) (List (Val XR)) :=
  runCalls realLits I [(.d2 (encRows (S.map Prod.fst)), .arr (S.map Prod.snd))]

/-- **C102** (exact arithmetic, batch): for labels `0 … k-1` with `k ≥ 2` the text returns the index of the data set; all nine classes. -/
theorem C102_batch (I : Index) (hd : DimOk I d) (S : Spec.Stream d) (hc : Spec.Consecutive S) (hk : 2 ≤ Spec.numClusters S) (m : LabelMap)
    (s : Core XR) : (textOnce I S ⟨m, blank I s⟩).val = .ok [.flt (Spec.value I S)] :=
  C98_reals realLits I (fun _ => realLits_laws) S m s (batchRun_eq hd hc hk)

/-- **C102** (cSIL): the text of cSIL contradicts itself.  On one data set it returns 0 in batch mode, which is the defined value, and ends
with -50 in incremental mode. -/
theorem C102_cSIL_false : ∃ S : Spec.Stream 1, Spec.Consecutive S ∧ 2 ≤ Spec.numClusters S ∧ Spec.value .cSIL S = .fin 0 ∧
    ∀ m s, (textOnce .cSIL S ⟨m, blank .cSIL s⟩).val = .ok [.flt (.fin 0)] ∧
      ∃ vs, (runStream realLits .cSIL (encS S) ⟨m, blank .cSIL s⟩).val = .ok (vs ++ [.flt (.fin (-50))]) := by
  obtain ⟨S, hc, hk, hb, hi⟩ := C19_incremental_false
  have hv : Spec.value .cSIL S = .fin 0 := by
    have h := batchRun_eq (I := .cSIL) (by simp [DimOk]) hc hk
    rw [hb] at h
    exact (Except.ok.inj h).symm
  refine ⟨S, hc, hk, hv, fun m s => ⟨?_, ?_⟩⟩
  · rw [C102_batch .cSIL (by simp [DimOk]) S hc hk m s, hv]
  · unfold incLast at hi
    cases hr : incRun .cSIL S with
    | error e => rw [hr] at hi; cases hi
    | ok vs =>
      rw [hr] at hi
      have hl : vs.getLast? = some (.fin (-50)) := Except.ok.inj hi
      obtain ⟨ws, rfl⟩ := List.getLast?_eq_some_iff.mp hl
      exact ⟨ws.map .flt, by rw [C97_reals realLits .cSIL (by simp) S m s hr, List.map_append]; rfl⟩

/-! ## Label values do not matter -/

theorem feed_rename {F : Type} (M : Module F) {f : ℤ → ℤ} (hf : Function.Injective f) (l : List (Vec F × ℤ)) (o : Obj F) :
    feed M (l.map fun p => (p.1, f p.2)) (o.rename f) = (feed M l o).mapState (Obj.rename f) := by
  induction l generalizing o with
  | nil => rfl
  | cons p l ih =>
    simp only [List.map_cons, feed, Py.bind_apply, Py.pure_apply, getCvi_rename M hf]
    cases getCvi M (.d1 p.1) (.int p.2) o with
    | err e o' => rfl
    | ok y o' =>
      simp only [Res.mapState, Res.bind, ih]
      cases feed M l o' <;> rfl

/-- **C102** (labels): replacing every label through an injective function changes nothing in the values the text returns, in any
arithmetic; and the text raises on one stream exactly if it raises on the other. -/
theorem C102_rename {F : Type} [Arith F] [Laws F] (K : Lits F) (I : Index) (hK : I = .rCIP → LitLaws K) {f : ℤ → ℤ}
    (hf : Function.Injective f) (S : List (Vec F × ℤ)) (m : LabelMap) (s : Core F) :
    (runStream K I (S.map fun p => (p.1, f p.2)) ⟨m, blank I s⟩).val.toOption = (runStream K I S ⟨m, blank I s⟩).val.toOption := by
  have h1 := C97_agree K I hK S m s
  have h2 := C97_agree K I hK (S.map fun p => (p.1, f p.2)) m s
  have h3 : feed (mod F I) (S.map fun p => (p.1, f p.2)) (mod F I).fresh = (feed (mod F I) S (mod F I).fresh).mapState (Obj.rename f) :=
    feed_rename (mod F I) hf S (mod F I).fresh
  rw [h3] at h2
  cases hr : feed (mod F I) S (mod F I).fresh with
  | ok ys o =>
    rw [hr] at h1 h2
    rw [h1, show runStream K I (S.map fun p => (p.1, f p.2)) ⟨m, blank I s⟩ = .ok (ys.map .flt) (o.rename f) from h2]
    rfl
  | err e o =>
    rw [hr] at h1 h2
    obtain ⟨e1, o1, h1⟩ := h1
    obtain ⟨e2, o2, h2⟩ := (show ∃ e o, runStream K I (S.map fun p => (p.1, f p.2)) ⟨m, blank I s⟩ = .err e o from h2)
    rw [h1, h2]
    rfl

/-! ## Double precision -/

section
variable {L : Lib} {M β κ : ℝ}

theorem text_of_feed {K : Lits (F64 L)} {I : Index} (hI : I ≠ .rCIP) {S : Samples (F64 L)} {vs : List (F64 L)} {r : F64 L}
    (h : (feed (mod (F64 L) I) S (mod (F64 L) I).fresh).val = .ok (vs ++ [r])) (m : LabelMap) (s : Core (F64 L)) :
    (runStream K I S ⟨m, blank I s⟩).val = .ok (vs.map .flt ++ [.flt r]) := by
  have ha := C97_agree K I (fun h => absurd h hI) S m s
  cases hf : feed (mod (F64 L) I) S (mod (F64 L) I).fresh with
  | ok ys o =>
    rw [hf] at ha h
    rw [ha, Except.ok.inj h, List.map_append]
    rfl
  | err e o => rw [hf] at h; cases h

theorem text_of_batch {K : Lits (F64 L)} {I : Index} (hI : I ≠ .rCIP) {S : Samples (F64 L)} (hS : S.Dim d) {r : F64 L} {o : Obj (F64 L)}
    (h : Gen.batchCall d I S [] (mod (F64 L) I).fresh = .ok r o) (m : LabelMap) (s : Core (F64 L)) :
    (textBatch K d I S [] ⟨m, blank I s⟩).val = .ok [.flt r] := by
  have hc := C98_batch K I hI ⟨d, allRows S []⟩ (allRows_dim hS (by simp)) (.arr (S.map Prod.snd)) (mod (F64 L) I).fresh
    (fun h => counted_fresh I (.inl h))
  rw [Gen.batchCall] at h
  rw [h] at hc
  rw [textBatch_eq, hc]
  rfl

/-- **C102** (binary64, six classes): under the conditions of C77 the last value the text returns, run in double precision, is the index of
the samples up to a relative error of `2 ^ -43 * d * n / β`. -/
theorem C102_close (hL : L.Dots d) (hs : L.Sums) (hd : 1 ≤ d) (K : Lits (F64 L)) (I : Index) (S : Samples (F64 L)) (hS : S.Dim d)
    (hN : d * S.length ≤ 2 ^ 44) (hM0 : (2 : ℝ) ^ (-400 : ℤ) ≤ M) (hM : M ≤ (2 : ℝ) ^ (450 : ℤ))
    (hx : ∀ p ∈ S, ∀ a ∈ p.1, B64.Fin a ∧ |B64.val a| ≤ M) (hk : 2 ≤ Spec.numClusters (real (F := F64 L) B64.val d S))
    (hβ : (2 : ℝ) ^ (-42 : ℤ) * (d * S.length) ≤ β) (hI : Separated β M I (real (F := F64 L) B64.val d S)) (m : LabelMap)
    (s : Core (F64 L)) :
    ∃ vs r y, (runStream K I S ⟨m, blank I s⟩).val = .ok (vs ++ [.flt r]) ∧ B64.Fin r ∧
      Spec.value I (real (F := F64 L) B64.val d S) = .fin y ∧ 0 < y ∧
      |B64.val r - y| ≤ (2 : ℝ) ^ (-43 : ℤ) * (d * S.length) / β * y := by
  obtain ⟨vs, r, y, h1, h2, h3, h4, h5⟩ := C77_binary64 hL hs hd I S hS hN hM0 hM hx hk hβ hI
  have hI' : I ≠ .rCIP := by rintro rfl; exact absurd hI.common (by simp [Common6])
  exact ⟨vs.map .flt, r, y, text_of_feed hI' h1 m s, h2, h3, h4, h5⟩

/-- **C102** (binary64, six classes, batch mode). -/
theorem C102_close_batch (hL : L.Dots d) (hs : L.Sums) (hb : L.BatchSums d) (hd : 1 ≤ d) (K : Lits (F64 L)) (I : Index)
    (S : Samples (F64 L)) (hS : S.Dim d) (hN : d * S.length ≤ 2 ^ 44) (hM0 : (2 : ℝ) ^ (-400 : ℤ) ≤ M) (hM : M ≤ (2 : ℝ) ^ (450 : ℤ))
    (hx : ∀ p ∈ S, ∀ a ∈ p.1, B64.Fin a ∧ |B64.val a| ≤ M) (hk : 2 ≤ Spec.numClusters (real (F := F64 L) B64.val d S))
    (hc : Spec.Consecutive (real (F := F64 L) B64.val d S)) (hβ : (2 : ℝ) ^ (-42 : ℤ) * (d * S.length) ≤ β)
    (hI : Separated β M I (real (F := F64 L) B64.val d S)) (m : LabelMap) (s : Core (F64 L)) :
    ∃ r y, (textBatch K d I S [] ⟨m, blank I s⟩).val = .ok [.flt r] ∧ B64.Fin r ∧
      Spec.value I (real (F := F64 L) B64.val d S) = .fin y ∧ 0 < y ∧
      |B64.val r - y| ≤ (2 : ℝ) ^ (-43 : ℤ) * (d * S.length) / β * y := by
  obtain ⟨r, s', y, h1, h2, h3, h4, h5⟩ := C79_batch64 hL hs hb hd I S hS hN hM0 hM hx hk hc hβ hI (mod (F64 L) I).fresh (fresh_isSetup I)
  have hI' : I ≠ .rCIP := by rintro rfl; exact absurd hI.common (by simp [Common6])
  exact ⟨r, y, text_of_batch hI' hS h1 m s, h2, h3, h4, h5⟩

/-- **C102** (binary64, PS): both modes, up to an absolute error; `κ` is the error of the library's `exp`. -/
theorem C102_PS (hL : L.Dots d) (hs : L.Sums) (hb : L.BatchSums d) (he : L.ExpNear κ) (hκ : 2 * κ ≤ 1) (hd : 1 ≤ d) (K : Lits (F64 L))
    (S : Samples (F64 L)) (hS : S.Dim d) (hN : d * S.length ≤ 2 ^ 44) (hM0 : (2 : ℝ) ^ (-400 : ℤ) ≤ M) (hM : M ≤ (2 : ℝ) ^ (450 : ℤ))
    (hx : ∀ p ∈ S, ∀ a ∈ p.1, B64.Fin a ∧ |B64.val a| ≤ M) (hk : 2 ≤ Spec.numClusters (real (F := F64 L) B64.val d S))
    (hβ : (2 : ℝ) ^ (-42 : ℤ) * (d * S.length) ≤ β) (hI : β * (d * M ^ 2) ≤ Spec.beta (real (F := F64 L) B64.val d S)) (m : LabelMap)
    (s : Core (F64 L)) : ∃ y, Spec.PS (real (F := F64 L) B64.val d S) = .fin y ∧
      (∃ vs r, (runStream K .PS S ⟨m, blank .PS s⟩).val = .ok (vs ++ [.flt r]) ∧ B64.Fin r ∧ |B64.val r - y| ≤
        Spec.numClusters (real (F := F64 L) B64.val d S) * ((2 : ℝ) ^ (-42 : ℤ) * (d * S.length) / β + κ)) ∧
      (Spec.Consecutive (real (F := F64 L) B64.val d S) →
        ∃ r, (textBatch K d .PS S [] ⟨m, blank .PS s⟩).val = .ok [.flt r] ∧ B64.Fin r ∧ |B64.val r - y| ≤
          Spec.numClusters (real (F := F64 L) B64.val d S) * ((2 : ℝ) ^ (-42 : ℤ) * (d * S.length) / β + κ)) := by
  obtain ⟨vs, r, y, h1, h2, h3, h4⟩ := C82_PS64 hL hs hb he hκ hd S hS hN hM0 hM hx hk hβ hI
  refine ⟨y, h3, ⟨vs.map .flt, r, text_of_feed (by decide) h1 m s, h2, h4⟩, fun hc => ?_⟩
  obtain ⟨r', s', y', g1, g2, g3, g4⟩ := C82_PS64_batch hL hs hb he hκ hd S hS hN hM0 hM hx hk hc hβ hI (mod (F64 L) .PS).fresh
    (fresh_isSetup .PS)
  obtain rfl : y = y' := by rw [h3] at g3; exact XR.fin.inj g3
  exact ⟨r', text_of_batch (by decide) hS g1 m s, g2, g4⟩

/-- **C102** (binary64, cSIL): batch mode. -/
theorem C102_cSIL_batch (hL : L.Dots d) (hs : L.Sums) (hb : L.BatchSums d) (hr : L.RowSums) (hd : 1 ≤ d) (K : Lits (F64 L))
    (S : Samples (F64 L)) (hS : S.Dim d) (hN : d * S.length ≤ 2 ^ 44) (hM0 : (2 : ℝ) ^ (-400 : ℤ) ≤ M) (hM : M ≤ (2 : ℝ) ^ (450 : ℤ))
    (hx : ∀ p ∈ S, ∀ a ∈ p.1, B64.Fin a ∧ |B64.val a| ≤ M) (hk : 2 ≤ Spec.numClusters (real (F := F64 L) B64.val d S))
    (hc : Spec.Consecutive (real (F := F64 L) B64.val d S)) (hβ : (2 : ℝ) ^ (-42 : ℤ) * (d * S.length) ≤ β)
    (hm : SilApart (real (F := F64 L) B64.val d S) (β * (d * M ^ 2))) (m : LabelMap) (s : Core (F64 L)) :
    ∃ r y, (textBatch K d .cSIL S [] ⟨m, blank .cSIL s⟩).val = .ok [.flt r] ∧ B64.Fin r ∧
      Spec.cSIL (real (F := F64 L) B64.val d S) = .fin y ∧ |B64.val r - y| ≤ (2 : ℝ) ^ (-43 : ℤ) * (d * S.length) / β := by
  obtain ⟨r, s', y, h1, h2, h3, h4⟩ := C83_cSIL64_batch hL hs hb hr hd S hS hN hM0 hM hx hk hc hβ hm (mod (F64 L) .cSIL).fresh
    (fresh_isSetup .cSIL)
  exact ⟨r, y, text_of_batch (by decide) hS h1 m s, h2, h3, h4⟩

end

/-- **C102** (binary64, cSIL): in incremental mode the text ends more than 3/1000 away from the index on four points of the line, far
beyond rounding. -/
theorem C102_cSIL_differs (K : Lits (F64 .plain)) (m : LabelMap) (s : Core (F64 .plain)) :
    ∃ vs r y, (runStream K .cSIL quads ⟨m, blank .cSIL s⟩).val = .ok (vs ++ [.flt r]) ∧ B64.Fin r ∧ Spec.cSIL quadPts = .fin y ∧
      3 / 1000 < |B64.val r - y| := by
  obtain ⟨vs, r, y, h1, h2, h3, h4⟩ := C88_differs
  rw [quads_real] at h3
  exact ⟨_, r, y, text_of_feed (by decide) h1 m s, h2, h3, h4⟩

/-! ## Examples -/

/-- The text of CH on three points of the line, in one call: `16 / 3`. -/
example (m : LabelMap) (s : Core XR) : (textOnce .CH demo ⟨m, blank .CH s⟩).val = .ok [.flt (.fin (16 / 3))] := by
  rw [C102_batch .CH (by simp [DimOk]) demo demo_consecutive demo_two m s]
  exact congrArg (fun v => Except.ok [Val.flt v]) demo_CH

/-- The text of rCIP on the same points, sample by sample. -/
example (m : LabelMap) (s : Core XR) : (runStream realLits .rCIP (encS demo) ⟨m, blank .rCIP s⟩).val =
    .ok (demo.inits.tail.map fun P => Val.flt (Spec.rCIP P)) :=
  C102_incremental .rCIP (by decide) (fun _ => Nat.one_pos) demo m s

/-- Negative labels: the same values as for `0, 1`. -/
example (K : Lits XR) (m : LabelMap) (s : Core XR) :
    (runStream K .DB ((encS demo).map fun p => (p.1, -7 - p.2)) ⟨m, blank .DB s⟩).val.toOption =
      (runStream K .DB (encS demo) ⟨m, blank .DB s⟩).val.toOption :=
  C102_rename K .DB (by simp) (f := fun z => -7 - z) (fun a b h => by simpa using h) _ m s

/-- The six indices of the four points `0, 1` and `3, 4`: the text, run in double precision, is within `2 ^ -35` of the definition. -/
example {I : Index} (hI : Common6 I) (K : Lits (F64 .plain)) (m : LabelMap) (s : Core (F64 .plain)) :
    ∃ vs r y, (runStream K I quads ⟨m, blank I s⟩).val = .ok (vs ++ [.flt r]) ∧ Spec.value I quadPts = .fin y ∧
      |B64.val r - y| ≤ (2 : ℝ) ^ (-35 : ℤ) * y := by
  obtain ⟨vs, r, y, h1, -, h3, -, h5⟩ := quads_close hI
  rw [quads_real] at h3
  exact ⟨_, r, y, text_of_feed (by rintro rfl; simp [Common6] at hI) h1 m s, h3, h5⟩

end Verif.Source
