import Verif.Source.Feed
import Verif.Source.Instances
import Verif.Props.AnyArith
import Verif.Gen.Link

/-!
# C97: the text of the package in incremental mode

`Verif/Source/Text.lean` is the source of the nine classes, of `CVI` and of `LabelMap` as a Lean value, written by `tools/embed.py` from
`/repo/src/cvi/modules`.  `runStream K I S` runs that text with the interpreter of `Verif/Source/Interp.lean`: construct an object of
class `I`, then call `get_cvi` once for each labelled sample of `S`.  The theorems say that this does what the hand-written model does.
-/

namespace Verif.Source
open Gen

variable {F : Type} [Arith F] [Laws F] {d : ℕ}

/-- The float inside a value. -/
def Val.num : Val F → Option F
  | .flt y => some y
  | _ => Option.none

/-- **C97** (`__init__`): the text of the constructor turns any memory into the model's fresh object. -/
theorem C97_init (K : Lits F) (I : Index) (m : LabelMap) (s : Core F) :
    runInit K I ⟨m, blank I s⟩ = .ok .none (mod F I).fresh := init_eq K I m s

omit [Arith F] [Laws F] in
theorem same_val {σ : Type} {r : Res σ (List (Val F))} {m : Res σ (List F)} (h : Same r (m.bind fun ys o => .ok (ys.map .flt) o)) :
    r.val = m.val.map fun ys => ys.map Val.flt := by
  cases m with
  | ok a s => have h' : r = .ok (a.map Val.flt) s := h; rw [h']; rfl
  | err e s => obtain ⟨t, h⟩ := h; rw [h]; rfl

/-- **C97** (one call): on any object, reachable or not, whose counts are a list where the class is PS or rCIP, a call of `get_cvi` on a
single sample returns the same value and leaves the same object as the model's, or both raise. -/
theorem C97_call (K : Lits F) (I : Index) (hK : I = .rCIP → LitLaws K) (x : Vec F) (z : ℤ) (o : Obj F)
    (ho : I = .PS ∨ I = .rCIP → o.core.n.isArr = false) :
    match getCvi (mod F I) (.d1 x) (.int z) o with
    | .ok y o' => runGetCvi K I (.d1 x) (.int z) o = .ok (.flt y) o'
    | .err _ _ => ∃ e o', runGetCvi K I (.d1 x) (.int z) o = .err e o' := by
  have h := get_cvi_agree K I hK x z o ho
  cases hf : getCvi (mod F I) (.d1 x) (.int z) o with
  | ok y o' => rw [hf] at h; exact h
  | err e o' => rw [hf] at h; exact h

/-- **C97** (all classes but cSIL and rCIP): whatever the samples — of any lengths, under any labels — the text returns the values
the model returns, or raises the exception the model raises. -/
theorem C97_text (K : Lits F) (I : Index) (h1 : I ≠ .cSIL) (h2 : I ≠ .rCIP) (S : List (Vec F × ℤ)) (m : LabelMap) (s : Core F) :
    (runStream K I S ⟨m, blank I s⟩).val = (feed (mod F I) S (mod F I).fresh).val.map fun ys => ys.map Val.flt := by
  rw [stream_eq]
  exact same_val (feed_same K I h1 h2 S _ (counted_fresh I))

/-- **C97** (every class): whatever the samples, if the model returns values then the text returns the same and leaves the same object;
if the model raises then the text raises. -/
theorem C97_agree (K : Lits F) (I : Index) (hK : I = .rCIP → LitLaws K) (S : List (Vec F × ℤ)) (m : LabelMap) (s : Core F) :
    match feed (mod F I) S (mod F I).fresh with
    | .ok ys o => runStream K I S ⟨m, blank I s⟩ = .ok (ys.map .flt) o
    | .err _ _ => ∃ e o, runStream K I S ⟨m, blank I s⟩ = .err e o := by
  have h := feed_agree K I hK S _ (counted_fresh I)
  rw [stream_eq]
  cases hf : feed (mod F I) S (mod F I).fresh with
  | ok ys o => rw [hf] at h; exact h
  | err e o => rw [hf] at h; exact h

/-- **C97** (all classes but rCIP): the text, run on samples with the same number of features, raises nothing and returns for each
prefix of the stream the value of the specification of C62. -/
theorem C97_values (K : Lits F) (I : Index) (hI : I ≠ .rCIP) (S : Samples F) (hS : S.Dim d) (m : LabelMap) (s : Core F) :
    (runStream K I S ⟨m, blank I s⟩).val = .ok (S.inits.tail.map fun P => Val.flt (value d I P)) := by
  have h := C97_agree K I (fun h => absurd h hI) S m s
  have hv := C62_every_arithmetic I hI S hS
  cases hf : feed (mod F I) S (mod F I).fresh with
  | ok ys o =>
    rw [hf] at h hv
    have : ys = _ := Except.ok.inj hv
    rw [h, Res.val, this, List.map_map]; rfl
  | err e o => rw [hf] at hv; exact absurd hv (by simp [Res.val])

/-- **C97** (rCIP): where the constants of the class are those of the library, the text returns for each prefix a value of the
specification of C62, or an exception of the libraries stops it. -/
theorem C97_rCIP (K : Lits F) (hK : LitLaws K) (hi : InvShape F d) (S : Samples F) (hS : S.Dim d) (m : LabelMap) (s : Core F) :
    (∃ vs : List F, (runStream K .rCIP S ⟨m, blank .rCIP s⟩).val = .ok (vs.map .flt) ∧ List.Forall₂ (Returns d .rCIP) S.inits.tail vs) ∨
      ((∃ e, (runStream K .rCIP S ⟨m, blank .rCIP s⟩).val = .error e) ∧ ∃ e P, P <+: S ∧ LibRaises d (Summed d P) e) := by
  have h := C97_agree K .rCIP (fun _ => hK) S m s
  have hv := C62_rCIP hi S hS
  cases hf : feed (mod F .rCIP) S (mod F .rCIP).fresh with
  | ok ys o =>
    rw [hf] at h hv
    rcases hv with ⟨vs, h1, h2⟩ | ⟨e, h1, _⟩
    · refine .inl ⟨vs, ?_, h2⟩
      have : ys = vs := Except.ok.inj h1
      rw [h, Res.val, this]
    · exact absurd h1 (by simp [Res.val])
  | err e o =>
    rw [hf] at h hv
    rcases hv with ⟨vs, h1, h2⟩ | ⟨e', h1, P, h2, h3⟩
    · exact absurd h1 (by simp [Res.val])
    · obtain ⟨e2, o2, h⟩ := h
      exact .inr ⟨⟨e2, by rw [h]; rfl⟩, e', P, h2, h3⟩

/-- **C97** (refused calls): a label vector with a single sample raises TypeError; a matrix after setup, a matrix with fewer than two
distinct labels, and data of neither one nor two dimensions raise ValueError.  The object is left alone. -/
theorem C97_refused (K : Lits F) (I : Index) (o : Obj F) :
    (∀ x l, runGetCvi K I (.d1 x) (.arr l) o = .err .typeError o) ∧
    (∀ a l, o.core.isSetup = true → runGetCvi K I (.d2 a) l o = .err .valueError o) ∧
    (∀ a l, ¬ l.numUnique > 1 → runGetCvi K I (.d2 a) l o = .err .valueError o) ∧
    (∀ sh l, sh.length ≠ 1 → sh.length ≠ 2 → runGetCvi K I (.other sh) l o = .err .valueError o) := by
  refine ⟨fun x l => get_cvi_d1_arr K I x l o, fun a l h => get_cvi_d2_setup K I a l o h, fun a l h => ?_, fun sh l h1 h2 => get_cvi_other K I sh h1 h2 l o⟩
  cases hs : o.core.isSetup with
  | true => exact get_cvi_d2_setup K I a l o hs
  | false => rw [get_cvi_d2 K I a l o hs, if_neg h]

/-! ## Over the reals and in binary64 -/

/-- **C97** (reals): over the extended reals the text returns what the theorems about `incRun` say. -/
theorem C97_reals (K : Lits XR) (I : Index) (hK : I = .rCIP → LitLaws K) (S : Spec.Stream d) (m : LabelMap) (s : Core XR) {vs : List XR}
    (h : incRun I S = .ok vs) : (runStream K I (encS S) ⟨m, blank I s⟩).val = .ok (vs.map .flt) := by
  have ha := C97_agree K I hK (encS S) m s
  unfold incRun at h
  rw [← mod_XR] at h
  cases hf : feed (mod XR I) (encS S) (mod XR I).fresh with
  | ok ys o =>
    rw [hf] at ha h
    have : ys = vs := Except.ok.inj h
    rw [ha, Res.val, this]
  | err e o => rw [hf] at h; exact absurd h (by simp [Res.val])

/-- **C97** (binary64): the text run in IEEE 754 double precision, with any library, returns bit for bit the values of C62. -/
theorem C97_binary64 (L : Lib) (K : Lits (F64 L)) (I : Index) (hI : I ≠ .rCIP) (S : Samples (F64 L)) (hS : S.Dim d) (m : LabelMap)
    (s : Core (F64 L)) :
    (runStream K I S ⟨m, blank I s⟩).val = .ok (S.inits.tail.map fun P => Val.flt (value d I P)) :=
  C97_values K I hI S hS m s

/-! ## Concrete runs of the text -/

/-- Literals for the examples. -/
def centsLits : Lits Cents where
  lit a b := ⟨100 * a / b⟩
  pi := ⟨314⟩
  fpow _ _ := .ok ⟨1⟩
  ipow _ d := if d < 3 then .ok ⟨2500⟩ else .error .overflowError

/-- The values the text returns on `sample`. -/
def textRun (I : Index) : Option (List (Option Cents)) :=
  (runStream centsLits I sample ⟨[], blank I Gen.init⟩).val.toOption.map fun l => l.map Val.num

example : textRun .CH = some [some ⟨0⟩, some ⟨0⟩, some ⟨472⟩, some ⟨1506⟩, some ⟨2736⟩] := by decide +kernel
example : textRun .DB = some [some ⟨0⟩, some ⟨0⟩, some ⟨7⟩, some ⟨6⟩, some ⟨4⟩] := by decide +kernel
example : textRun .WB = some [some ⟨0⟩, some ⟨0⟩, some ⟨42⟩, some ⟨26⟩, some ⟨20⟩] := by decide +kernel
example : textRun .XB = some [some ⟨0⟩, some ⟨0⟩, some ⟨4⟩, some ⟨3⟩, some ⟨2⟩] := by decide +kernel
example : textRun .GD43 = some [some ⟨0⟩, some ⟨0⟩, some ⟨177⟩, some ⟨186⟩, some ⟨280⟩] := by decide +kernel
example : textRun .GD53 = some [some ⟨0⟩, some ⟨0⟩, some ⟨33⟩, some ⟨25⟩, some ⟨30⟩] := by decide +kernel
example : textRun .PS = some [some ⟨0⟩, some ⟨0⟩, some ⟨750⟩, some ⟨802⟩, some ⟨768⟩] := by decide +kernel
example : textRun .rCIP = some [some ⟨0⟩, some ⟨0⟩, some ⟨-36⟩, some ⟨-36⟩, some ⟨-125⟩] := by decide +kernel
example : textRun .cSIL = some [some ⟨0⟩, some ⟨0⟩, some ⟨97⟩, some ⟨94⟩, some ⟨97⟩] := by decide +kernel

/-- The hypothesis about the constants of rCIP is met. -/
theorem centsLits_laws : LitLaws centsLits where
  negHalf := by decide +kernel
  delta _ _ := rfl
  normConst d := by
    show (if d < 3 then .ok ⟨20⟩ else .error .overflowError : Except PyErr Cents) =
      (if d < 3 then .ok ⟨2500⟩ else .error .overflowError : Except PyErr Cents) >>= fun y => .ok (Arith.ofNat 1 / Arith.sqrt y)
    split
    · show Except.ok _ = Except.ok _
      congr 1
    · rfl

example : LitLaws realLits := realLits_laws

/-- Samples of different lengths: the second call raises, in the text and in the model. -/
example : (runStream centsLits .CH [([⟨0⟩], 7), ([⟨1⟩, ⟨2⟩], 7)] ⟨[], blank .CH Gen.init⟩).val.toOption.isNone = true := by decide +kernel

/-- A label vector with one sample. -/
example : runGetCvi centsLits .CH (.d1 [⟨0⟩]) (.arr [1, 2]) (mod Cents .CH).fresh = .err .typeError (mod Cents .CH).fresh :=
  (C97_refused centsLits .CH _).1 _ _

end Verif.Source
