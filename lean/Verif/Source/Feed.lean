import Verif.Source.Init
import Verif.Api

set_option linter.unusedSectionVars false
set_option linter.constructorNameAsVariable false

/-! # The text of the package run on a stream of samples -/

namespace Verif.Source

variable {F : Type} [Arith F]

/-- Call `get_cvi` on the samples one by one; what it returned. -/
def feedSrc (K : Lits F) (I : Index) : List (Vec F × ℤ) → Py (Obj F) (List (Val F))
  | [] => pure []
  | p :: l => do
    let r ← runGetCvi K I (.d1 p.1) (.int p.2)
    let rs ← feedSrc K I l
    pure (r :: rs)

/-- Construct an object of class `I` and call `get_cvi` on the samples one by one. -/
def runStream (K : Lits F) (I : Index) (S : List (Vec F × ℤ)) : Py (Obj F) (List (Val F)) := do
  let _ ← runInit K I
  feedSrc K I S

variable [Laws F] (K : Lits F)

theorem feed_same (I : Index) (h1 : I ≠ .cSIL) (h2 : I ≠ .rCIP) (S : List (Vec F × ℤ)) (o : Obj F) (ho : Counted I o) :
    Same (feedSrc K I S o) ((feed (Gen.mod F I) S o).bind fun ys o => .ok (ys.map .flt) o) := by
  induction S generalizing o with
  | nil => exact .of_eq rfl
  | cons p S ih =>
    simp only [feedSrc, feed, Py.bind_apply, Py.pure_apply, bind_bind, Res.bind_ok]
    have h := get_cvi_same K I h1 h2 p.1 p.2 o ho
    have := Same.bind (f := fun r s => (feedSrc K I S s).bind fun rs s => .ok (r :: rs) s)
      (g := fun r s => ((feed (Gen.mod F I) S s).bind fun ys o => .ok (ys.map Val.flt) o).bind fun rs s => .ok (r :: rs) s) h
      fun a s hm => by
        cases hg : getCvi (Gen.mod F I) (.d1 p.1) (.int p.2) o with
        | err e t => rw [hg] at hm; cases hm
        | ok y t =>
          rw [hg] at hm; cases hm
          exact Same.bind (ih _ (ho.get_cvi _ _ hg)) fun _ _ _ => .of_eq rfl
    simpa only [bind_bind, Res.bind_ok, List.map_cons] using this

theorem feed_agree (I : Index) (hK : I = .rCIP → LitLaws K) (S : List (Vec F × ℤ)) (o : Obj F) (ho : Counted I o) :
    Agree (feedSrc K I S o) ((feed (Gen.mod F I) S o).bind fun ys o => .ok (ys.map .flt) o) := by
  induction S generalizing o with
  | nil => exact .of_eq rfl
  | cons p S ih =>
    simp only [feedSrc, feed, Py.bind_apply, Py.pure_apply, bind_bind, Res.bind_ok]
    have h := get_cvi_agree K I hK p.1 p.2 o ho
    have := Agree.bind (f := fun r s => (feedSrc K I S s).bind fun rs s => .ok (r :: rs) s)
      (g := fun r s => ((feed (Gen.mod F I) S s).bind fun ys o => .ok (ys.map Val.flt) o).bind fun rs s => .ok (r :: rs) s) h
      fun a s hm => by
        cases hg : getCvi (Gen.mod F I) (.d1 p.1) (.int p.2) o with
        | err e t => rw [hg] at hm; cases hm
        | ok y t =>
          rw [hg] at hm; cases hm
          exact Agree.bind (ih _ (ho.get_cvi _ _ hg)) fun _ _ _ => .of_eq rfl
    simpa only [bind_bind, Res.bind_ok, List.map_cons] using this

theorem counted_fresh (I : Index) : Counted I (Gen.mod F I).fresh := by
  intro h
  rcases h with rfl | rfl <;> rfl

theorem stream_eq (I : Index) (S : List (Vec F × ℤ)) (m : LabelMap) (s : Core F) :
    runStream K I S ⟨m, blank I s⟩ = feedSrc K I S (Gen.mod F I).fresh := by
  simp only [runStream, Py.bind_apply, init_eq, Res.bind_ok]

end Verif.Source
