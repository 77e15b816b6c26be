import Verif.Api
import Verif.Proofs.BatchModules
import Verif.Proofs.BatchRCIP
import Verif.Proofs.BatchCSIL

/-! # The refinement theorems in terms of the observables -/

namespace Verif
open Spec Py

variable {d : ℕ}

/-- The invariant of each class. -/
def Index.Rep : Index → Stream d → Core → Prop
  | .CH => CH.Rep
  | .WB => WB.Rep
  | .XB => XB.Rep
  | .DB => DB.Rep
  | .GD43 => GD43.Rep
  | .GD53 => GD53.Rep
  | .PS => PS.Rep
  | .rCIP => RCIP.Rep
  | .cSIL => CSIL.Rep

/-- What an object in incremental mode returns. -/
noncomputable def Index.actual : Index → Stream d → XR
  | .cSIL => CSIL.actual
  | I => Spec.value I

theorem Index.actual_eq {I : Index} (h : I ≠ .cSIL) (S : Stream d) : I.actual S = Spec.value I S := by
  cases I <;> first | rfl | exact absurd rfl h

theorem Index.refines (I : Index) (hd : DimOk I d) : Refines I.mod (I.Rep (d := d)) I.actual := by
  cases I
  · exact CH.refines
  · exact WB.refines
  · exact XB.refines
  · exact DB.refines
  · exact GD43.refines
  · exact GD53.refines
  · exact PS.refines
  · exact RCIP.refines (hd rfl)
  · exact CSIL.refines

theorem incRun_actual {I : Index} (hd : DimOk I d) (S : Stream d) : incRun I S = .ok (S.inits.tail.map I.actual) := by
  obtain ⟨o, h, _⟩ := (I.refines hd).run S
  rw [incRun, h]; rfl

theorem objAfter_inv {I : Index} (hd : DimOk I d) (S : Stream d) : Inv I.mod (I.Rep (d := d)) S (objAfter I S) := by
  obtain ⟨o, h, hI⟩ := (I.refines hd).run S
  rw [objAfter, h]; exact hI

theorem incRun_eq {I : Index} (hI : I ≠ .cSIL) (hd : DimOk I d) (S : Stream d) :
    incRun I S = .ok (S.inits.tail.map (Spec.value I)) := by
  rw [incRun_actual hd]
  congr 2
  funext S
  exact Index.actual_eq hI S

theorem getLast?_inits_tail {α : Type} (l : List α) : l.inits.tail.getLast? = if l = [] then none else some l := by
  induction l with
  | nil => rfl
  | cons a l ih =>
    rw [inits_tail_cons, List.getLast?_cons, List.getLast?_map, ih]
    by_cases h : l = [] <;> simp [h]

theorem incLast_actual {I : Index} (hd : DimOk I d) {S : Stream d} (h : S ≠ []) : incLast I S = .ok (some (I.actual S)) := by
  rw [incLast, incRun_actual hd]
  simp only [Except.map, List.getLast?_map, getLast?_inits_tail, if_neg h, Option.map_some]

theorem incLast_eq {I : Index} (hI : I ≠ .cSIL) (hd : DimOk I d) {S : Stream d} (h : S ≠ []) :
    incLast I S = .ok (some (Spec.value I S)) := by
  rw [incLast_actual hd h, Index.actual_eq hI]

theorem incLast_nil (I : Index) : incLast I ([] : Stream d) = .ok none := rfl

theorem fresh_notSetup (I : Index) : I.mod.fresh.core.isSetup = false := by cases I <;> rfl

theorem batchRun_eq {I : Index} (hd : DimOk I d) {S : Stream d} (h : Consecutive S) (hk : 2 ≤ numClusters S) :
    batchRun I S = .ok (Spec.value I S) := by
  have ho := fresh_notSetup I
  have : ∃ o', getCvi I.mod (.d2 (encRows (S.map Prod.fst))) (.arr (S.map Prod.snd)) I.mod.fresh =
      .ok (Spec.value I S) o' := by
    cases I
    · exact CH.batch ho hk h
    · exact WB.batch ho hk h
    · exact XB.batch ho hk h
    · exact DB.batch ho hk h
    · exact GD43.batch ho hk h
    · exact GD53.batch ho hk h
    · exact PS.batch ho hk h
    · exact RCIP.batch (hd rfl) ho hk h
    · exact CSIL.batch ho hk h
  obtain ⟨o', h⟩ := this
  rw [batchRun, h]; rfl

end Verif
