import Verif.Old.Run

set_option linter.unusedSectionVars false
set_option linter.constructorNameAsVariable false

namespace Verif.Old
open V0

/-! ## The functions of the file -/

section Functions
attribute [local congr] andThen_head bind_head ebind_head cond_head

theorem callFunc_eq (f : Func) (vs : List PV) (ks : List (Var × PV)) (x : Except PyErr PV)
    (h : callMethod noSelf f vs ks () = andThen x () fun v => .ok v ()) : callFunc f vs ks = x := by
  unfold callFunc; rw [h]; cases x <;> rfl

@[oldrun] theorem norm22_eq (v : Vec) : calls1 .norm22 [.vec v] [] = .ok (.npf (V0.norm22 v)) := by
  refine (show _ = callFunc norm22 [.vec v] [] from rfl).trans (callFunc_eq _ _ _ _ ?_)
  simp -implicitDefEqProofs only [callMethod, norm22, oldrun]
  rfl

/-- The argument `g_old`. -/
def gArg : Option Vec → PV
  | Option.none => .none
  | some v => .vec v

/-- The tuple `CP_update` returns. -/
def cpTuple (u : CPUpdate) : PV := .list [.npf u.cp, .vec u.g, .vec u.v, .int u.n]

@[oldrun] theorem center_eq (x v : Vec) (n : ℕ) : calls1 .cluster_center_update [.vec x, .vec v, .int n] [] =
    centerUpdate x v n >>= fun u => .ok (.list [.vec u.1, .int u.2]) := by
  apply callFunc_eq
  simp -implicitDefEqProofs only [callMethod, cluster_center_update, oldrun, centerUpdate]
  push_cast
  rfl

theorem cp_eq (x v : Vec) (n : ℕ) (g : Option Vec) (cp : Nm) (ks : List (Var × PV)) {p q : ℕ}
    (h : (ks = [] ∧ p = 2 ∧ q = 2) ∨ (ks = [(.p, .int 1)] ∧ p = 1 ∧ q = 2)) :
    calls1 .CP_update [.vec x, .vec v, .int n, gArg g, .num cp] ks =
      cpUpdate x v n g cp.val p q >>= fun u => .ok (cpTuple u) := by
  apply callFunc_eq
  rcases h with ⟨rfl, rfl, rfl⟩ | ⟨rfl, rfl, rfl⟩ <;> rcases g with _ | g <;>
  · simp -implicitDefEqProofs only [callMethod, CP_update, oldrun, cpUpdate, gArg, Option.getD]
    push_cast
    rfl
end Functions

end Verif.Old
