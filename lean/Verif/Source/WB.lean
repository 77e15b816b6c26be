import Verif.Source.Laws

set_option linter.unusedSectionVars false
set_option linter.constructorNameAsVariable false

namespace Verif.Source.WBp
attribute [local congr] andThen_head bind_head ebind_head mapState_head cond_head

variable {F : Type} [Arith F] [Laws F] (K : Lits F)

theorem setup_eq (x : Vec F) (m : LabelMap) (s : Core F) :
    callMethod K (objHost .WB (superCall K .WB)) WB._setup [.fs ⟨true, x⟩] ⟨m, s⟩ = (onCore (Gen.WB.setup x) ⟨m, s⟩).bind fun _ o => .ok .none o := by
  simp -implicitDefEqProofs only [callMethod, WB._setup, pyrun, Gen.WB.setup]

theorem inc_eq (x : Vec F) (z : ℤ) (m : LabelMap) (s : Core F) :
    cviCall K .WB .self_param_inc [.fs ⟨true, x⟩, .int false z] ⟨m, s⟩ =
      ((Gen.mod F .WB).paramInc x (.int z) ⟨m, s⟩).bind fun _ o => .ok .none o := by
  simp -implicitDefEqProofs only [cviCall, cls, callMethod]
  simp -implicitDefEqProofs only [WB._param_inc, Module.paramInc, Gen.mod, Gen.WBmod, Gen.WB.incBody, Gen.setupOrMu]
  obtain ⟨i, m', hi⟩ : ∃ i m', m.getInternalLabel z = (i, m') := ⟨_, _, rfl⟩
  by_cases h0 : s.nSamples = 0 <;> by_cases hk : (i : ℤ) > (s.nClusters : ℤ) - 1
  all_goals
    simp -implicitDefEqProofs only [pyrun, selfCall, getLabel_eq, hi, h0, hk, cls, setup_eq, Gen.WB.setup, Gen.WB.incNew, Gen.WB.incOld, Gen.WB.finish]
    pysteps
    refine same_comp (fun j => ?_) (fun ys _ => ?_)
    · simp -implicitDefEqProofs only [Gen.WB.sepEntry, Gen.Vec.sqDistPy, pyrun]
    · simp -implicitDefEqProofs only [pyrun]

theorem eval_eq (m : LabelMap) (s : Core F) :
    cviCall K .WB .self_evaluate [] ⟨m, s⟩ = (onCore (Gen.mod F .WB).evaluate ⟨m, s⟩).bind fun _ o => .ok .none o := by
  simp -implicitDefEqProofs only [cviCall, cls, callMethod]
  simp -implicitDefEqProofs only [WB._evaluate, Gen.mod, Gen.WBmod, Gen.WB.evaluate]
  by_cases h : s.nClusters > 1
  · simp -implicitDefEqProofs only [pyrun, gt_one, h]
  · simp -implicitDefEqProofs only [pyrun, gt_one, h]

end Verif.Source.WBp
