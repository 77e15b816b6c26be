import Verif.Source.Laws

set_option linter.unusedSectionVars false
set_option linter.constructorNameAsVariable false

namespace Verif.Source.CHp
attribute [local congr] andThen_head bind_head ebind_head mapState_head cond_head

variable {F : Type} [Arith F] [Laws F] (K : Lits F)

theorem setup_eq (x : Vec F) (m : LabelMap) (s : Core F) :
    callMethod K (objHost .CH (superCall K .CH)) CH._setup [.fs ⟨true, x⟩] ⟨m, s⟩ = (onCore (Gen.CH.setup x) ⟨m, s⟩).bind fun _ o => .ok .none o := by
  simp -implicitDefEqProofs only [callMethod, CH._setup, pyrun, Gen.CH.setup]

theorem inc_eq (x : Vec F) (z : ℤ) (m : LabelMap) (s : Core F) :
    cviCall K .CH .self_param_inc [.fs ⟨true, x⟩, .int false z] ⟨m, s⟩ =
      ((Gen.mod F .CH).paramInc x (.int z) ⟨m, s⟩).bind fun _ o => .ok .none o := by
  simp -implicitDefEqProofs only [cviCall, cls, callMethod]
  simp -implicitDefEqProofs only [CH._param_inc, Module.paramInc, Gen.mod, Gen.CHmod, Gen.CH.incBody, Gen.setupOrMu]
  obtain ⟨i, m', hi⟩ : ∃ i m', m.getInternalLabel z = (i, m') := ⟨_, _, rfl⟩
  by_cases h0 : s.nSamples = 0 <;> by_cases hk : (i : ℤ) > (s.nClusters : ℤ) - 1
  all_goals
    simp -implicitDefEqProofs only [pyrun, selfCall, getLabel_eq, hi, h0, hk, cls, setup_eq, Gen.CH.setup, Gen.CH.incNew, Gen.CH.incOld, Gen.CH.finish]
    pysteps
    refine same_comp (fun j => ?_) (fun ys _ => ?_)
    · simp -implicitDefEqProofs only [Gen.CH.sepEntry, Gen.Vec.sqDistPy, pyrun]
    · simp -implicitDefEqProofs only [pyrun]

theorem eval_eq (m : LabelMap) (s : Core F) :
    cviCall K .CH .self_evaluate [] ⟨m, s⟩ = (onCore (Gen.mod F .CH).evaluate ⟨m, s⟩).bind fun _ o => .ok .none o := by
  simp -implicitDefEqProofs only [cviCall, cls, callMethod]
  simp -implicitDefEqProofs only [CH._evaluate, Gen.mod, Gen.CHmod, Gen.CH.evaluate]
  by_cases h : s.nClusters > 1
  · have h1 : ((s.nClusters : ℤ) - 1) ≠ 0 := by omega
    simp -implicitDefEqProofs only [pyrun, gt_one, h, divInt_ne _ _ h1, law_ch _ h]
    pysteps
  · simp -implicitDefEqProofs only [pyrun, gt_one, h]

end Verif.Source.CHp
