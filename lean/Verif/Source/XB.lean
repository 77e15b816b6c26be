import Verif.Source.Loop

set_option linter.unusedSectionVars false
set_option linter.constructorNameAsVariable false
set_option linter.unusedSimpArgs false

/-! # The text of `XB` does what `Verif/Gen/XB.lean` says -/

namespace Verif.Source.XBp
attribute [local congr] andThen_head bind_head ebind_head mapState_head cond_head

variable {F : Type} [Arith F] [Laws F] (K : Lits F)

theorem setup_eq (x : Vec F) (m : LabelMap) (s : Core F) :
    callMethod K (objHost .XB (superCall K .XB)) XB._setup [.fs ⟨true, x⟩] ⟨m, s⟩ =
      (onCore (Gen.XB.setup x) ⟨m, s⟩).bind fun _ o => .ok .none o := by
  simp -implicitDefEqProofs only [callMethod, XB._setup, pyrun, Gen.XB.setup]

theorem inc_new (x : Vec F) (z : ℤ) (m : LabelMap) (s : Core F) {i : ℕ} {m' : LabelMap}
    (hi : m.getInternalLabel z = (i, m')) (hk : (i : ℤ) > (s.nClusters : ℤ) - 1) :
    cviCall K .XB .self_param_inc [.fs ⟨true, x⟩, .int false z] ⟨m, s⟩ =
      ((Gen.mod F .XB).paramInc x (.int z) ⟨m, s⟩).bind fun _ o => .ok .none o := by
  simp -implicitDefEqProofs only [cviCall, cls, callMethod]
  simp -implicitDefEqProofs only [XB._param_inc, Module.paramInc, Gen.mod, Gen.XBmod, Gen.XB.incBody, Gen.setupOrMu, setupIfFirst]
  by_cases h0 : s.nSamples = 0
  all_goals
    by_cases h1 : s.nClusters = 0
    · simp -implicitDefEqProofs only [h1, Nat.cast_zero] at hk
      simp -implicitDefEqProofs only [pyrun, selfCall, getLabel_eq, hi, h0, hk, h1, cls, setup_eq, Gen.XB.setup, Gen.XB.incNew, distNew]
      pysteps
    · simp -implicitDefEqProofs only [pyrun, selfCall, getLabel_eq, hi, h0, hk, h1, cls, setup_eq, Gen.XB.setup, Gen.XB.incNew, distNew,
        columnNew, setCross, setBlock_zeros]
      pysteps
      generalize hr : runLoop Var.jx _ _ _ _ = r
      generalize hm : mapE _ _ = q
      rcases loop_fill (d := .d_column_new) (T := fun z => z = .jx ∨ z = .d_column_new) hr hm (Nat.le_add_right _ 1) (by simp -implicitDefEqProofs only [pyrun])
        (by
          intro L ys hlt hL hd
          simp -implicitDefEqProofs only [pyrun, hd, hL, or_self, set_next ys hlt, Gen.XB.dist, Gen.Vec.sqDist]
          repeat' refine tracks_bind fun _ _ => ?_
          refine tracks_filled trivial (by simp -implicitDefEqProofs only [pyrun]) fun z hz => ?_
          obtain ⟨hz1, hz2⟩ := not_or.mp hz
          rw [get_ne _ _ hz2, get_ne _ _ hz1, hL z hz])
        with ⟨e, rfl, rfl⟩ | ⟨zs, L', rfl, rfl, hd, hL⟩
      · simp -implicitDefEqProofs only [pyrun]
      · simp -implicitDefEqProofs only [pyrun, hd, hL, or_self, Nat.add_sub_cancel_left, List.replicate_one]
        pysteps

theorem inc_old (x : Vec F) (z : ℤ) (m : LabelMap) (s : Core F) {i : ℕ} {m' : LabelMap}
    (hi : m.getInternalLabel z = (i, m')) (hk : ¬ (i : ℤ) > (s.nClusters : ℤ) - 1) :
    cviCall K .XB .self_param_inc [.fs ⟨true, x⟩, .int false z] ⟨m, s⟩ =
      ((Gen.mod F .XB).paramInc x (.int z) ⟨m, s⟩).bind fun _ o => .ok .none o := by
  simp -implicitDefEqProofs only [cviCall, cls, callMethod]
  simp -implicitDefEqProofs only [XB._param_inc, Module.paramInc, Gen.mod, Gen.XBmod, Gen.XB.incBody, Gen.setupOrMu, setupIfFirst]
  by_cases h0 : s.nSamples = 0
  all_goals
    simp -implicitDefEqProofs only [pyrun, selfCall, getLabel_eq, hi, h0, hk, cls, setup_eq, Gen.XB.setup, Gen.XB.incOld, columnOld]
    pysteps
    generalize hr : runLoop Var.jx _ _ _ _ = r
    generalize hm : mapE _ _ = q
    rcases loop_fill (d := .d_column_new) (T := fun z => z = .jx ∨ z = .d_column_new) hr hm (Nat.le_refl _) (by simp -implicitDefEqProofs only [pyrun])
      (by
        intro L ys hlt hL hd
        by_cases hji : ys.length = i
        · subst hji
          simp -implicitDefEqProofs only [pyrun, hL, or_self, Nat.cast_inj]
          refine tracks_filled trivial ?_ fun z hz => ?_
          · rw [get_ne _ _ (by decide), hd, keep_next ys hlt]
          · rw [get_ne _ _ (not_or.mp hz).1, hL z hz]
        · simp -implicitDefEqProofs only [pyrun, hd, hL, or_self, hji, Nat.cast_inj, set_next ys hlt, Gen.XB.dist, Gen.Vec.sqDist]
          repeat' refine tracks_bind fun _ _ => ?_
          refine tracks_filled trivial (by simp -implicitDefEqProofs only [pyrun]) fun z hz => ?_
          obtain ⟨hz1, hz2⟩ := not_or.mp hz
          rw [get_ne _ _ hz2, get_ne _ _ hz1, hL z hz])
      with ⟨e, rfl, rfl⟩ | ⟨zs, L', rfl, rfl, hd, hL⟩
    · simp -implicitDefEqProofs only [pyrun]
    · simp -implicitDefEqProofs only [pyrun, hd, hL, or_self, Nat.sub_self, List.replicate_zero, List.append_nil]
      pysteps

theorem inc_eq (x : Vec F) (z : ℤ) (m : LabelMap) (s : Core F) :
    cviCall K .XB .self_param_inc [.fs ⟨true, x⟩, .int false z] ⟨m, s⟩ =
      ((Gen.mod F .XB).paramInc x (.int z) ⟨m, s⟩).bind fun _ o => .ok .none o := by
  by_cases hk : ((m.getInternalLabel z).1 : ℤ) > (s.nClusters : ℤ) - 1
  · exact inc_new K x z m s rfl hk
  · exact inc_old K x z m s rfl hk

theorem eval_eq (m : LabelMap) (s : Core F) :
    cviCall K .XB .self_evaluate [] ⟨m, s⟩ = (onCore (Gen.mod F .XB).evaluate ⟨m, s⟩).bind fun _ o => .ok .none o := by
  simp -implicitDefEqProofs only [cviCall, cls, callMethod]
  simp -implicitDefEqProofs only [XB._evaluate, Gen.mod, Gen.XBmod, Gen.XB.evaluate]
  by_cases h : s.nClusters > 1
  · simp -implicitDefEqProofs only [pyrun, gt_one, h]
    pysteps
  · simp -implicitDefEqProofs only [pyrun, gt_one, h]

end Verif.Source.XBp
