import Verif.Source.Fold

set_option linter.unusedSectionVars false
set_option linter.constructorNameAsVariable false
set_option linter.unusedSimpArgs false

/-! # The text of `DB` does what `Verif/Gen/DB.lean` says -/

namespace Verif.Source.DBp
attribute [local congr] andThen_head bind_head ebind_head mapState_head cond_head

variable {F : Type} [Arith F] [Laws F] (K : Lits F)

theorem setup_eq (x : Vec F) (m : LabelMap) (s : Core F) :
    callMethod K (objHost .DB (superCall K .DB)) DB._setup [.fs ⟨true, x⟩] ⟨m, s⟩ =
      (onCore (Gen.DB.setup x) ⟨m, s⟩).bind fun _ o => .ok .none o := by
  simp -implicitDefEqProofs only [callMethod, DB._setup, pyrun, Gen.DB.setup]

theorem inc_new (x : Vec F) (z : ℤ) (m : LabelMap) (s : Core F) {i : ℕ} {m' : LabelMap}
    (hi : m.getInternalLabel z = (i, m')) (hk : (i : ℤ) > (s.nClusters : ℤ) - 1) :
    cviCall K .DB .self_param_inc [.fs ⟨true, x⟩, .int false z] ⟨m, s⟩ =
      ((Gen.mod F .DB).paramInc x (.int z) ⟨m, s⟩).bind fun _ o => .ok .none o := by
  simp -implicitDefEqProofs only [cviCall, cls, callMethod]
  simp -implicitDefEqProofs only [DB._param_inc, Module.paramInc, Gen.mod, Gen.DBmod, Gen.DB.incBody, Gen.setupOrMu, setupIfFirst]
  by_cases h0 : s.nSamples = 0
  all_goals
    by_cases h1 : s.nClusters = 0
    · simp -implicitDefEqProofs only [h1, Nat.cast_zero] at hk
      simp -implicitDefEqProofs only [pyrun, selfCall, getLabel_eq, hi, h0, hk, h1, cls, setup_eq, Gen.DB.setup, Gen.DB.incNew, distNew, Verif.DB.appendS, Verif.DB.setS]
      pysteps
    · simp -implicitDefEqProofs only [pyrun, selfCall, getLabel_eq, hi, h0, hk, h1, cls, setup_eq, Gen.DB.setup, Gen.DB.incNew, distNew,
        columnNew, setCross, setBlock_zeros, Verif.DB.appendS, Verif.DB.setS]
      pysteps
      generalize hr : runLoop Var.jx _ _ _ _ = r
      generalize hm : mapE _ _ = q
      rcases loop_fill (d := .d_column_new) (T := fun z => z = .jx ∨ z = .d_column_new) hr hm (Nat.le_add_right _ 1) (by simp -implicitDefEqProofs only [pyrun])
        (by
          intro L ys hlt hL hd
          simp -implicitDefEqProofs only [pyrun, hd, hL, or_self, set_next ys hlt, Gen.DB.dist, Gen.Vec.sqDist]
          repeat' refine tracks_bind fun _ _ => ?_
          refine tracks_filled trivial (by simp -implicitDefEqProofs only [pyrun]) fun z hz => ?_
          obtain ⟨hz1, hz2⟩ := not_or.mp hz
          rw [get_ne _ _ hz2, get_ne _ _ hz1, hL z hz])
        with ⟨e, rfl, rfl⟩ | ⟨zs, L', rfl, rfl, hd, hL⟩
      · simp -implicitDefEqProofs only [pyrun]
      · simp -implicitDefEqProofs only [pyrun, hd, hL, or_self, Nat.add_sub_cancel_left, List.replicate_one]
        pysteps

theorem inc_old (x : Vec F) (z : ℤ) (m : LabelMap) (s : Core F) {i : ℕ} {m' : LabelMap}
    (hi : m.getInternalLabel z = (i, m')) (hk : ¬ (i : ℤ) > (s.nClusters : ℤ) - 1) :
    cviCall K .DB .self_param_inc [.fs ⟨true, x⟩, .int false z] ⟨m, s⟩ =
      ((Gen.mod F .DB).paramInc x (.int z) ⟨m, s⟩).bind fun _ o => .ok .none o := by
  simp -implicitDefEqProofs only [cviCall, cls, callMethod]
  simp -implicitDefEqProofs only [DB._param_inc, Module.paramInc, Gen.mod, Gen.DBmod, Gen.DB.incBody, Gen.setupOrMu, setupIfFirst]
  by_cases h0 : s.nSamples = 0
  all_goals
    simp -implicitDefEqProofs only [pyrun, selfCall, getLabel_eq, hi, h0, hk, cls, setup_eq, Gen.DB.setup, Gen.DB.incOld, columnOld, Verif.DB.appendS, Verif.DB.setS]
    pysteps
    generalize hr : runLoop Var.jx _ _ _ _ = r
    generalize hm : mapE _ _ = q
    rcases loop_fill (d := .d_column_new) (T := fun z => z = .jx ∨ z = .d_column_new) hr hm (Nat.le_refl _) (by simp -implicitDefEqProofs only [pyrun])
      (by
        intro L ys hlt hL hd
        by_cases hji : ys.length = i
        · subst hji
          simp -implicitDefEqProofs only [pyrun, hL, or_self, Nat.cast_inj]
          refine tracks_filled trivial ?_ fun z hz => ?_
          · rw [get_ne _ _ (by decide), hd, keep_next ys hlt]
          · rw [get_ne _ _ (not_or.mp hz).1, hL z hz]
        · simp -implicitDefEqProofs only [pyrun, hd, hL, or_self, hji, Nat.cast_inj, set_next ys hlt, Gen.DB.dist, Gen.Vec.sqDist]
          repeat' refine tracks_bind fun _ _ => ?_
          refine tracks_filled trivial (by simp -implicitDefEqProofs only [pyrun]) fun z hz => ?_
          obtain ⟨hz1, hz2⟩ := not_or.mp hz
          rw [get_ne _ _ hz2, get_ne _ _ hz1, hL z hz])
      with ⟨e, rfl, rfl⟩ | ⟨zs, L', rfl, rfl, hd, hL⟩
    · simp -implicitDefEqProofs only [pyrun]
    · simp -implicitDefEqProofs only [pyrun, hd, hL, or_self, Nat.sub_self, List.replicate_zero, List.append_nil]
      pysteps

theorem inc_eq (x : Vec F) (z : ℤ) (m : LabelMap) (s : Core F) :
    cviCall K .DB .self_param_inc [.fs ⟨true, x⟩, .int false z] ⟨m, s⟩ =
      ((Gen.mod F .DB).paramInc x (.int z) ⟨m, s⟩).bind fun _ o => .ok .none o := by
  by_cases hk : ((m.getInternalLabel z).1 : ℤ) > (s.nClusters : ℤ) - 1
  · exact inc_new K x z m s rfl hk
  · exact inc_old K x z m s rfl hk

theorem eval_eq (m : LabelMap) (s : Core F) :
    Same (cviCall K .DB .self_evaluate [] ⟨m, s⟩) ((onCore (Gen.mod F .DB).evaluate ⟨m, s⟩).bind fun _ o => .ok .none o) := by
  simp -implicitDefEqProofs only [cviCall, cls, callMethod]
  simp -implicitDefEqProofs only [DB._evaluate, Gen.mod, Gen.DBmod, Gen.DB.evaluate]
  by_cases h : s.nClusters > 1
  · have h1 : ((s.nClusters : ℤ) - 1) = ((s.nClusters - 1 : ℕ) : ℤ) := by omega
    simp -implicitDefEqProofs only [pyrun, gt_one, h, h1, Gen.DB.ratios, ← foldE_upper]
    generalize hr : runLoop Var.ix _ _ _ _ = r
    generalize hm : foldE _ _ _ = q
    rcases loop_fold' (fun _ h _ o => o = ⟨m, { s with R := natMat s.nClusters fun a b => h b a }⟩) hr hm
      (by rw [natMat_zeros]) (by
        rintro d i r h L o hl rfl
        have hi : i < s.nClusters - 1 := List.mem_range.mp (hl ▸ by simp)
        simp -implicitDefEqProofs only [pyrun]
        generalize hr : runLoop Var.jx _ _ _ _ = r
        generalize hm : foldE _ _ _ = q
        rcases loop_fold' (fun _ h L o => L.get .ix = .ok (.int false i) ∧
            o = ⟨m, { s with R := natMat s.nClusters fun a b => h b a }⟩) hr hm
          ⟨by simp -implicitDefEqProofs only [pyrun], rfl⟩ (by
            rintro d j r h L o hl ⟨hL, rfl⟩
            have hj : j ∈ List.range' (i + 1) (s.nClusters - (i + 1)) := hl ▸ by simp
            have hj : j < s.nClusters := by have := List.mem_range'_1.mp hj; omega
            simp -implicitDefEqProofs only [pyrun, hL, Gen.DB.ratio, setEntry_natMat _ hj (show i < s.nClusters by omega)]
            refine .bind fun _ _ => .bind fun _ _ => .bind fun _ _ => .ok trivial ⟨?_, ?_⟩
            · simp -implicitDefEqProofs only [pyrun, hL]
            · congr 3
              funext a b
              simp only [upd, and_comm])
          with ⟨e, s', rfl, rfl⟩ | ⟨h', L', s', rfl, rfl, hL, rfl⟩
        · exact ⟨_, rfl⟩
        · exact .ok trivial rfl)
      with ⟨e, s', rfl, rfl⟩ | ⟨h', L', s', rfl, rfl, rfl⟩
    · exact ⟨_, rfl⟩
    · simp -implicitDefEqProofs only [pyrun, natMat_transpose]
      refine .andThen fun _ _ => ?_
      refine .andThen fun _ _ => .of_eq rfl
  · refine .of_eq ?_
    simp -implicitDefEqProofs only [pyrun, gt_one, h]

end Verif.Source.DBp
