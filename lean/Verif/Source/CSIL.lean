import Verif.Source.Fold

set_option linter.unusedSectionVars false
set_option linter.constructorNameAsVariable false
set_option linter.unusedSimpArgs false

/-! # The text of `cSIL` does what `Verif/Gen/CSIL.lean` says -/

namespace Verif.Source.CSILp
attribute [local congr] andThen_head bind_head ebind_head mapState_head cond_head

variable {F : Type} [Arith F] [Laws F] (K : Lits F)

theorem setup_eq (x : Vec F) (m : LabelMap) (s : Core F) :
    callMethod K (objHost .cSIL (superCall K .cSIL)) cSIL._setup [.fs ⟨true, x⟩] ⟨m, s⟩ =
      (onCore (Gen.CSIL.setup x) ⟨m, s⟩).bind fun _ o => .ok .none o := by
  simp -implicitDefEqProofs only [callMethod, cSIL._setup, pyrun, Gen.CSIL.setup]

/-- The variables the loops assign. -/
def inLoop (z : Var) : Prop := z = .cl ∨ z = .C ∨ z = .S_col_new ∨ z = .S_row_new ∨ z = .diff_x_v

theorem inc_new (x : Vec F) (z : ℤ) (m : LabelMap) (s : Core F) {i : ℕ} {m' : LabelMap}
    (hi : m.getInternalLabel z = (i, m')) (hk : (i : ℤ) > (s.nClusters : ℤ) - 1) :
    Agree (cviCall K .cSIL .self_param_inc [.fs ⟨true, x⟩, .int false z] ⟨m, s⟩)
      (((Gen.mod F .cSIL).paramInc x (.int z) ⟨m, s⟩).bind fun _ o => .ok .none o) := by
  simp -implicitDefEqProofs only [cviCall, cls, callMethod]
  simp -implicitDefEqProofs only [cSIL._param_inc, Module.paramInc, Gen.mod, Gen.CSILmod, Gen.CSIL.incBody, setupIfFirst]
  by_cases h0 : s.nSamples = 0
  all_goals
    by_cases h1 : s.nClusters = 0
    · simp -implicitDefEqProofs only [h1, Nat.cast_zero] at hk
      simp -implicitDefEqProofs only [pyrun, selfCall, getLabel_eq, hi, h0, hk, h1, cls, setup_eq, Gen.CSIL.setup, Gen.CSIL.incNew, Gen.CSIL.sNew]
      agreesteps
    · simp -implicitDefEqProofs only [pyrun, selfCall, getLabel_eq, hi, h0, hk, h1, cls, setup_eq, Gen.CSIL.setup, Gen.CSIL.incNew, Gen.CSIL.sNew,
        columnNew, setCross, setBlock_zeros]
      refine Agree.andThen fun Sn hSn => ?_
      generalize hr : runLoop Var.cl _ _ _ _ = r
      generalize hf : Gen.CSIL.colNew (F := F) _ _ _ = f
      generalize hg : Gen.CSIL.rowEntry (F := F) _ _ = g
      rcases loop_two (c := .S_col_new) (d := .S_row_new) (T := inLoop) (f := f)
        (g := g) hr (Nat.le_add_right _ 1) (by simp -implicitDefEqProofs only [pyrun]) (by simp -implicitDefEqProofs only [pyrun])
        (by
          intro L ys zs hlen hlt hL hc hd
          subst hf hg
          simp -implicitDefEqProofs only [pyrun, hc, hd, hL, inLoop, or_self, hlen, set_at rfl hlt, set_at hlen hlt,
            Gen.CSIL.colNew, Gen.CSIL.rowEntry]
          endsteps
          refine .ok trivial ⟨rfl, ?_, ?_, fun z hz => ?_⟩
          · simp -implicitDefEqProofs only [pyrun, List.append_assoc, List.cons_append, List.nil_append]
          · simp -implicitDefEqProofs only [pyrun, List.append_assoc, List.cons_append, List.nil_append]
          · simp only [not_or] at hz
            simp only [get_ne, hz, ne_eq, not_false_eq_true, hL z (by simp [inLoop, hz])])
        with ⟨e, s', rfl, h⟩ | ⟨ys, zs, L', hy, hz, rfl, hc, hd, hL⟩
      · simp -implicitDefEqProofs only [pyrun]
        exact .either h
      · have hyl := range_length hy
        have hzl := range_length hz
        by_cases hik : i = s.nClusters
        · simp -implicitDefEqProofs only [pyrun, hc, hd, hL, inLoop, or_self, hy, hz, Nat.add_sub_cancel_left, List.replicate_one, hik,
            set_last hyl, set_last hzl, get_last hyl]
          agreesteps
        · have hS : ¬ i < Sn.rows.length := by rw [enlarge_rows hSn]; omega
          simp -implicitDefEqProofs only [pyrun, hc, hd, hL, inLoop, or_self, hy, hz, Nat.add_sub_cancel_left, List.replicate_one, setRow_out hS,
            set_out (q := ⟨true, ys ++ [0]⟩) (i := i) (by simp [hyl]; omega)]
          exact ⟨_, _, rfl⟩

/-- An entry of the new row, with the skipped one left at zero. -/
def colBody (s : Core F) (i : ℕ) (cp : F) (n : ℕ) (g x : Vec F) (cl : ℕ) : Except PyErr F :=
  if cl = i then .ok 0 else s.v.row cl >>= fun r => Gen.CSIL.colOldEntry cp n g x r

/-- An entry of the new column, with the skipped one left at zero. -/
def rowBody (s : Core F) (i : ℕ) (v : Vec F) (cl : ℕ) : Except PyErr F :=
  if cl = i then .ok 0 else Gen.CSIL.rowEntry s v cl

theorem colOld_own (s : Core F) (i : ℕ) (cp : F) (n : ℕ) (g x : Vec F) (own : F) :
    Gen.CSIL.colOld s i cp n g x own = mapE (colBody s i cp n g x) (List.range s.nClusters) >>= fun ys => .ok (ys.set i own) := by
  simp only [Gen.CSIL.colOld, List.range_eq_range']
  exact mapE_skip own _ 0 (Nat.zero_le i)

theorem rowOld_own (s : Core F) (i : ℕ) (v : Vec F) (own : F) :
    Gen.CSIL.rowOld s i v own = mapE (rowBody s i v) (List.range s.nClusters) >>= fun ys => .ok (ys.set i own) := by
  simp only [Gen.CSIL.rowOld, List.range_eq_range']
  exact mapE_skip own _ 0 (Nat.zero_le i)

theorem inc_old (x : Vec F) (z : ℤ) (m : LabelMap) (s : Core F) {i : ℕ} {m' : LabelMap}
    (hi : m.getInternalLabel z = (i, m')) (hk : ¬ (i : ℤ) > (s.nClusters : ℤ) - 1) :
    Agree (cviCall K .cSIL .self_param_inc [.fs ⟨true, x⟩, .int false z] ⟨m, s⟩)
      (((Gen.mod F .cSIL).paramInc x (.int z) ⟨m, s⟩).bind fun _ o => .ok .none o) := by
  simp -implicitDefEqProofs only [cviCall, cls, callMethod]
  simp -implicitDefEqProofs only [cSIL._param_inc, Module.paramInc, Gen.mod, Gen.CSILmod, Gen.CSIL.incBody, setupIfFirst]
  by_cases h0 : s.nSamples = 0
  all_goals
    simp -implicitDefEqProofs only [pyrun, selfCall, getLabel_eq, hi, h0, hk, cls, setup_eq, Gen.CSIL.setup, Gen.CSIL.incOld,
      Gen.runningMean, Verif.CSIL.setS, colOld_own, rowOld_own]
    agreesteps
  on_goal 1 => rename_i nOld hn vRow hv vNew hvn cps hcps cp hcp gRow hgr gN hgn
  on_goal 2 => rename_i nOld hn vRow hv vNew hvn cps hcps cp hcp G hG gRow hgr gN hgn
  all_goals
    generalize hr : runLoop Var.cl _ _ _ _ = r
    generalize hf : colBody (F := F) _ _ _ _ _ _ = f
    generalize hg : rowBody (F := F) _ _ _ = g
    rcases loop_two (c := .S_col_new) (d := .S_row_new) (T := inLoop) (f := f)
      (g := g) hr (Nat.le_refl _) (by simp -implicitDefEqProofs only [pyrun]) (by simp -implicitDefEqProofs only [pyrun])
      (by
        intro L ys zs hlen hlt hL hc hd
        subst hf hg
        by_cases hcl : ys.length = i
        · simp -implicitDefEqProofs only [pyrun, hc, hd, hL, inLoop, or_self, colBody, rowBody, hcl]
          refine .ok trivial ⟨rfl, ?_, ?_, fun z hz => ?_⟩
          · simp -implicitDefEqProofs only [pyrun, hc, ← hcl, keep_at rfl hlt]
          · simp -implicitDefEqProofs only [pyrun, hd, ← hcl, keep_at hlen hlt, hlen]
          · simp only [not_or] at hz
            simp only [get_ne, hz, ne_eq, not_false_eq_true, hL z (by simp [inLoop, hz])]
        · have hcl' : ¬ (ys.length : ℤ) = (i : ℤ) := by omega
          simp -implicitDefEqProofs only [pyrun, hc, hd, hL, inLoop, or_self, hlen, set_at rfl hlt, set_at hlen hlt,
            colBody, rowBody, hcl, hcl', hn, hcps, hcp, Gen.CSIL.colOldEntry, Gen.CSIL.rowEntry]
          endsteps
          refine .ok trivial ⟨rfl, ?_, ?_, fun z hz => ?_⟩
          · simp -implicitDefEqProofs only [pyrun, List.append_assoc, List.cons_append, List.nil_append]
          · simp -implicitDefEqProofs only [pyrun, List.append_assoc, List.cons_append, List.nil_append]
          · simp only [not_or] at hz
            simp only [get_ne, hz, ne_eq, not_false_eq_true, hL z (by simp [inLoop, hz])])
      with ⟨e, s', rfl, h⟩ | ⟨ys, zs, L', hy, hz, rfl, hc, hd, hL⟩
    · simp -implicitDefEqProofs only [pyrun]
      cases Gen.CSIL.colOldEntry cp nOld gRow x vNew with
      | error e => exact ⟨_, _, rfl⟩
      | ok own => exact .skip_right rfl (.either h)
    · have hyl := range_length hy
      have hzl := range_length hz
      have hyi : i < ys.length := by omega
      have hzi : i < zs.length := by omega
      simp -implicitDefEqProofs only [pyrun, hc, hd, hL, inLoop, or_self, hy, hz, Nat.sub_self, List.replicate_zero, List.append_nil,
            set_in hyi, set_in hzi, get_set hyi, Gen.CSIL.colOldEntry]
      agreesteps

theorem inc_eq (x : Vec F) (z : ℤ) (m : LabelMap) (s : Core F) :
    Agree (cviCall K .cSIL .self_param_inc [.fs ⟨true, x⟩, .int false z] ⟨m, s⟩)
      (((Gen.mod F .cSIL).paramInc x (.int z) ⟨m, s⟩).bind fun _ o => .ok .none o) := by
  by_cases hk : ((m.getInternalLabel z).1 : ℤ) > (s.nClusters : ℤ) - 1
  · exact inc_new K x z m s rfl hk
  · exact inc_old K x z m s rfl hk

theorem eval_eq (m : LabelMap) (s : Core F) :
    Same (cviCall K .cSIL .self_evaluate [] ⟨m, s⟩) ((onCore (Gen.mod F .cSIL).evaluate ⟨m, s⟩).bind fun _ o => .ok .none o) := by
  simp -implicitDefEqProofs only [cviCall, cls, callMethod]
  simp -implicitDefEqProofs only [cSIL._evaluate, Gen.mod, Gen.CSILmod, Gen.CSIL.evaluate]
  by_cases h : s.nClusters > 1
  · cases ha : Gen.Arr2.any s.Sm with
    | true =>
      simp -implicitDefEqProofs only [pyrun, gt_one, h, ha]
      generalize hr : runLoop Var.ix _ _ _ _ = r
      generalize hd : Gen.CSIL.coef (F := F) _ = dev
      have hf := foldE_snoc (f := dev) (List.range s.nClusters) []
      generalize hm : foldE _ _ (List.range s.nClusters) = q at hf
      rcases loop_fold' (fun d ys L o => d = List.range ys.length ∧
          o = ⟨m, { s with silCoefs := ys ++ List.replicate (s.nClusters - ys.length) 0 }⟩) hr hm
        ⟨rfl, rfl⟩ (by
          rintro d i r ys L o hl ⟨rfl, rfl⟩
          have hle : ys.length < s.nClusters := by
            have := congrArg List.length hl; simp at this; omega
          have hi : i = ys.length := by
            have := congrArg (·[ys.length]?) hl
            simpa [hle] using this.symm
          subst hi hd
          simp -implicitDefEqProofs only [pyrun, Gen.CSIL.coef, set_next ys hle]
          endsteps
          refine .ok trivial ⟨?_, ?_⟩
          · simp [List.range_succ]
          · simp [Nat.sub_sub])
        with ⟨e, s', rfl, rfl⟩ | ⟨ys, L', s', rfl, rfl, hy, rfl⟩
      · cases hmap : mapE dev (List.range s.nClusters) with
        | error e' => rw [hmap] at hf; cases hf; exact ⟨_, rfl⟩
        | ok zs => rw [hmap] at hf; cases hf
      · have hlen : s.nClusters = ys.length := by have := congrArg List.length hy; simpa using this
        cases hmap : mapE dev (List.range s.nClusters) with
        | error e' => rw [hmap] at hf; cases hf
        | ok zs =>
          rw [hmap] at hf; cases hf
          simp only [List.nil_append] at hlen
          simp -implicitDefEqProofs only [pyrun, ← hlen, Nat.sub_self, List.replicate_zero, List.append_nil, List.nil_append]
          exact .of_eq rfl
    | false =>
      simp -implicitDefEqProofs only [pyrun, gt_one, h, ha]
      exact .of_eq rfl
  · simp -implicitDefEqProofs only [pyrun, gt_one, h]
    exact .of_eq rfl

end Verif.Source.CSILp
