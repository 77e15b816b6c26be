import Verif.Source.Fold

set_option linter.unusedSectionVars false
set_option linter.constructorNameAsVariable false
set_option linter.unusedSimpArgs false

/-! # The text of `PS` does what `Verif/Gen/PS.lean` says -/

namespace Verif.Source.PSp
attribute [local congr] andThen_head bind_head ebind_head mapState_head cond_head

variable {F : Type} [Arith F] [Laws F] (K : Lits F)

theorem setup_eq (x : Vec F) (m : LabelMap) (s : Core F) :
    callMethod K (objHost .PS (superCall K .PS)) PS._setup [.fs ⟨true, x⟩] ⟨m, s⟩ =
      (onCore (Gen.PS.setup x) ⟨m, s⟩).bind fun _ o => .ok .none o := by
  simp -implicitDefEqProofs only [callMethod, PS._setup, pyrun, Gen.PS.setup]

theorem inc_new (x : Vec F) (z : ℤ) (m : LabelMap) (s : Core F) {i : ℕ} {m' : LabelMap}
    (hi : m.getInternalLabel z = (i, m')) (hk : (i : ℤ) > (s.nClusters : ℤ) - 1) :
    cviCall K .PS .self_param_inc [.fs ⟨true, x⟩, .int false z] ⟨m, s⟩ =
      ((Gen.mod F .PS).paramInc x (.int z) ⟨m, s⟩).bind fun _ o => .ok .none o := by
  simp -implicitDefEqProofs only [cviCall, cls, callMethod]
  simp -implicitDefEqProofs only [PS._param_inc, Module.paramInc, Gen.mod, Gen.PSmod, Gen.PS.incBody, Gen.setupOrMu, setupIfFirst]
  by_cases h0 : s.nSamples = 0
  all_goals
    by_cases h1 : s.nClusters = 0
    · simp -implicitDefEqProofs only [h1, Nat.cast_zero] at hk
      simp -implicitDefEqProofs only [pyrun, selfCall, getLabel_eq, hi, h0, hk, h1, cls, setup_eq, Gen.PS.setup, Gen.PS.incNew, distNew]
      pysteps
    · simp -implicitDefEqProofs only [pyrun, selfCall, getLabel_eq, hi, h0, hk, h1, cls, setup_eq, Gen.PS.setup, Gen.PS.incNew, distNew,
        columnNew, setCross, setBlock_zeros]
      pysteps
      generalize hr : runLoop Var.jx _ _ _ _ = r
      generalize hm : mapE _ _ = q
      rcases loop_fill (d := .d_column_new) (T := fun z => z = .jx ∨ z = .d_column_new) hr hm (Nat.le_add_right _ 1) (by simp -implicitDefEqProofs only [pyrun])
        (by
          intro L ys hlt hL hd
          simp -implicitDefEqProofs only [pyrun, hd, hL, or_self, set_next ys hlt, Gen.PS.dist, Gen.Vec.sqDist]
          repeat' refine tracks_bind fun _ _ => ?_
          refine tracks_filled trivial (by simp -implicitDefEqProofs only [pyrun]) fun z hz => ?_
          obtain ⟨hz1, hz2⟩ := not_or.mp hz
          rw [get_ne _ _ hz2, get_ne _ _ hz1, hL z hz])
        with ⟨e, rfl, rfl⟩ | ⟨zs, L', rfl, rfl, hd, hL⟩
      · simp -implicitDefEqProofs only [pyrun]
      · simp -implicitDefEqProofs only [pyrun, hd, hL, or_self, Nat.add_sub_cancel_left, List.replicate_one]
        pysteps

theorem inc_old (x : Vec F) (z : ℤ) (m : LabelMap) (s : Core F) {i : ℕ} {m' : LabelMap}
    (hi : m.getInternalLabel z = (i, m')) (hk : ¬ (i : ℤ) > (s.nClusters : ℤ) - 1) :
    cviCall K .PS .self_param_inc [.fs ⟨true, x⟩, .int false z] ⟨m, s⟩ =
      ((Gen.mod F .PS).paramInc x (.int z) ⟨m, s⟩).bind fun _ o => .ok .none o := by
  simp -implicitDefEqProofs only [cviCall, cls, callMethod]
  simp -implicitDefEqProofs only [PS._param_inc, Module.paramInc, Gen.mod, Gen.PSmod, Gen.PS.incBody, Gen.setupOrMu, setupIfFirst]
  by_cases h0 : s.nSamples = 0
  all_goals
    simp -implicitDefEqProofs only [pyrun, selfCall, getLabel_eq, hi, h0, hk, cls, setup_eq, Gen.PS.setup, Gen.PS.incOld, columnOld]
    pysteps
    generalize hr : runLoop Var.jx _ _ _ _ = r
    generalize hm : mapE _ _ = q
    rcases loop_fill (d := .d_column_new) (T := fun z => z = .jx ∨ z = .d_column_new) hr hm (Nat.le_refl _) (by simp -implicitDefEqProofs only [pyrun])
      (by
        intro L ys hlt hL hd
        by_cases hji : ys.length = i
        · subst hji
          simp -implicitDefEqProofs only [pyrun, hL, or_self, Nat.cast_inj]
          refine tracks_filled trivial ?_ fun z hz => ?_
          · rw [get_ne _ _ (by decide), hd, keep_next ys hlt]
          · rw [get_ne _ _ (not_or.mp hz).1, hL z hz]
        · simp -implicitDefEqProofs only [pyrun, hd, hL, or_self, hji, Nat.cast_inj, set_next ys hlt, Gen.PS.dist, Gen.Vec.sqDist]
          repeat' refine tracks_bind fun _ _ => ?_
          refine tracks_filled trivial (by simp -implicitDefEqProofs only [pyrun]) fun z hz => ?_
          obtain ⟨hz1, hz2⟩ := not_or.mp hz
          rw [get_ne _ _ hz2, get_ne _ _ hz1, hL z hz])
      with ⟨e, rfl, rfl⟩ | ⟨zs, L', rfl, rfl, hd, hL⟩
    · simp -implicitDefEqProofs only [pyrun]
    · simp -implicitDefEqProofs only [pyrun, hd, hL, or_self, Nat.sub_self, List.replicate_zero, List.append_nil]
      pysteps

theorem inc_eq (x : Vec F) (z : ℤ) (m : LabelMap) (s : Core F) :
    cviCall K .PS .self_param_inc [.fs ⟨true, x⟩, .int false z] ⟨m, s⟩ =
      ((Gen.mod F .PS).paramInc x (.int z) ⟨m, s⟩).bind fun _ o => .ok .none o := by
  by_cases hk : ((m.getInternalLabel z).1 : ℤ) > (s.nClusters : ℤ) - 1
  · exact inc_new K x z m s rfl hk
  · exact inc_old K x z m s rfl hk

theorem max_cases (l : List ℕ) : (∃ n, l.max? = some n) ∨ l.max? = none := by
  cases l.max? <;> simp

theorem eval_eq (m : LabelMap) (s : Core F) (hn : s.n.isArr = false) :
    Same (cviCall K .PS .self_evaluate [] ⟨m, s⟩) ((onCore (Gen.mod F .PS).evaluate ⟨m, s⟩).bind fun _ o => .ok .none o) := by
  simp -implicitDefEqProofs only [cviCall, cls, callMethod]
  simp -implicitDefEqProofs only [PS._evaluate, Gen.mod, Gen.PSmod, Gen.PS.evaluate]
  by_cases h : s.nClusters > 1
  · simp -implicitDefEqProofs only [pyrun, gt_one, h, maxInts, Laws.pySum]
    generalize hr : runLoop Var.ix _ _ _ _ = r
    generalize hd : Gen.PS.devSq (F := F) _ = dev
    have hf := foldE_add (f := dev) (List.range s.nClusters) 0
    generalize hm : foldE _ _ (List.range s.nClusters) = q at hf
    rcases loop_fold' (fun _ b _ o => o = ⟨m, { s with vBar := Gen.Arr2.mean0 s.v, betaT := b, PSi := List.replicate s.nClusters 0 }⟩) hr hm
      rfl (by
        rintro d i r b L o hl rfl
        subst hd
        simp -implicitDefEqProofs only [pyrun, Gen.PS.devSq]
        exact .bind fun _ _ => .bind fun _ _ => .ok trivial rfl)
      with ⟨e, s', rfl, rfl⟩ | ⟨b, L', s', rfl, rfl, rfl⟩
    · cases hmap : mapE dev (List.range s.nClusters) with
      | error e' => rw [hmap] at hf; cases hf; exact ⟨_, rfl⟩
      | ok zs => rw [hmap] at hf; cases hf
    · cases hmap : mapE dev (List.range s.nClusters) with
      | error e' => rw [hmap] at hf; cases hf
      | ok zs =>
        rw [hmap] at hf; cases hf
        rcases max_cases s.n.items with ⟨nMax, hx⟩ | hx
        · simp -implicitDefEqProofs only [pyrun, maxInts, hx]
          generalize hr : runLoop Var.ix _ _ _ _ = r
          generalize hd : Gen.PS.psTerm (F := F) _ _ = dev
          have hf := foldE_snoc (f := dev) (List.range s.nClusters) []
          generalize hm : foldE _ _ (List.range s.nClusters) = q at hf
          rcases loop_fold' (fun d ys L o => d = List.range ys.length ∧ L.get .n_max = .ok (.int false nMax) ∧
              o = ⟨m, { s with
                vBar := Gen.Arr2.mean0 s.v
                betaT := List.foldl (· + ·) 0 zs / Arith.ofNat s.nClusters
                PSi := ys ++ List.replicate (s.nClusters - ys.length) 0 }⟩) hr hm
            ⟨rfl, by simp -implicitDefEqProofs only [pyrun], rfl⟩ (by
              rintro d i r ys L o hl ⟨rfl, hL, rfl⟩
              have hle : ys.length < s.nClusters := by
                have := congrArg List.length hl; simp at this; omega
              have hi : i = ys.length := by
                have := congrArg (·[ys.length]?) hl
                simpa [hle] using this.symm
              subst hi hd
              simp -implicitDefEqProofs only [pyrun, hL, Gen.PS.psTerm, hn, divInt_nat, set_next ys hle]
              refine .bind fun _ _ => .bind fun _ _ => .bind fun _ _ => .bind fun _ _ => .bind fun _ _ => .ok trivial ⟨?_, ?_, ?_⟩
              · simp [List.range_succ]
              · simp -implicitDefEqProofs only [pyrun, hL]
              · simp [Nat.sub_sub])
            with ⟨e, s', rfl, rfl⟩ | ⟨ys, L', s', rfl, rfl, hy, -, rfl⟩
          · cases hmap : mapE dev (List.range s.nClusters) with
            | error e' => rw [hmap] at hf; cases hf; exact ⟨_, rfl⟩
            | ok zs => rw [hmap] at hf; cases hf
          · have hlen : s.nClusters = ys.length := by have := congrArg List.length hy; simpa using this
            cases hmap : mapE dev (List.range s.nClusters) with
            | error e' => rw [hmap] at hf; cases hf
            | ok zs =>
              rw [hmap] at hf; cases hf
              simp only [List.nil_append] at hlen
              simp -implicitDefEqProofs only [pyrun, ← hlen, Nat.sub_self, List.replicate_zero, List.append_nil, List.nil_append]
              exact .of_eq rfl
        · simp -implicitDefEqProofs only [pyrun, maxInts, hx]
          exact ⟨_, rfl⟩
  · refine .of_eq ?_
    simp -implicitDefEqProofs only [pyrun, gt_one, h]

end Verif.Source.PSp
