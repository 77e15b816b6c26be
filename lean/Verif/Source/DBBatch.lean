import Verif.Source.Batch
import Verif.Source.DB

set_option linter.unusedSectionVars false
set_option linter.constructorNameAsVariable false
set_option linter.unusedSimpArgs false

/-! # Batch mode of `DB` -/

namespace Verif.Source.DBp
attribute [local congr] andThen_head bind_head ebind_head mapState_head cond_head

variable {F : Type} [Arith F] [Laws F] (K : Lits F)

theorem batch_eq (a : Arr2 F) (labels : List ℤ) (hw : ∀ r ∈ a.rows, r.length = a.cols) (hk : 1 < uniqueSize labels)
    (m : LabelMap) (s : Core F) :
    Same (cviCall K .DB .self_param_batch [.mat a, .zs labels] ⟨m, s⟩)
      ((onCore ((Gen.mod F .DB).paramBatch a labels) ⟨m, s⟩).bind fun _ o => .ok .none o) := by
  simp -implicitDefEqProofs only [cviCall, cls, callMethod]
  simp -implicitDefEqProofs only [DB._param_batch, Gen.mod, Gen.DBmod, Gen.DB.paramBatch]
  simp -implicitDefEqProofs only [pyrun, selfCall, unique_size, List.map_replicate]
  generalize hkk : uniqueSize labels = k at *
  generalize hr : runLoop Var.ix _ _ _ _ = r
  generalize hm : Py.forEach _ _ _ = q
  rcases loop_each (P := fun (t : Core F) (L : Locals F) (o : Obj F) => o = ⟨m, t⟩ ∧ L.get .labels = .ok (.zs labels) ∧ L.get .data = .ok (.mat a) ∧
      t.v.cols = a.cols ∧ t.D = Arr2.zeros k k ∧ t.nClusters = k) hr hm
    ⟨rfl, by simp -implicitDefEqProofs only [pyrun], by simp -implicitDefEqProofs only [pyrun], rfl, rfl, rfl⟩ (by
      rintro i hi t L o ⟨rfl, hL, hd, hv, hD, hn⟩
      have hL' : (L.put .ix (.int false (i : ℕ))).get .labels = .ok (.zs labels) := by rw [get_ne _ _ (by decide), hL]
      simp -implicitDefEqProofs only [pyrun, Gen.DB.batchStep, ↓subset_eval K _ hL' (get_same _ _ _) (by decide), hd]
      refine .andThen fun b hb => ?_
      try simp -implicitDefEqProofs only [pyrun]
      refine .andThen fun n' hn' => ?_
      try simp -implicitDefEqProofs only [pyrun]
      refine .andThen fun v' hv' => ?_
      obtain ⟨hbc, -, hbw⟩ := take_wf hb hw
      rw [← hbc] at hbw
      obtain ⟨hrow, hvc⟩ := row_of_setRow hv' (by rw [mean0_length, hbc, hv])
      simp -implicitDefEqProofs only [pyrun, hrow, get_of_set hn', mul_ones, diff_eq (mean0_length b), scatter_eq hbw (mean0_length b)]
      refine .andThen fun cp hcp => ?_
      refine .andThen fun cp' hcp' => ?_
      try simp -implicitDefEqProofs only [pyrun, get_of_set hcp', get_of_set hn', Verif.DB.setS]
      refine .andThen fun S' hS' => ?_
      try simp -implicitDefEqProofs only [pyrun]
      exact .ok trivial ⟨rfl, by simp -implicitDefEqProofs only [pyrun, hL], by simp -implicitDefEqProofs only [pyrun, hd], hvc.trans hv, hD, hn⟩)
    with ⟨e, t', s', rfl, rfl⟩ | ⟨t, L, s', rfl, rfl, rfl, hL, hd, hv, hD, hn⟩
  · simp -implicitDefEqProofs only [pyrun]
    exact ⟨_, rfl⟩
  · subst hn
    have h1 : ((t.nClusters : ℤ) - 1) = ((t.nClusters - 1 : ℕ) : ℤ) := by omega
    simp -implicitDefEqProofs only [pyrun, h1]
    generalize hr : runLoop Var.ix _ _ _ _ = r
    generalize hm : Arr2.upperTri (F := F) _ _ = q
    rcases upper_loop K hr hm hD (by
        intro i j h L hi hj hL
        simp -implicitDefEqProofs only [pyrun, hL, Gen.DB.batchDist, Gen.Vec.sqDist, setEntry_natMat _ hi hj]
        refine .bind fun _ _ => .bind fun _ _ => .bind fun _ _ => .ok trivial ⟨?_, rfl⟩
        simp -implicitDefEqProofs only [pyrun, hL])
      with ⟨e, s', rfl, rfl⟩ | ⟨D, L', rfl, rfl⟩
    · exact ⟨_, rfl⟩
    · simp -implicitDefEqProofs only [pyrun]
      exact .andThen fun _ _ => .of_eq rfl

end Verif.Source.DBp
