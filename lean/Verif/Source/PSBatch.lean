import Verif.Source.Batch
import Verif.Source.PS

set_option linter.unusedSectionVars false
set_option linter.constructorNameAsVariable false
set_option linter.unusedSimpArgs false

/-! # Batch mode of `PS` -/

namespace Verif.Source.PSp
attribute [local congr] andThen_head bind_head ebind_head mapState_head cond_head

variable {F : Type} [Arith F] [Laws F] (K : Lits F)

theorem batch_eq (a : Arr2 F) (labels : List ℤ) (hw : ∀ r ∈ a.rows, r.length = a.cols) (hk : 1 < uniqueSize labels)
    (m : LabelMap) (s : Core F) :
    Same (cviCall K .PS .self_param_batch [.mat a, .zs labels] ⟨m, s⟩)
      ((onCore ((Gen.mod F .PS).paramBatch a labels) ⟨m, s⟩).bind fun _ o => .ok .none o) := by
  simp -implicitDefEqProofs only [cviCall, cls, callMethod]
  simp -implicitDefEqProofs only [PS._param_batch, Gen.mod, Gen.PSmod, Gen.PS.paramBatch]
  simp -implicitDefEqProofs only [pyrun, selfCall, unique_size]
  generalize hkk : uniqueSize labels = k at *
  generalize hr : runLoop Var.ix _ _ _ _ = r
  generalize hm : Py.forEach _ _ _ = q
  rcases loop_each (P := fun (t : Core F) (L : Locals F) (o : Obj F) => o = ⟨m, t⟩ ∧ L.get .labels = .ok (.zs labels) ∧ L.get .data = .ok (.mat a) ∧
      t.v.cols = a.cols ∧ t.D = Arr2.zeros k k ∧ t.nClusters = k) hr hm
    ⟨rfl, by simp -implicitDefEqProofs only [pyrun], by simp -implicitDefEqProofs only [pyrun], rfl, rfl, rfl⟩ (by
      rintro i hi t L o ⟨rfl, hL, hd, hv, hD, hn⟩
      have hL' : (L.put .ix (.int false (i : ℕ))).get .labels = .ok (.zs labels) := by rw [get_ne _ _ (by decide), hL]
      simp -implicitDefEqProofs only [pyrun, Gen.PS.batchStep, ↓subset_eval K _ hL' (get_same _ _ _) (by decide), hd]
      refine Follows.andThen (F := F) fun b hb => ?_
      try simp -implicitDefEqProofs only [pyrun]
      refine .andThen fun n' hn' => ?_
      try simp -implicitDefEqProofs only [pyrun]
      refine .andThen fun v' hv' => ?_
      obtain ⟨hbc, -, -⟩ := take_wf hb hw
      obtain ⟨-, hvc⟩ := row_of_setRow hv' (by rw [mean0_length, hbc, hv])
      try simp -implicitDefEqProofs only [pyrun]
      exact .ok trivial ⟨rfl, by simp -implicitDefEqProofs only [pyrun, hL], by simp -implicitDefEqProofs only [pyrun, hd], hvc.trans hv, hD, hn⟩)
    with ⟨e, t', s', rfl, rfl⟩ | ⟨t, L, s', rfl, rfl, rfl, hL, hd, hv, hD, hn⟩
  · simp -implicitDefEqProofs only [pyrun]
    exact ⟨_, rfl⟩
  · subst hn
    have h1 : ((t.nClusters : ℤ) - 1) = ((t.nClusters - 1 : ℕ) : ℤ) := by omega
    simp -implicitDefEqProofs only [pyrun, h1]
    generalize hr : runLoop Var.ix _ _ _ _ = r
    generalize hm : Arr2.upperTri (F := F) _ _ = q
    rcases upper_loop K hr hm hD (by
        intro i j h L hi hj hL
        simp -implicitDefEqProofs only [pyrun, hL, Gen.PS.batchDist, Gen.Vec.sqDist, setEntry_natMat _ hi hj]
        refine .bind fun _ _ => .bind fun _ _ => .bind fun _ _ => .ok trivial ⟨?_, rfl⟩
        simp -implicitDefEqProofs only [pyrun, hL])
      with ⟨e, s', rfl, rfl⟩ | ⟨D, L', rfl, rfl⟩
    · exact ⟨_, rfl⟩
    · simp -implicitDefEqProofs only [pyrun]
      exact .andThen fun _ _ => .of_eq rfl

end Verif.Source.PSp
