import Verif.Source.Batch
import Verif.Source.RCIP

set_option linter.unusedSectionVars false
set_option linter.constructorNameAsVariable false
set_option linter.unusedSimpArgs false

/-! # Batch mode of `rCIP` -/

namespace Verif.Source.RCIPp
attribute [local congr] andThen_head bind_head ebind_head mapState_head cond_head

variable {F : Type} [Arith F] [Laws F] (K : Lits F) (hK : LitLaws K)

/-- `Gen.RCIP.batchDist` in the order of the source: the difference of the centroids before the pages. -/
def batchDist' (s : Core F) (ix jx : ℕ) : Except PyErr F :=
  s.v.row ix >>= fun a => s.v.row jx >>= fun b => Gen.Vec.sub a b >>= fun diffM =>
    pageOf s.sigma ix >>= fun p => pageOf s.sigma jx >>= fun q =>
    Gen.Arr2.add p q >>= fun sigmaQ => Arith.det sigmaQ >>= fun dt => Arith.inv sigmaQ >>= fun inv =>
    Gen.Arr2.vecMul (Gen.Vec.smul Arith.negHalf diffM) inv >>= fun w => Gen.Vec.inner w diffM >>= fun q =>
    .ok (s.constant * (Arith.one / Arith.sqrt dt) * Arith.exp q)

theorem batchDist_similar (s : Core F) (ix jx : ℕ) : Similar (Gen.RCIP.batchDist s ix jx) (batchDist' s ix jx) := by
  refine .bind (.refl _) fun a => .bind (.refl _) fun b => ?_
  have h := Similar.swap (x := pageOf s.sigma ix >>= fun p => pageOf s.sigma jx >>= fun q => .ok (p, q)) (y := Gen.Vec.sub a b)
    (f := fun pq diffM =>
      Gen.Arr2.add pq.1 pq.2 >>= fun sigmaQ => Arith.det sigmaQ >>= fun dt => Arith.inv sigmaQ >>= fun inv =>
      Gen.RCIP.quad diffM inv >>= fun q => .ok (s.constant * (Arith.one / Arith.sqrt dt) * Arith.exp q))
  simp only [Gen.RCIP.quad, except_assoc, except_bind_ok] at h
  simp only [page_eq, Gen.RCIP.cip, Gen.RCIP.quad, except_assoc, except_pure]
  exact h

theorem upper_similar (k : ℕ) {f g : ℕ → ℕ → Except PyErr F} (h : ∀ i j, Similar (f i j) (g i j)) :
    Similar (Arr2.upperTri k f) (Arr2.upperTri k g) := by
  refine (Similar.mapE (fun i => Similar.mapE (fun j => ?_) _) _).bind fun _ => .refl _
  by_cases hij : i < j
  · simp only [hij, if_true]; exact h i j
  · simp only [hij, if_false]; exact .refl _

/-- `1 / (n - 1)` -/
theorem div_pred {n : ℕ} (h : n > 1) : (divInt false 1 ((n : ℤ) - 1) : Except PyErr F) = .ok (Arith.invPred n) := by
  rw [divInt_ne _ _ (by omega), Laws.invPred n h]

include hK

theorem batch_eq (a : Arr2 F) (labels : List ℤ) (hw : ∀ r ∈ a.rows, r.length = a.cols) (hk : 1 < uniqueSize labels)
    (m : LabelMap) (s : Core F) :
    Agree (cviCall K .rCIP .self_param_batch [.mat a, .zs labels] ⟨m, s⟩)
      ((onCore ((Gen.mod F .rCIP).paramBatch a labels) ⟨m, s⟩).bind fun _ o => .ok .none o) := by
  simp -implicitDefEqProofs only [cviCall, cls, callMethod]
  simp -implicitDefEqProofs only [rCIP._param_batch, Gen.mod, Gen.RCIPmod, Gen.RCIP.paramBatch]
  by_cases h : a.cols = 0
  · simp -implicitDefEqProofs only [pyrun, selfCall, unique_size, Gen.RCIP.deltaTerm, h]
    exact .of_eq rfl
  simp -implicitDefEqProofs only [pyrun, selfCall, unique_size, Gen.RCIP.deltaTerm, h, hK.delta _ h, delta_map, hK.normConst]
  refine .andThen fun c hc => ?_
  generalize hkk : uniqueSize labels = k at *
  generalize hr : runLoop Var.ix _ _ _ _ = r
  generalize hm : Py.forEach _ _ _ = q
  rcases loop_each (P := fun (t : Core F) (L : Locals F) (o : Obj F) => o = ⟨m, t⟩ ∧ L.get .labels = .ok (.zs labels) ∧ L.get .data = .ok (.mat a) ∧
      t.v.cols = a.cols ∧ t.D = Arr2.zeros k k ∧ t.nClusters = k ∧ t.n.isArr = false) hr hm
    ⟨rfl, by simp -implicitDefEqProofs only [pyrun], by simp -implicitDefEqProofs only [pyrun], rfl, rfl, rfl, rfl⟩ (by
      rintro i hi t L o ⟨rfl, hL, hd, hv, hD, hn, hns⟩
      have hL' : (L.put .ix (.int false (i : ℕ))).get .labels = .ok (.zs labels) := by rw [get_ne _ _ (by decide), hL]
      simp -implicitDefEqProofs only [pyrun, Gen.RCIP.batchStep, ↓subset_eval K _ hL' (get_same _ _ _) (by decide), hd]
      refine .andThen fun b hb => ?_
      try simp -implicitDefEqProofs only [pyrun]
      refine .andThen fun n' hn' => ?_
      try simp -implicitDefEqProofs only [pyrun]
      refine .andThen fun v' hv' => ?_
      obtain ⟨hbc, -, hbw⟩ := take_wf hb hw
      obtain ⟨hrow, hvc⟩ := row_of_setRow hv' (by rw [mean0_length, hbc, hv])
      have hn2 : n'.isArr = false := by
        simp only [Seq.set] at hn'
        split at hn' <;> cases hn'
        exact hns
      by_cases hone : b.rows.length > 1
      · have hz : (b.rows.length : ℤ) > 1 := by omega
        simp -implicitDefEqProofs only [pyrun, hrow, get_of_set hn', hz, hone, hn2, div_pred hone, Gen.RCIP.batchSigma, setSigma_eq]
        refine .andThen fun _ _ => .andThen fun _ _ => .andThen fun _ _ => .andThen fun _ _ => ?_
        exact .ok trivial ⟨rfl, by simp -implicitDefEqProofs only [pyrun, hL], by simp -implicitDefEqProofs only [pyrun, hd], hvc.trans hv, hD, hn, hn2⟩
      · have hz : ¬ (b.rows.length : ℤ) > 1 := by omega
        simp -implicitDefEqProofs only [pyrun, hrow, get_of_set hn', hz, hone, hn2, setSigma_eq]
        refine .andThen fun _ _ => ?_
        exact .ok trivial ⟨rfl, by simp -implicitDefEqProofs only [pyrun, hL], by simp -implicitDefEqProofs only [pyrun, hd], hvc.trans hv, hD, hn, hn2⟩)
    with ⟨e, t', s', rfl, rfl⟩ | ⟨t, L, s', rfl, rfl, rfl, hL, hd, hv, hD, hn, -⟩
  · simp -implicitDefEqProofs only [pyrun]
    exact ⟨_, _, rfl⟩
  · subst hn
    have h1 : ((t.nClusters : ℤ) - 1) = ((t.nClusters - 1 : ℕ) : ℤ) := by omega
    simp -implicitDefEqProofs only [pyrun, h1]
    refine .similar (upper_similar _ (batchDist_similar t)) ?_
    generalize hr : runLoop Var.ix _ _ _ _ = r
    generalize hm : Arr2.upperTri (F := F) _ _ = q
    rcases upper_loop K hr hm hD (by
        intro i j h L hi hj hL
        simp -implicitDefEqProofs only [pyrun, hL, batchDist', setEntry_natMat _ hi hj, hK.negHalf, Laws.one]
        endsteps
        refine .ok trivial ⟨?_, rfl⟩
        simp -implicitDefEqProofs only [pyrun, hL])
      with ⟨e, s', rfl, rfl⟩ | ⟨D, L', rfl, rfl⟩
    · exact ⟨_, _, rfl⟩
    · simp -implicitDefEqProofs only [pyrun]
      exact .andThen fun _ _ => .of_eq rfl

end Verif.Source.RCIPp
