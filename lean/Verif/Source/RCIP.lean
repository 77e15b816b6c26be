import Verif.Source.Fold

set_option linter.unusedSectionVars false
set_option linter.constructorNameAsVariable false
set_option linter.unusedSimpArgs false

/-! # The text of `rCIP` does what `Verif/Gen/RCIP.lean` says -/

namespace Verif.Source.RCIPp
attribute [local congr] andThen_head bind_head ebind_head mapState_head cond_head

variable {F : Type} [Arith F] [Laws F] (K : Lits F) (hK : LitLaws K)

theorem delta_map (d : ℕ) (y : F) :
    List.map (fun r => List.map (fun z => z * y) r)
      (List.map (fun i => List.map (fun j => if i = j then Arith.one else 0) (List.range d)) (List.range d)) =
    List.map (fun i => List.map (fun j => (if i = j then Arith.one else 0) * y) (List.range d)) (List.range d) := by
  simp [List.map_map, Function.comp_def]

theorem no_pages (a : Arr2 F) : List.replicate 0 a = [] := rfl

theorem page_eq (s : Core F) (j : ℕ) : Verif.RCIP.page s j = pageOf s.sigma j := rfl

/-- `np.dstack` needs pages of the right shape. -/
def dOk (sh : ℕ × ℕ) (b : Arr2 F) : Except PyErr Unit :=
  if (b.rows.length, b.cols) = sh then .ok () else .error .valueError

theorem dstack_eq (sh : ℕ × ℕ) (p : List (Arr2 F)) (b : Arr2 F) :
    dstack sh p b = dOk sh b >>= fun _ => .ok (.cube sh (p ++ [b])) := by
  simp only [dstack, dOk]; split <;> rfl

theorem dstackSigma_eq (b : Arr2 F) (s : Core F) :
    Verif.RCIP.dstackSigma b s = andThen (dOk s.sigmaShape b) s fun _ => .ok () { s with sigma := s.sigma ++ [b] } := by
  simp only [Verif.RCIP.dstackSigma, dOk, Py.bind_apply, Py.get_apply, Res.bind_ok]
  by_cases h : s.sigmaShape = (b.rows.length, b.cols)
  · simp [h, andThen]
  · have h' : ¬ (b.rows.length, b.cols) = s.sigmaShape := fun h' => h h'.symm
    simp [h, h', andThen]

theorem setSigma_eq (i : ℕ) (b : Arr2 F) (s : Core F) :
    Verif.RCIP.setSigma i b s = andThen (setPage s.sigmaShape s.sigma i b) s fun p => .ok () { s with sigma := p } := by
  simp only [Verif.RCIP.setSigma, setPage, Py.bind_apply, Py.get_apply, Res.bind_ok]
  by_cases h : i < s.sigma.length
  · simp only [h, if_true, Py.bind_apply, Py.lift]
    cases b.broadcastTo s.sigmaShape.1 s.sigmaShape.2 <;> simp [andThen]
  · simp [h, andThen]

/-- `Gen.RCIP.dist` in the order of the source: the difference of the centroids before the page. -/
def dist' (s : Core F) (vNew : Vec F) (sigmaNew : Arr2 F) (jx : ℕ) : Except PyErr F :=
  s.v.row jx >>= fun r => Gen.Vec.sub vNew r >>= fun diffM => pageOf s.sigma jx >>= fun sg =>
    Gen.Arr2.add sigmaNew sg >>= fun sigmaQ => Arith.det sigmaQ >>= fun dt => Arith.inv sigmaQ >>= fun inv =>
    Gen.Arr2.vecMul (Gen.Vec.smul Arith.negHalf diffM) inv >>= fun w => Gen.Vec.inner w diffM >>= fun q =>
    .ok (s.constant * (Arith.one / Arith.sqrt dt) * Arith.exp q)

theorem dist_similar (s : Core F) (vNew : Vec F) (sigmaNew : Arr2 F) (jx : ℕ) :
    Similar (Gen.RCIP.dist s vNew sigmaNew jx) (dist' s vNew sigmaNew jx) := by
  refine .bind (.refl _) fun r => ?_
  have h := Similar.swap (x := pageOf s.sigma jx) (y := Gen.Vec.sub vNew r) (f := fun sg diffM =>
    Gen.Arr2.add sigmaNew sg >>= fun sigmaQ => Arith.det sigmaQ >>= fun dt => Arith.inv sigmaQ >>= fun inv =>
    Gen.RCIP.quad diffM inv >>= fun q => .ok (s.constant * (Arith.one / Arith.sqrt dt) * Arith.exp q))
  simp only [Gen.RCIP.quad, except_assoc] at h
  simp only [page_eq, Gen.RCIP.cip, Gen.RCIP.quad, except_assoc, except_pure]
  exact h

theorem new_similar (k : ℕ) (s : Core F) (vNew : Vec F) (sigmaNew : Arr2 F) :
    Similar (columnNew k (Gen.RCIP.dist s vNew sigmaNew)) (columnNew k (dist' s vNew sigmaNew)) :=
  (Similar.mapE (dist_similar s vNew sigmaNew) _).bind fun _ => .refl _

theorem old_similar (k i : ℕ) (s : Core F) (vNew : Vec F) (sigmaNew : Arr2 F) :
    Similar (columnOld k i (Gen.RCIP.dist s vNew sigmaNew)) (columnOld k i (dist' s vNew sigmaNew)) := by
  refine Similar.mapE (fun j => ?_) _
  by_cases h : j = i
  · simp only [h, if_true]; exact .refl _
  · simp only [h, if_false]; exact dist_similar s vNew sigmaNew j

/-- The variables the loops assign. -/
def inLoop (z : Var) : Prop := z = .jx ∨ z = .diff_m ∨ z = .sigma_q ∨ z = .d_column_new

include hK

theorem setup_eq (x : Vec F) (m : LabelMap) (s : Core F) :
    callMethod K (objHost .rCIP (superCall K .rCIP)) rCIP._setup [.fs ⟨true, x⟩] ⟨m, s⟩ =
      (onCore (Gen.RCIP.setup x) ⟨m, s⟩).bind fun _ o => .ok .none o := by
  by_cases h : x.length = 0
  · simp -implicitDefEqProofs only [callMethod, rCIP._setup, pyrun, Gen.RCIP.setup, Gen.RCIP.deltaTerm, h, no_pages]
  · simp -implicitDefEqProofs only [callMethod, rCIP._setup, pyrun, Gen.RCIP.setup, Gen.RCIP.deltaTerm, h, hK.delta _ h, no_pages, delta_map]

theorem inc_new (x : Vec F) (z : ℤ) (m : LabelMap) (s : Core F) {i : ℕ} {m' : LabelMap}
    (hi : m.getInternalLabel z = (i, m')) (hk : (i : ℤ) > (s.nClusters : ℤ) - 1) :
    Agree (cviCall K .rCIP .self_param_inc [.fs ⟨true, x⟩, .int false z] ⟨m, s⟩)
      (((Gen.mod F .rCIP).paramInc x (.int z) ⟨m, s⟩).bind fun _ o => .ok .none o) := by
  simp -implicitDefEqProofs only [cviCall, cls, callMethod]
  simp -implicitDefEqProofs only [rCIP._param_inc, Module.paramInc, Gen.mod, Gen.RCIPmod, Gen.RCIP.incBody, setupIfFirst]
  by_cases h0 : s.nSamples = 0
  all_goals
    by_cases h1 : s.nClusters = 0
    · simp -implicitDefEqProofs only [h1, Nat.cast_zero] at hk
      simp -implicitDefEqProofs only [pyrun, selfCall, getLabel_eq, hi, h0, hk, h1, cls, setup_eq K hK, Gen.RCIP.setup, Gen.RCIP.incNew, distNew,
        hK.normConst, dstackSigma_eq, dstack_eq]
      agreesteps
    · simp -implicitDefEqProofs only [pyrun, selfCall, getLabel_eq, hi, h0, hk, h1, cls, setup_eq K hK, Gen.RCIP.setup, Gen.RCIP.incNew, distNew,
        setCross, setBlock_zeros, hK.normConst, dstackSigma_eq, dstack_eq]
      agreesteps
      refine .similar (new_similar _ _ _ _) ?_
      simp -implicitDefEqProofs only [columnNew, pyrun]
      generalize hr : runLoop Var.jx _ _ _ _ = r
      generalize hm : mapE _ _ = q
      rcases loop_fill (d := .d_column_new) (T := inLoop) hr hm (Nat.le_add_right _ 1) (by simp -implicitDefEqProofs only [pyrun])
        (by
          intro L ys hlt hL hd
          simp -implicitDefEqProofs only [pyrun, hd, hL, inLoop, or_self, set_next ys hlt, dist', hK.negHalf, Laws.one]
          repeat' refine tracks_bind fun _ _ => ?_
          refine tracks_filled trivial (by simp -implicitDefEqProofs only [pyrun]) fun z hz => ?_
          simp only [inLoop, not_or] at hz
          simp only [get_ne, hz, ne_eq, not_false_eq_true, hL z (by simp [inLoop, hz])])
        with ⟨e, rfl, rfl⟩ | ⟨zs, L', rfl, rfl, hd, hL⟩
      · simp -implicitDefEqProofs only [pyrun]
        exact .of_eq rfl
      · simp -implicitDefEqProofs only [pyrun, hd, hL, inLoop, or_self, Nat.add_sub_cancel_left, List.replicate_one, dstackSigma_eq, dstack_eq]
        agreesteps

theorem inc_old (x : Vec F) (z : ℤ) (m : LabelMap) (s : Core F) (hn : s.n.isArr = false) {i : ℕ} {m' : LabelMap}
    (hi : m.getInternalLabel z = (i, m')) (hk : ¬ (i : ℤ) > (s.nClusters : ℤ) - 1) :
    Agree (cviCall K .rCIP .self_param_inc [.fs ⟨true, x⟩, .int false z] ⟨m, s⟩)
      (((Gen.mod F .rCIP).paramInc x (.int z) ⟨m, s⟩).bind fun _ o => .ok .none o) := by
  simp -implicitDefEqProofs only [cviCall, cls, callMethod]
  simp -implicitDefEqProofs only [rCIP._param_inc, Module.paramInc, Gen.mod, Gen.RCIPmod, Gen.RCIP.incBody, setupIfFirst]
  have h2 (n : ℕ) : (divInt false ((n : ℤ) + 1 - 2) ((n : ℤ) + 1 - 1) : Except PyErr F) = Gen.pyDiv ((n : ℤ) - 1) n := by
    rw [divInt_int]; congr 1 <;> omega
  by_cases h0 : s.nSamples = 0
  all_goals
    simp -implicitDefEqProofs only [pyrun, selfCall, getLabel_eq, hi, h0, hk, cls, setup_eq K hK, Gen.RCIP.setup, Gen.RCIP.incOld,
      hK.normConst, setSigma_eq, Gen.RCIP.sigmaNew, hn, h2, page_eq]
    agreesteps
    refine .swap fun _ _ _ _ => ?_
    agreesteps
    refine .similar (old_similar _ _ _ _ _) ?_
    simp -implicitDefEqProofs only [columnOld, pyrun]
    generalize hr : runLoop Var.jx _ _ _ _ = r
    generalize hm : mapE _ _ = q
    rcases loop_fill (d := .d_column_new) (T := inLoop) hr hm (Nat.le_refl _) (by simp -implicitDefEqProofs only [pyrun])
      (by
        intro L ys hlt hL hd
        by_cases hji : ys.length = i
        · subst hji
          simp -implicitDefEqProofs only [pyrun, hL, inLoop, or_self, Nat.cast_inj]
          refine tracks_filled trivial ?_ fun z hz => ?_
          · rw [get_ne _ _ (by decide), hd, keep_next ys hlt]
          · rw [get_ne _ _ (not_or.mp hz).1, hL z hz]
        · simp -implicitDefEqProofs only [pyrun, hd, hL, inLoop, or_self, hji, Nat.cast_inj, set_next ys hlt, dist', hK.negHalf, Laws.one]
          repeat' refine tracks_bind fun _ _ => ?_
          refine tracks_filled trivial (by simp -implicitDefEqProofs only [pyrun]) fun z hz => ?_
          simp only [inLoop, not_or] at hz
          simp only [get_ne, hz, ne_eq, not_false_eq_true, hL z (by simp [inLoop, hz])])
      with ⟨e, rfl, rfl⟩ | ⟨zs, L', rfl, rfl, hd, hL⟩
    · simp -implicitDefEqProofs only [pyrun]
      exact .of_eq rfl
    · simp -implicitDefEqProofs only [pyrun, hd, hL, inLoop, or_self, Nat.sub_self, List.replicate_zero, List.append_nil, setSigma_eq]
      agreesteps

theorem inc_eq (x : Vec F) (z : ℤ) (m : LabelMap) (s : Core F) (hn : s.n.isArr = false) :
    Agree (cviCall K .rCIP .self_param_inc [.fs ⟨true, x⟩, .int false z] ⟨m, s⟩)
      (((Gen.mod F .rCIP).paramInc x (.int z) ⟨m, s⟩).bind fun _ o => .ok .none o) := by
  by_cases hk : ((m.getInternalLabel z).1 : ℤ) > (s.nClusters : ℤ) - 1
  · exact inc_new K hK x z m s rfl hk
  · exact inc_old K hK x z m s hn rfl hk

omit hK in
theorem eval_eq (m : LabelMap) (s : Core F) :
    cviCall K .rCIP .self_evaluate [] ⟨m, s⟩ = (onCore (Gen.mod F .rCIP).evaluate ⟨m, s⟩).bind fun _ o => .ok .none o := by
  simp -implicitDefEqProofs only [cviCall, cls, callMethod]
  simp -implicitDefEqProofs only [rCIP._evaluate, Gen.mod, Gen.RCIPmod, Gen.RCIP.evaluate]
  by_cases h : s.D.rows.length > 1
  · simp -implicitDefEqProofs only [pyrun, gt_one, h]
    pysteps
  · simp -implicitDefEqProofs only [pyrun, gt_one, h]

end Verif.Source.RCIPp
