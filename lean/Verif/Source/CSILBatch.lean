import Verif.Source.Batch
import Verif.Source.CSIL

set_option linter.unusedSectionVars false
set_option linter.constructorNameAsVariable false
set_option linter.unusedSimpArgs false

/-! # Batch mode of `cSIL` -/

namespace Verif.Source.CSILp
attribute [local congr] andThen_head bind_head ebind_head mapState_head cond_head

variable {F : Type} [Arith F] [Laws F] (K : Lits F)

/-- The squared distances of the rows of `a` to `v`. -/
def dists (a : Arr2 F) (v : Vec F) : Vec F :=
  ((a.rows.map fun r => List.zipWith (· - ·) r (v.map (· * Arith.one))).map fun r => r.map Arith.sq).map Arith.rowSum

/-- What is known of cluster `j` once its row of the local matrix `D` is written. -/
def Done (a : Arr2 F) (labels : List ℤ) (D : Arr2 F) (t : Core F) (j : ℕ) : Prop :=
  (∃ v, t.v.row j = .ok v ∧ v.length = a.cols ∧ D.row j = .ok (dists a v)) ∧ (∃ n, t.n.get j = .ok n) ∧
    ∀ x ∈ subsetIndices labels j, x < a.rows.length

theorem distRow_eq {a : Arr2 F} (hw : ∀ r ∈ a.rows, r.length = a.cols) {t : Core F} {j : ℕ} {v : Vec F} (h : t.v.row j = .ok v)
    (hv : v.length = a.cols) : Gen.CSIL.distRow a t j = .ok (dists a v) := by
  simp only [Gen.CSIL.distRow, h, except_bind_ok, dists, List.map_map, Function.comp_def]
  refine mapE_ok fun r hr => ?_
  simp only [Gen.Vec.sub, Vec.bin, hw r hr, hv, List.length_map, if_true, except_bind_ok, except_pure]

/-- The entries `d[x]` for `x` in a list of indices. -/
def pick (d : Vec F) (idx : List ℕ) : List F := idx.map fun x => d.getD x 0

theorem pick_eq {d : Vec F} {idx : List ℕ} (h : ∀ x ∈ idx, x < d.length) :
    mapE (fun x => match d[x]? with
      | some y => .ok y
      | Option.none => .error .indexError) idx = .ok (pick d idx) := by
  refine mapE_ok fun x hx => ?_
  simp [List.getElem?_eq_getElem (h x hx)]

theorem Done.gather {a : Arr2 F} {labels : List ℤ} {D : Arr2 F} {t : Core F} {i j : ℕ} (hi : Done a labels D t i) (hj : Done a labels D t j)
    (hw : ∀ r ∈ a.rows, r.length = a.cols) : ∃ d n, gather D i (subsetIndices labels j) = .ok (.fs ⟨true, pick d (subsetIndices labels j)⟩) ∧
      t.n.get j = .ok n ∧
      Gen.CSIL.batchEntry a labels t j i = .ok (Arith.pySum (pick d (subsetIndices labels j)) / Arith.ofNat n) := by
  obtain ⟨⟨v, h1, h2, h3⟩, -, -⟩ := hi
  obtain ⟨-, ⟨n, h4⟩, h5⟩ := hj
  have h6 : ∀ x ∈ subsetIndices labels j, x < (dists a v).length := by simpa [dists] using h5
  refine ⟨dists a v, n, ?_, h4, ?_⟩
  · simp only [Source.gather, h3, except_bind_ok]
    exact (congrArg (· >>= _) (pick_eq h6)).trans rfl
  · simp only [Gen.CSIL.batchEntry, distRow_eq hw h1 h2, except_bind_ok, h4, except_pure]
    exact (congrArg (· >>= _) (pick_eq h6)).trans rfl

theorem natMat_flip (k : ℕ) (h : ℕ → ℕ → F) (rows : List (Vec F))
    (e : rows = (List.range k).map fun b => (List.range k).map fun a => h a b) : natMat k (fun a b => h b a) = ⟨k, rows⟩ := by
  rw [e]; rfl

theorem batch_eq (a : Arr2 F) (labels : List ℤ) (hw : ∀ r ∈ a.rows, r.length = a.cols) (m : LabelMap) (s : Core F) :
    Same (cviCall K .cSIL .self_param_batch [.mat a, .zs labels] ⟨m, s⟩)
      ((onCore ((Gen.mod F .cSIL).paramBatch a labels) ⟨m, s⟩).bind fun _ o => .ok .none o) := by
  simp -implicitDefEqProofs only [cviCall, cls, callMethod]
  simp -implicitDefEqProofs only [cSIL._param_batch, Gen.mod, Gen.CSILmod, Gen.CSIL.paramBatch]
  simp -implicitDefEqProofs only [pyrun, selfCall, unique_size]
  generalize hkk : uniqueSize labels = k at *
  generalize hr : runLoop Var.ix _ _ _ _ = r
  generalize hm : Py.forEach _ _ _ = q
  rcases loop_each' (fun (d : List ℕ) (t : Core F) (L : Locals F) (o : Obj F) => o = ⟨m, t⟩ ∧ L.get .labels = .ok (.zs labels) ∧
      L.get .data = .ok (.mat a) ∧ t.v.cols = a.cols ∧ t.Sm = Arr2.zeros k k ∧ t.nClusters = k ∧ t.nSamples = a.rows.length ∧
      ∃ D, L.get .D = .ok (.mat D) ∧ D.rows.length = a.rows.length ∧ D.cols = a.rows.length ∧ ∀ j ∈ d, Done a labels D t j) hr hm
    ⟨rfl, by simp -implicitDefEqProofs only [pyrun], by simp -implicitDefEqProofs only [pyrun], rfl, rfl, rfl, rfl,
      Arr2.zeros a.rows.length a.rows.length, by simp -implicitDefEqProofs only [pyrun], by simp [Arr2.zeros], rfl, by simp⟩ (by
      rintro d i r hl t L o ⟨rfl, hL, hd, hv, hS, hn, hns, D, hDL, hD1, hD2, hdone⟩
      have hnd : i ∉ d := by
        have := hl ▸ List.nodup_range (n := k)
        intro h
        exact (List.disjoint_of_nodup_append this) h (by simp)
      have hL' : (L.put .ix (.int false (i : ℕ))).get .labels = .ok (.zs labels) := by rw [get_ne _ _ (by decide), hL]
      simp -implicitDefEqProofs only [pyrun, Gen.CSIL.batchStep, ↓subset_eval K _ hL' (get_same _ _ _) (by decide), hd]
      refine .andThen fun b hb => ?_
      try simp -implicitDefEqProofs only [pyrun]
      refine .andThen fun n' hn' => ?_
      try simp -implicitDefEqProofs only [pyrun]
      refine .andThen fun v' hv' => ?_
      obtain ⟨hbc, -, hbw⟩ := take_wf hb hw
      have hbl := take_lt hb
      rw [← hbc] at hbw
      obtain ⟨hrow, hvc⟩ := row_of_setRow hv' (by rw [mean0_length, hbc, hv])
      have hml : (Gen.Arr2.mean0 b).length = a.cols := (mean0_length b).trans hbc
      simp -implicitDefEqProofs only [pyrun, hrow, get_of_set hn', mul_ones, diff_eq (mean0_length b), scatter_eq hbw (mean0_length b), hd]
      refine .andThen fun cp hcp => ?_
      refine .andThen fun cp' hcp' => ?_
      simp -implicitDefEqProofs only [pyrun, hrow, mul_ones, diff_eq hml, hd, hns, hDL]
      have hlen : (dists a (Gen.Arr2.mean0 b)).length = D.cols := by simp [dists, hD2]
      by_cases hi : i < a.rows.length
      · obtain ⟨D', hD'⟩ : ∃ D', D.setRow i (dists a (Gen.Arr2.mean0 b)) = .ok D' := by
          simp [Arr2.setRow, hD1, hi, Vec.broadcastTo, hlen]
        have hD'1 : D'.rows.length = a.rows.length := by
          simp only [Arr2.setRow, hD1, hi, if_true, Vec.broadcastTo, hlen, except_bind_ok, except_pure] at hD'
          cases hD'; simpa using hD1
        obtain ⟨hDr, hDc⟩ := row_of_setRow hD' hlen
        refine .skip hD' ?_
        simp -implicitDefEqProofs only [pyrun, hi]
        refine .ok trivial ⟨rfl, by simp -implicitDefEqProofs only [pyrun, hL], by simp -implicitDefEqProofs only [pyrun, hd],
          hvc.trans hv, hS, hn, rfl, D', by simp -implicitDefEqProofs only [pyrun], hD'1, hDc.trans hD2, ?_⟩
        intro j hj
        rcases List.mem_append.mp hj with hj | hj
        · have hne : i ≠ j := fun h => hnd (h ▸ hj)
          obtain ⟨⟨v, h1, h2, h3⟩, ⟨n, h4⟩, h5⟩ := hdone j hj
          exact ⟨⟨v, (row_of_setRow_ne hv' hne).trans h1, h2, (row_of_setRow_ne hD' hne).trans h3⟩,
            ⟨n, (get_of_set_ne hn' hne).trans h4⟩, h5⟩
        · obtain rfl : j = i := by simpa using hj
          exact ⟨⟨_, hrow, hml, hDr⟩, ⟨_, get_of_set hn'⟩, hbl⟩
      · have hD' : D.setRow i (dists a (Gen.Arr2.mean0 b)) = .error .indexError := by
          simp [Arr2.setRow, hD1, hi]
        simp only [dists] at hD'
        simp -implicitDefEqProofs only [pyrun, hi, hD']
        exact ⟨_, rfl⟩)
    with ⟨e, t', s', rfl, rfl⟩ | ⟨t, L, s', rfl, rfl, rfl, hL, hd, hv, hS, hn, hns, D, hDL, hD1, hD2, hdone⟩
  · simp -implicitDefEqProofs only [pyrun]
    exact ⟨_, rfl⟩
  · subst hn
    have hent : ∀ i ∈ List.range t.nClusters, ∀ j ∈ List.range t.nClusters,
        Gen.CSIL.batchEntry a labels t j i = .ok (val (Gen.CSIL.batchEntry a labels t j i)) := by
      intro i hi j hj
      obtain ⟨d, n, -, -, h⟩ := (hdone i hi).gather (hdone j hj) hw
      rw [h]; rfl
    have hrows : mapE (fun jx => mapE (fun ix => Gen.CSIL.batchEntry a labels t jx ix) (List.range t.nClusters)) (List.range t.nClusters) =
        .ok ((List.range t.nClusters).map fun j => (List.range t.nClusters).map fun i => val (Gen.CSIL.batchEntry a labels t j i)) :=
      mapE_ok fun j hj => mapE_ok fun i hi => hent i hi j hj
    have hcols : mapE (fun ix => mapE (fun jx => Gen.CSIL.batchEntry a labels t jx ix) (List.range t.nClusters)) (List.range t.nClusters) =
        .ok ((List.range t.nClusters).map fun i => (List.range t.nClusters).map fun j => val (Gen.CSIL.batchEntry a labels t j i)) :=
      mapE_ok fun i hi => mapE_ok fun j hj => hent i hi j hj
    have hfold := foldE_rows (f := fun i j => Gen.CSIL.batchEntry a labels t j i) (cols := fun _ => List.range t.nClusters)
      (List.range t.nClusters) (fun _ _ => 0)
    rw [hcols, except_bind_ok] at hfold
    simp -implicitDefEqProofs only [pyrun, hrows]
    generalize hr : runLoop Var.ix _ _ _ _ = r
    rcases loop_fold' (fun _ h L o => o = ⟨m, { t with Sm := natMat t.nClusters fun a b => h b a }⟩ ∧ L.get .labels = .ok (.zs labels) ∧
        L.get .D = .ok (.mat D)) hr hfold ⟨by rw [natMat_zeros, ← hS], hL, hDL⟩ (by
        rintro d i r h L o hl ⟨rfl, hL, hDL⟩
        have hi : i ∈ List.range t.nClusters := hl ▸ by simp
        simp -implicitDefEqProofs only [pyrun]
        generalize hr : runLoop Var.jx _ _ _ _ = r
        generalize hm : foldE _ _ _ = q
        rcases loop_fold' (fun _ h L o => L.get .ix = .ok (.int false (i : ℕ)) ∧
            o = ⟨m, { t with Sm := natMat t.nClusters fun a b => h b a }⟩ ∧ L.get .labels = .ok (.zs labels) ∧ L.get .D = .ok (.mat D)) hr hm
          ⟨by simp -implicitDefEqProofs only [pyrun], rfl, by simp -implicitDefEqProofs only [pyrun, hL], by simp -implicitDefEqProofs only [pyrun, hDL]⟩ (by
            rintro d j r h L o hl ⟨hix, rfl, hL, hDL⟩
            have hj : j ∈ List.range t.nClusters := hl ▸ by simp
            obtain ⟨d, n, hg, hn, he⟩ := (hdone i hi).gather (hdone j hj) hw
            have hL' : (L.put .jx (.int false (j : ℕ))).get .labels = .ok (.zs labels) := by rw [get_ne _ _ (by decide), hL]
            simp -implicitDefEqProofs only [pyrun, ↓subset_eval K _ hL' (get_same _ _ _) (by decide), hix, hDL, hg, hn, he,
              setEntry_natMat _ (List.mem_range.mp hj) (List.mem_range.mp hi)]
            refine .ok trivial ⟨by simp -implicitDefEqProofs only [pyrun, hix], ?_, by simp -implicitDefEqProofs only [pyrun, hL],
              by simp -implicitDefEqProofs only [pyrun, hDL]⟩
            congr 3
            funext a b
            simp only [upd, and_comm])
          with ⟨e, s', rfl, rfl⟩ | ⟨h', L', s', rfl, rfl, hix, rfl, hL, hDL⟩
        · exact ⟨_, rfl⟩
        · exact .ok trivial ⟨rfl, hL, hDL⟩)
      with ⟨e, s', h, -⟩ | ⟨h', L', s', h, rfl, rfl, hL, hDL⟩
    · cases h
    · cases h
      refine .of_eq ?_
      simp -implicitDefEqProofs only [pyrun]
      congr 3
      refine natMat_flip _ _ _ ?_
      refine List.map_congr_left fun j hj => List.map_congr_left fun i hi => ?_
      simp [List.mem_range.mp hi, List.mem_range.mp hj]

end Verif.Source.CSILp
