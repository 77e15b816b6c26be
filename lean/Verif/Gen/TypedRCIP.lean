import Verif.Gen.TypedRef
import Verif.Gen.BatchRef2

/-! # The batch of rCIP on integers -/

namespace Verif.Gen.Typed
open Py

variable {F : Type} [Arith F] [FromInt F]

theorem forEach_congr {σ ι : Type} {P : σ → Prop} {x y : ι → Py σ Unit} {l : List ι}
    (h : ∀ i ∈ l, ∀ s, P s → x i s = y i s ∧ ∀ s', y i s = .ok () s' → P s') :
    ∀ s, P s → forEach l x s = forEach l y s := by
  induction l with
  | nil => intro s _; rfl
  | cons i l ih =>
    intro s hs
    obtain ⟨h1, h2⟩ := h i (by simp) s hs
    simp only [forEach, bind_apply, h1]
    cases e : y i s with
    | err e s' => rfl
    | ok a s' => exact ih (fun j hj => h j (by simp [hj])) s' (h2 s' e)

omit [Arith F] in
theorem take_float (data : IArr) (idx : List ℕ) : (data.float : Arr2 F).take idx = (data.take idx).map IArr.float := by
  have h : ∀ i, (data.float : Arr2 F).row i = (data.row i).map fun r => r.map FromInt.ofInt := by
    intro i
    simp only [IArr.float, Arr2.row, IArr.row, List.getElem?_map]
    cases data.rows[i]? <;> rfl
  have e : ∀ l : List ℕ, mapE (fun i => (data.float : Arr2 F).row i) l =
      (mapE (fun i => data.row i) l).map fun rs => rs.map fun r => r.map FromInt.ofInt := by
    intro l
    induction l with
    | nil => rfl
    | cons i l ih =>
      simp only [mapE, h i, ih]
      cases data.row i with
      | error e => rfl
      | ok r =>
        simp only [Except.map, except_bind_ok]
        cases mapE (fun i => data.row i) l <;> rfl
  simp only [Arr2.take, IArr.take, e]
  cases mapE (fun i => data.row i) idx <;> rfl

omit [Arith F] [FromInt F] in
theorem keeps_setN {s s' : Core F} {i x : ℕ} (h : setN i x s = .ok () s') : s'.deltaTerm = s.deltaTerm := by
  obtain ⟨_, _, h0, h⟩ := bind_inv h
  obtain ⟨rfl, rfl⟩ := Res.ok.inj h0
  obtain ⟨a, -, h⟩ := lift_inv h
  obtain ⟨-, rfl⟩ := Res.ok.inj h
  rfl

omit [FromInt F] in
theorem keeps_setV {s s' : Core F} {i : ℕ} {x : Vec F} (h : setV i x s = .ok () s') : s'.deltaTerm = s.deltaTerm := by
  obtain ⟨_, _, h0, h⟩ := bind_inv h
  obtain ⟨rfl, rfl⟩ := Res.ok.inj h0
  obtain ⟨a, -, h⟩ := lift_inv h
  obtain ⟨-, rfl⟩ := Res.ok.inj h
  rfl

omit [FromInt F] in
theorem keeps_setSigma {s s' : Core F} {i : ℕ} {x : Arr2 F} (h : Verif.RCIP.setSigma i x s = .ok () s') : s'.deltaTerm = s.deltaTerm := by
  obtain ⟨_, _, h0, h⟩ := bind_inv h
  obtain ⟨rfl, rfl⟩ := Res.ok.inj h0
  simp only [ite_app] at h
  split at h
  · obtain ⟨a, -, h⟩ := lift_inv h
    obtain ⟨-, rfl⟩ := Res.ok.inj h
    rfl
  · cases h

theorem batchStep_eq {data : IArr} {labels : List ℤ} {ix : ℕ} {s : Core F}
    (h : ∀ sub, data.take (subsetIndices labels ix) = .ok sub → 1 < sub.rows.length →
      batchSigma sub (Arr2.mean0 sub.float) s.deltaTerm = RCIP.batchSigma sub.float (Arr2.mean0 sub.float) s.deltaTerm) :
    batchStep data labels ix s = RCIP.batchStep data.float labels ix s ∧
      ∀ s', RCIP.batchStep data.float labels ix s = .ok () s' → s'.deltaTerm = s.deltaTerm := by
  simp only [batchStep, RCIP.batchStep, take_float, bind_apply]
  cases hd : data.take (subsetIndices labels ix) with
  | error e => exact ⟨rfl, fun s' h => by cases h⟩
  | ok sub =>
    have hr : (sub.float : Arr2 F).rows.length = sub.rows.length := by simp [IArr.float]
    simp only [Except.map, lift_ok, Res.bind_ok, hr]
    cases h1 : setN ix sub.rows.length s with
    | err e s1 => exact ⟨rfl, fun s' h => by cases h⟩
    | ok a s1 =>
      simp only [Res.bind_ok]
      cases h2 : setV ix (Arr2.mean0 sub.float) s1 with
      | err e s2 => exact ⟨rfl, fun s' h => by cases h⟩
      | ok b s2 =>
        simp only [Res.bind_ok, get_apply, ite_app]
        have e2 : s2.deltaTerm = s.deltaTerm := (keeps_setV h2).trans (keeps_setN h1)
        by_cases hn : 1 < sub.rows.length
        · simp only [gt_iff_lt, if_pos hn]
          rw [e2, h sub hd hn]
          refine ⟨rfl, fun s' h' => ?_⟩
          obtain ⟨sg, -, h'⟩ := lift_inv h'
          exact (keeps_setSigma h').trans e2
        · simp only [gt_iff_lt, if_neg hn]
          exact ⟨trivial, fun s' h' => (keeps_setSigma h').trans e2⟩

/-- If the covariances agree, everything does. -/
theorem paramBatch_eq {data : IArr} {labels : List ℤ}
    (h : ∀ ix < uniqueSize labels, ∀ sub dt, data.take (subsetIndices labels ix) = .ok sub → 1 < sub.rows.length →
      RCIP.deltaTerm data.cols = .ok dt →
      batchSigma sub (Arr2.mean0 sub.float) dt = RCIP.batchSigma sub.float (Arr2.mean0 (sub.float : Arr2 F)) dt) (s : Core F) :
    paramBatch data labels s = RCIP.paramBatch data.float labels s := by
  have hr : (data.float : Arr2 F).rows.length = data.rows.length := by simp [IArr.float]
  have hc : (data.float : Arr2 F).cols = data.cols := rfl
  simp only [paramBatch, RCIP.paramBatch, bind_apply, modify_apply, Res.bind_ok, Base.setupBatch, hr, hc]
  cases hdt : (RCIP.deltaTerm data.cols : Except PyErr (Arr2 F)) with
  | error e => rfl
  | ok dt =>
    simp only [lift_ok, Res.bind_ok]
    cases (Arith.normConst data.cols : Except PyErr F) with
    | error e => rfl
    | ok c =>
      simp only [lift_ok, Res.bind_ok]
      rw [forEach_congr (P := fun s : Core F => s.deltaTerm = dt) (y := RCIP.batchStep data.float labels)]
      · intro ix hix s1 hs1
        have := batchStep_eq (data := data) (labels := labels) (ix := ix) (s := s1) fun sub h1 h2 => by
          rw [hs1]; exact h ix (List.mem_range.mp hix) sub dt h1 h2 hdt
        exact ⟨this.1, fun s' h' => (this.2 s' h').trans hs1⟩
      · rfl

/-- One call in batch mode. -/
theorem batch_eq {data : IArr} {labels : List ℤ}
    (h : ∀ ix < uniqueSize labels, ∀ sub dt, data.take (subsetIndices labels ix) = .ok sub → 1 < sub.rows.length →
      RCIP.deltaTerm data.cols = .ok dt →
      batchSigma sub (Arr2.mean0 sub.float) dt = RCIP.batchSigma sub.float (Arr2.mean0 (sub.float : Arr2 F)) dt) (o : Obj F)
    (ho : o.core.isSetup = false) :
    Verif.getCvi RCIPmod (.d2 data.float) (.arr labels) o = (batch data labels o.core).mapState fun c => { o with core := c } := by
  have e := paramBatch_eq h o.core
  simp only [Verif.getCvi, Module.update, RCIPmod, batch, bind_apply, ite_app, ho, if_true, LabelArg.numUnique, LabelArg.toList, onCore,
    if_neg Bool.false_ne_true]
  split
  · rfl
  · rw [e]
    cases RCIP.paramBatch data.float labels o.core with
    | err e s => rfl
    | ok a s =>
      simp only [Res.mapState, Res.bind_ok]
      cases RCIP.evaluate s <;> rfl

/-- The rows of one cluster have as many features as the data. -/
theorem take_rows {data : IArr} {idx : List ℕ} {sub : IArr} (h : data.take idx = .ok sub) :
    sub.cols = data.cols ∧ ∀ r ∈ sub.rows, r ∈ data.rows := by
  have h1 : ∀ (l : List ℕ) (rs : List (List ℤ)), mapE (fun i => data.row i) l = .ok rs → ∀ r ∈ rs, r ∈ data.rows := by
    intro l
    induction l with
    | nil => intro rs h r hr; obtain rfl := Except.ok.inj h; simp at hr
    | cons i l ih =>
      intro rs h r hr
      simp only [mapE] at h
      cases hi : data.row i with
      | error e => rw [hi] at h; cases h
      | ok x =>
        rw [hi] at h
        cases hm : mapE (fun i => data.row i) l with
        | error e => rw [hm] at h; cases h
        | ok xs =>
          rw [hm] at h
          obtain rfl := Except.ok.inj h
          rcases List.mem_cons.mp hr with rfl | hr
          · rw [IArr.row] at hi
            split at hi
            · rename_i e
              obtain rfl := Except.ok.inj hi
              exact List.mem_of_getElem? e
            · cases hi
          · exact ih xs hm r hr
  rw [IArr.take] at h
  cases hm : mapE (fun i => data.row i) idx with
  | error e => rw [hm] at h; cases h
  | ok rs =>
    rw [hm] at h
    obtain rfl := Except.ok.inj h
    exact ⟨rfl, h1 idx rs hm⟩

/-- The covariances agree when their entries do. -/
theorem batchSigma_eq {sub : IArr} (h1 : 1 < sub.rows.length)
    (h : ∀ i < sub.cols, ∀ j < sub.cols, ∀ w : F,
      Arith.invPred sub.rows.length * (FromInt.ofInt (wrap (sub.rows.map fun r => r.getD i 0 * r.getD j 0).sum) - w) +
          (if i = j then Arith.one else 0) * Arith.delta sub.cols =
        Arith.invPred sub.rows.length * (Arith.mm (sub.float : Arr2 F).transpose sub.float i j - w) +
          (if i = j then Arith.one else 0) * Arith.delta sub.cols) :
    batchSigma sub (Arr2.mean0 (sub.float : Arr2 F)) (ridge sub.cols) =
      RCIP.batchSigma sub.float (Arr2.mean0 (sub.float : Arr2 F)) (ridge sub.cols) := by
  obtain ⟨d, rows⟩ := sub
  have hl : (Arr2.mean0 (IArr.float ⟨d, rows⟩ : Arr2 F)).length = d := by simp [Arr2.mean0, IArr.float]
  have hs1 := RCIP.scatter_sq (d := d) fun i j => (FromInt.ofInt (wrap (rows.map fun r => r.getD i 0 * r.getD j 0).sum) : F)
  have hs2 := RCIP.scatter_sq (d := d) fun i j => (Arith.mm (IArr.float ⟨d, rows⟩ : Arr2 F).transpose (IArr.float ⟨d, rows⟩) i j)
  have ho := smul_sq (q := (Arith.ofNat rows.length : F)) (outer_sq hl)
  have ht : (IArr.float ⟨d, rows⟩ : Arr2 F).transpose.rows.length = d := by simp [Arr2.transpose, IArr.float]
  have hr : (IArr.float ⟨d, rows⟩ : Arr2 F).rows.length = rows.length := by simp [IArr.float]
  have eg : (⟨d, (IArr.gram ⟨d, rows⟩).map fun r => r.map FromInt.ofInt⟩ : Arr2 F) =
      ⟨d, (List.range d).map fun i => (List.range d).map fun j => FromInt.ofInt (wrap (rows.map fun r => r.getD i 0 * r.getD j 0).sum)⟩ := by
    simp [IArr.gram, Function.comp_def]
  rw [batchSigma, RCIP.batchSigma, Arr2.matmul,
    if_pos (show (IArr.float ⟨d, rows⟩ : Arr2 F).transpose.cols = (IArr.float ⟨d, rows⟩ : Arr2 F).rows.length from rfl), except_bind_ok, ht, Arr2.sub, Arr2.sub]
  simp only [eg, hr, show (IArr.float ⟨d, rows⟩ : Arr2 F).cols = d from rfl]
  rw [bin_sq hs1 ho, bin_sq (B := Arr2.smul (Arith.ofNat rows.length) _) hs2 ho, except_bind_ok, except_bind_ok, Arr2.add, Arr2.add,
    bin_sq (smul_sq (zip2_sq hs1 ho)) ridge_sq, bin_sq (smul_sq (zip2_sq hs2 ho)) ridge_sq]
  congr 1
  simp only [zip2, Arr2.smul, ridge, Arr2.mk.injEq, true_and]
  apply List.ext_getElem
  · simp
  · intro i hi1 hi2
    simp only [List.getElem_zipWith, List.getElem_map, List.getElem_range, Vec.smul]
    apply List.ext_getElem
    · simp
    · intro j hj1 hj2
      simp only [List.getElem_zipWith, List.getElem_map, List.getElem_range]
      have hi : i < d := by
        simp only [List.length_zipWith, List.length_map, List.length_range] at hi1; omega
      have hj : j < d := by
        simp only [List.length_zipWith, List.length_map, List.length_range] at hj1; omega
      exact h i hi j hj _

end Verif.Gen.Typed
