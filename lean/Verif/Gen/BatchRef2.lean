import Verif.Gen.BatchRef
import Verif.Gen.RefPS
import Verif.Gen.RefRCIP

/-!
# Batches in any arithmetic: PS, cSIL, rCIP
-/

namespace Verif.Gen
open Py

variable {F : Type} [Arith F] {d k : ℕ} {P : ℕ → List (List F)} {rows : List (List F)} {labels : List ℤ}

theorem get_n {s : Core F} (h : BatchNV d k P rows s) {i : ℕ} (hi : i < k) : s.n.get i = .ok (P i).length := by
  rw [Seq.get, h.n]
  simp [hi]

theorem stageNV_nv {b : Bool} (s : Core F) : BatchNV d k P rows (stageNV d b k P k (base d k rows s)) :=
  ⟨rfl, rfl, rfl, rfl, fill_full k _ _, congrArg (Arr2.mk d) (fill_full k _ _)⟩

theorem stageNV_last {b : Bool} {i : ℕ} {s : Core F} (hi : i < k) :
    (setN i (P i).length >>= fun _ => setV i (Arr2.mean0 ⟨d, P i⟩)) (stageNV d b k P i s) =
      .ok () (stageNV d b k P (i + 1) s) := by
  refine bind_ok_of (setN_fill (f := fun i => (P i).length) hi rfl rfl) ?_
  exact setV_fill (d := d) hi (f := fun i => colMeans d (P i)) rfl rfl (colMeans_length _)

/-! ## PS -/

namespace PS

theorem batchDist_eq {s : Core F} (h : BatchNV d k P rows s) {i j : ℕ} (hi : i < k) (hj : j < k) :
    batchDist s i j = .ok (between .PS (Stat.batch d (P i)) (Stat.batch d (P j))) := by
  rw [batchDist, h.v, row_range hi, except_bind_ok, row_range hj, except_bind_ok,
    sqDist_eq (colMeans_length _) (colMeans_length _)]
  rfl

theorem paramBatch_eq (G : Given d k P rows labels) (s : Core F) :
    paramBatch ⟨d, rows⟩ labels s =
      .ok () { stageNV d false k P k (base d k rows s) with D := natMat k (Batch.table d P .PS) } := by
  refine modify_bind (modify_bind ?_)
  rw [G.size]
  refine bind_ok_of ((congrArg _ ?_).trans (forEach_range
    (fun i => stageNV d false k P i (base d k rows { s with D := Arr2.zeros k k })) fun i hi => ?_)) ?_
  · simp only [stageNV, fill_zero]; rfl
  · exact lift_bind (G.take i) (stageNV_last hi)
  · exact get_bind (lift_bind (upperTri_natMat fun i j hij hj =>
      batchDist_eq (stageNV_nv _) (hij.trans hj) hj) (lift_bind (add_transpose _) rfl))

theorem held (s : Core F) :
    BatchHeld .PS d k P rows { stageNV d false k P k (base d k rows s) with D := natMat k (Batch.table d P .PS) } where
  toBatchNV := (stageNV_nv s).congr rfl rfl rfl rfl rfl rfl
  cp h := absurd rfl h
  mu _ _ := rfl
  sep h := by simp at h
  table _ := rfl
  spreads h := by simp at h
  sil h := by simp at h
  pages h := by simp at h

theorem devSq_range {s : Core F} (h : BatchNV d k P rows s) (hb : s.vBar = Batch.vBar d k P) {i : ℕ} (hi : i < k) :
    devSq s i = .ok (Arith.dot (List.zipWith (· - ·) (colMeans d (P i)) (Batch.vBar d k P))
      (List.zipWith (· - ·) (colMeans d (P i)) (Batch.vBar d k P))) := by
  have hl : (Batch.vBar d k P).length = d := colMeans_length _
  have hz := zip_length (f := (· - ·)) (colMeans_length (d := d) (P i)) hl
  rw [devSq, h.v, row_range hi, except_bind_ok, hb, sub_eq (colMeans_length _) hl, except_bind_ok, inner_eq hz hz]

theorem mean0_range {s : Core F} (h : BatchNV d k P rows s) : Arr2.mean0 s.v = Batch.vBar d k P := by
  rw [h.v]; rfl

/-- The state in which the contributions are computed. -/
theorem evaluate_start {s : Core F} (h : BatchHeld .PS d k P rows s) (hk : 1 < k) :
    evaluate s = (lift (mapE (psTerm { s with vBar := Batch.vBar d k P, betaT := Batch.betaT d k P } (Batch.largest k P))
        (List.range k)) >>= fun ps => modify fun s => { s with PSi := ps, criterion := Arith.npSum ps })
      { s with vBar := Batch.vBar d k P, betaT := Batch.betaT d k P } := by
  refine get_bind ((congrFun (if_pos (by rw [h.clusters]; exact hk)) _).trans ?_)
  refine modify_bind (get_bind (lift_bind (a := (List.range k).map fun i =>
    Arith.dot (List.zipWith (· - ·) (colMeans d (P i)) (Batch.vBar d k P))
      (List.zipWith (· - ·) (colMeans d (P i)) (Batch.vBar d k P))) ?_ (modify_bind (get_bind ?_))))
  · simp only [h.clusters]
    apply mapE_ok
    intro i hi
    exact devSq_range (s := { s with vBar := Arr2.mean0 s.v }) (rows := rows) (h.toBatchNV.congr rfl rfl rfl rfl rfl rfl) (mean0_range h.toBatchNV)
      (List.mem_range.mp hi)
  · have hm : (match s.n.items.max? with
        | some m => (.ok m : Except PyErr ℕ)
        | none => .error .valueError) = .ok (Batch.largest k P) := by
      rw [h.n, max?_eq (map_range_ne_nil hk _)]
      rfl
    refine lift_bind hm ?_
    simp only [h.clusters, mean0_range h.toBatchNV]
    rfl

theorem psTerm_range {s : Core F} (h : BatchHeld .PS d k P rows s) (hk : 1 < k) (hm : Batch.largest k P ≠ 0) {i : ℕ}
    (hi : i < k) (w : List F) :
    psTerm { s with vBar := w, betaT := Batch.betaT d k P } (Batch.largest k P) i = .ok (Batch.psTerm d k P i) := by
  have hD : s.D = natMat k (Batch.table d P .PS) := h.table (by simp)
  have hne : ((List.range k).filter (· ≠ i)).map (Batch.table d P .PS i) ≠ [] := by
    rw [Ne, List.map_eq_nil_iff]
    exact others_ne_nil hk i
  rw [psTerm]
  simp only [hD]
  rw [natMat_row hi, except_bind_ok, Vec.delete, if_pos (by simpa using hi), except_bind_ok, get_n h.toBatchNV hi,
    except_bind_ok, pyDiv, if_neg (by exact_mod_cast hm), except_bind_ok, eraseIdx_range, amin_eq hne]
  rfl

theorem batch (G : Given d k P rows labels) (hk : 1 < k) (hm : ∃ i < k, P i ≠ []) (s0 : Core F) :
    ∃ s, Batched PSmod ⟨d, rows⟩ labels s0 (Batch.value d k P rows .PS) s ∧ BatchHeld .PS d k P rows s := by
  have h := held (d := d) (k := k) (P := P) (rows := rows) s0
  have hl : Batch.largest k P ≠ 0 := by
    obtain ⟨i, hi, hne⟩ := hm
    exact foldl_max_pos (List.mem_map.mpr ⟨i, List.mem_range.mpr hi, rfl⟩) (List.length_pos_iff.mpr hne)
  refine ⟨_, ⟨_, paramBatch_eq G s0, (evaluate_start h hk).trans (lift_bind (mapE_ok fun i hi =>
    psTerm_range h hk hl (List.mem_range.mp hi) _) rfl), rfl⟩, ?_⟩
  exact ⟨h.toBatchNV.congr rfl rfl rfl rfl rfl rfl, h.cp, h.mu, h.sep, h.table, h.spreads, h.sil, h.pages⟩

/-- No cluster has a row. -/
theorem batch_err (G : Given d k P rows labels) (hk : 1 < k) (hm : ∀ i < k, P i = []) (s0 : Core F) :
    ∃ s1 s, paramBatch ⟨d, rows⟩ labels s0 = .ok () s1 ∧ evaluate s1 = .err .zeroDivisionError s := by
  have h := held (d := d) (k := k) (P := P) (rows := rows) s0
  have hl : Batch.largest k P = 0 := by
    have e : (List.range k).map (fun i => (P i).length) = List.replicate k 0 := by
      rw [List.eq_replicate_iff]
      refine ⟨by simp, ?_⟩
      intro b hb
      obtain ⟨i, hi, rfl⟩ := List.mem_map.mp hb
      simp [hm i (List.mem_range.mp hi)]
    rw [Batch.largest, e]
    have : ∀ n, (List.replicate n 0).foldl max 0 = 0 := by
      intro n
      induction n with
      | zero => rfl
      | succ n ih => simpa [List.replicate_succ] using ih
    exact this k
  have hD : ∀ i < k, psTerm { ({ stageNV d false k P k (base d k rows s0) with D := natMat k (Batch.table d P .PS) } : Core F) with
      vBar := Batch.vBar d k P, betaT := Batch.betaT d k P } (Batch.largest k P) i = .error .zeroDivisionError := by
    intro i hi
    rw [psTerm]
    simp only
    rw [natMat_row hi, except_bind_ok, Vec.delete, if_pos (by simpa using hi), except_bind_ok]
    have hn := get_n h.toBatchNV hi
    simp only at hn
    rw [hn, except_bind_ok, pyDiv, if_pos (by exact_mod_cast hl)]
    rfl
  refine ⟨_, _, paramBatch_eq G s0, (evaluate_start h hk).trans (lift_err ?_)⟩
  obtain ⟨m, rfl⟩ : ∃ m, k = m + 1 := ⟨k - 1, by omega⟩
  rw [List.range_succ_eq_map, mapE, hD 0 (by omega)]
  rfl

end PS

/-! ## cSIL -/

namespace CSIL

/-- cSIL does not set `_mu`. -/
def base (d k : ℕ) (rows : List (List F)) (s : Core F) : Core F :=
  { s with
    nSamples := rows.length
    dim := d
    isSetup := true
    nClusters := k }

theorem stage_nv {b : Bool} (s : Core F) : BatchNV d k P rows (stage d b k P k (base d k rows s)) :=
  ⟨rfl, rfl, rfl, rfl, fill_full k _ _, congrArg (Arr2.mk d) (fill_full k _ _)⟩

omit [Arith F] in
/-- Selecting from a list of values computed row by row. -/
theorem pick {α : Type} (g : List F → α) {rows : List (List F)} {idx : List ℕ} {l : List (List F)}
    (h : mapE (fun i => (⟨d, rows⟩ : Arr2 F).row i) idx = .ok l) :
    mapE (fun t => match (rows.map g)[t]? with
      | some x => Except.ok x
      | none => .error .indexError) idx = .ok (l.map g) := by
  induction idx generalizing l with
  | nil => cases h; rfl
  | cons t idx ih =>
    simp only [mapE] at h ⊢
    cases hr : rows[t]? with
    | none => simp only [Arr2.row, hr] at h; cases h
    | some x =>
      have e : (⟨d, rows⟩ : Arr2 F).row t = .ok x := by simp [Arr2.row, hr]
      rw [e, except_bind_ok] at h
      cases hm : mapE (fun i => (⟨d, rows⟩ : Arr2 F).row i) idx with
      | error e => rw [hm] at h; cases h
      | ok l' =>
        rw [hm, except_bind_ok, except_pure] at h
        cases h
        have e2 : (rows.map g)[t]? = some (g x) := by simp [hr]
        rw [e2, ih hm]
        rfl

theorem distRow_eq (G : Given d k P rows labels) {s : Core F} (h : BatchNV d k P rows s) {i : ℕ} (hi : i < k) :
    distRow ⟨d, rows⟩ s i = .ok (rows.map fun x => Arith.rowSum (sqDiff x (colMeans d (P i)))) := by
  rw [distRow, h.v, row_range hi, except_bind_ok]
  apply mapE_ok
  intro x hx
  rw [subOne_eq (G.dim x hx) (colMeans_length _)]
  rfl

theorem batchEntry_eq (G : Given d k P rows labels) {s : Core F} (h : BatchNV d k P rows s) {i j : ℕ} (hi : i < k)
    (hj : j < k) : batchEntry ⟨d, rows⟩ labels s j i = .ok (Batch.cell d P j i) := by
  have ht : mapE (fun i => (⟨d, rows⟩ : Arr2 F).row i) (subsetIndices labels j) = .ok (P j) := by
    have := G.take j
    rw [Arr2.take] at this
    cases hm : mapE (fun i => (⟨d, rows⟩ : Arr2 F).row i) (subsetIndices labels j) with
    | error e => rw [hm] at this; cases this
    | ok l => rw [hm] at this; cases this; rfl
  rw [batchEntry, distRow_eq G h hi, except_bind_ok]
  refine (congrArg (fun z : Except PyErr (List F) => z >>= fun xs => s.n.get j >>= fun m =>
    pure (Arith.pySum xs / Arith.ofNat m)) (pick _ ht)).trans ?_
  show (s.n.get j >>= _) = _
  rw [get_n h hj]
  rfl

theorem paramBatch_eq (G : Given d k P rows labels) (s : Core F) :
    paramBatch ⟨d, rows⟩ labels s =
      .ok () { stage d true k P k (base d k rows s) with Sm := natMat k (Batch.cell d P) } := by
  refine modify_bind (modify_bind ?_)
  rw [G.size]
  refine bind_ok_of ((congrArg _ ?_).trans (forEach_range
    (fun i => stage d true k P i (base d k rows { s with Sm := Arr2.zeros k k })) fun i hi => ?_)) ?_
  · simp only [stage, stageNV, fill_zero]; rfl
  · refine lift_bind (G.take i) (stage_step hi (G.own i) ?_)
    rw [if_pos (by exact hi.trans_le G.le)]
    rfl
  · refine get_bind (lift_bind (mapE_ok fun j hj => mapE_ok fun i hi =>
      batchEntry_eq G (stage_nv _) (List.mem_range.mp hi) (List.mem_range.mp hj)) rfl)

theorem held (s : Core F) :
    BatchHeld .cSIL d k P rows { stage d true k P k (base d k rows s) with Sm := natMat k (Batch.cell d P) } where
  toBatchNV := (stage_nv s).congr rfl rfl rfl rfl rfl rfl
  cp _ _ := stage_cp (b := true) (base d k rows s)
  mu h := absurd rfl h
  sep h := by simp at h
  table h := by simp at h
  spreads h := by simp at h
  sil _ := rfl
  pages h := by simp at h

theorem coef_range (hk : 1 < k) {i : ℕ} (hi : i < k) :
    coef (natMat k (Batch.cell d P)) i = .ok (Batch.silhouette d k P i) := by
  have hne : ((List.range k).filter (· ≠ i)).map (fun j => Batch.cell d P j i) ≠ [] := by
    rw [Ne, List.map_eq_nil_iff]
    exact others_ne_nil hk i
  rw [coef, natMat_get hi hi, except_bind_ok, natMat_col hi, except_bind_ok, Vec.delete, if_pos (by simpa using hi),
    except_bind_ok, eraseIdx_range, amin_eq hne]
  rfl

theorem any_range (f : ℕ → ℕ → F) : Arr2.any (natMat k f) = (List.range k).any fun j => (List.range k).any fun i =>
    Arith.truthy (f j i) := by
  simp [Arr2.any, natMat, List.any_map, Function.comp_def]

theorem batch (G : Given d k P rows labels) (hk : 1 < k) (s0 : Core F) :
    ∃ s, Batched CSILmod ⟨d, rows⟩ labels s0 (Batch.value d k P rows .cSIL) s ∧ BatchHeld .cSIL d k P rows s := by
  have h := held (d := d) (k := k) (P := P) (rows := rows) s0
  by_cases ha : Arr2.any (natMat k (Batch.cell d P)) = true
  · refine ⟨_, ⟨_, paramBatch_eq G s0, modify_bind (get_bind ((congrFun (if_pos ⟨hk, ha⟩) _).trans
      (lift_bind (mapE_ok fun i hi => coef_range hk (List.mem_range.mp hi)) rfl))), ?_⟩, ?_⟩
    · rw [any_range] at ha
      simp only [Batch.value, if_pos ha]
      rfl
    · exact ⟨h.toBatchNV.congr rfl rfl rfl rfl rfl rfl, h.cp, h.mu, h.sep, h.table, h.spreads, h.sil, h.pages⟩
  · refine ⟨_, ⟨_, paramBatch_eq G s0, modify_bind (get_bind ((congrFun (if_neg fun hh => ha hh.2) _).trans rfl)), ?_⟩, ?_⟩
    · rw [any_range] at ha
      simp only [Batch.value, if_neg ha]
    · exact ⟨h.toBatchNV.congr rfl rfl rfl rfl rfl rfl, h.cp, h.mu, h.sep, h.table, h.spreads, h.sil, h.pages⟩

end CSIL

/-! ## rCIP -/

namespace RCIP

theorem gauss_length (l : List (List F)) : (Batch.gauss d l).v.length = d := colMeans_length l

omit [Arith F] in
theorem scatter_sq (f : ℕ → ℕ → F) :
    Sq d (⟨d, (List.range d).map fun i => (List.range d).map fun j => f i j⟩ : Arr2 F) := by
  refine ⟨rfl, by simp, ?_⟩
  intro r hr
  obtain ⟨i, _, rfl⟩ := List.mem_map.mp hr
  simp

theorem batchSigma_eq {l : List (List F)} (h1 : l.length > 1) :
    batchSigma ⟨d, l⟩ (colMeans d l) (ridge d) = .ok (Batch.gauss d l).sigma ∧ Sq d (Batch.gauss d l).sigma := by
  have hl := colMeans_length (d := d) l
  have hs := scatter_sq (d := d) fun i j => Arith.mm (⟨d, l⟩ : Arr2 F).transpose ⟨d, l⟩ i j
  have ho := smul_sq (q := Arith.ofNat l.length) (outer_sq hl)
  have ht : (⟨d, l⟩ : Arr2 F).transpose.rows.length = d := by simp [Arr2.transpose]
  have hz := zip2_sq (f := (· - ·)) hs ho
  have e : (Batch.gauss d l).sigma = zip2 (· + ·) (Arr2.smul (Arith.invPred l.length) (zip2 (· - ·)
      ⟨d, (List.range d).map fun i => (List.range d).map fun j => Arith.mm (⟨d, l⟩ : Arr2 F).transpose ⟨d, l⟩ i j⟩
      (Arr2.smul (Arith.ofNat l.length) (Arr2.outer (colMeans d l) (colMeans d l))))) (ridge d) := by
    simp only [Batch.gauss, if_pos h1, Arr2.smul, Arr2.outer, Arr2.transpose, hl, zip2]
    rfl
  constructor
  · rw [batchSigma, Arr2.matmul, if_pos (show (⟨d, l⟩ : Arr2 F).transpose.cols = (⟨d, l⟩ : Arr2 F).rows.length from rfl), except_bind_ok, ht, Arr2.sub]
    show (Arr2.bin (· - ·) ⟨d, _⟩ (Arr2.smul (Arith.ofNat l.length) (Arr2.outer (colMeans d l) (colMeans d l))) >>= _) = _
    rw [bin_sq hs ho, except_bind_ok, Arr2.add]
    show Arr2.bin _ (Arr2.smul (Arith.invPred l.length) _) _ = _
    rw [bin_sq (smul_sq hz) ridge_sq, e]
  · rw [e]
    exact zip2_sq (smul_sq hz) ridge_sq

theorem gauss_single {l : List (List F)} (h : ¬ l.length > 1) : (Batch.gauss d l).sigma = ridge d := by
  simp only [Batch.gauss, if_neg h]

theorem gauss_sq (l : List (List F)) : Sq d (Batch.gauss d l).sigma := by
  by_cases h : l.length > 1
  · exact (batchSigma_eq h).2
  · rw [gauss_single h]; exact ridge_sq

/-- The attributes set before the loop, with the first `i` clusters filled. -/
def stageG (d k : ℕ) (P : ℕ → List (List F)) (rows : List (List F)) (c : F) (i : ℕ) (s : Core F) : Core F :=
  { stageNV d false k P i (CSIL.base d k rows s) with
    deltaTerm := ridge d
    constant := c
    sigma := fill k i (fun i => (Batch.gauss d (P i)).sigma) (Arr2.zeros d d)
    sigmaShape := (d, d)
    D := Arr2.zeros k k }

theorem stageG_nv (c : F) (s : Core F) : BatchNV d k P rows (stageG d k P rows c k s) :=
  ⟨rfl, rfl, rfl, rfl, fill_full k _ _, congrArg (Arr2.mk d) (fill_full k _ _)⟩

theorem setSigma_fill {s : Core F} {i : ℕ} {f : ℕ → Arr2 F} {x z : Arr2 F} (hi : i < k) (h : s.sigma = fill k i f z)
    (hs : s.sigmaShape = (d, d)) (hx : x = f i) (hq : Sq d x) :
    Verif.RCIP.setSigma i x s = .ok () { s with sigma := fill k (i + 1) f z } := by
  subst hx
  rw [Verif.RCIP.setSigma]
  apply get_bind
  rw [if_pos (by rw [h]; simpa using hi), hs, broadcast_sq hq]
  refine lift_bind rfl ?_
  rw [modify_apply, h, fill_set, ← hs]

theorem batchStep_eq (G : Given d k P rows labels) {c : F} {s : Core F} {i : ℕ} (hi : i < k) :
    batchStep ⟨d, rows⟩ labels i (stageG d k P rows c i s) = .ok () (stageG d k P rows c (i + 1) s) := by
  refine lift_bind (G.take i) ?_
  refine bind_ok_of (setN_fill (f := fun i => (P i).length) hi rfl rfl) ?_
  refine bind_ok_of (setV_fill (d := d) hi (f := fun i => colMeans d (P i)) rfl rfl (colMeans_length _)) ?_
  apply get_bind
  by_cases h : (P i).length > 1
  · refine (congrFun (if_pos h) _).trans (lift_bind (batchSigma_eq h).1 ?_)
    exact setSigma_fill (f := fun i => (Batch.gauss d (P i)).sigma) hi rfl rfl rfl (gauss_sq _)
  · refine (congrFun (if_neg h) _).trans ?_
    exact setSigma_fill (f := fun i => (Batch.gauss d (P i)).sigma) hi rfl rfl (gauss_single h).symm ridge_sq

theorem batchDist_eq {c : F} {s : Core F} {i j : ℕ} (hi : i < k) (hj : j < k) :
    batchDist (stageG d k P rows c k s) i j =
      cip c (Batch.gauss d (P i)).v (Batch.gauss d (P j)).v (Batch.gauss d (P i)).sigma (Batch.gauss d (P j)).sigma := by
  have hp : ∀ i, i < k → Verif.RCIP.page (stageG d k P rows c k s) i = .ok (Batch.gauss d (P i)).sigma := by
    intro i hi
    rw [Verif.RCIP.page]
    simp only [stageG, fill_full]
    simp [hi]
  rw [batchDist, (stageG_nv c s).v, row_range hi, except_bind_ok, row_range hj, except_bind_ok, hp i hi, except_bind_ok,
    hp j hj, except_bind_ok]
  rfl

theorem cip_of_overlap (hi : InvShape F d) {c r : F} (hc : Arith.normConst d = .ok c) {s t : Gauss F} (hs : Sq d s.sigma)
    (ht : Sq d t.sigma) (hsv : s.v.length = d) (htv : t.v.length = d) (h : Overlap d s t r) :
    cip c s.v t.v s.sigma t.sigma = .ok r := by
  obtain ⟨c', D, B, h1, h2, h3, h4⟩ := h
  rw [hc] at h1
  injection h1 with h1
  subst h1
  obtain ⟨b1, b2, _⟩ := hi _ _ (zip2_sq (f := (· + ·)) hs ht) h3
  have hz := zip_length (f := (· - ·)) hsv htv
  rw [cip, sub_eq hsv htv, except_bind_ok, Arr2.add, bin_sq hs ht, except_bind_ok, h2, except_bind_ok, h3, except_bind_ok,
    quad, Arr2.vecMul, if_pos (by simp [Vec.smul, b2, hsv, htv]), except_bind_ok, inner_eq (d := d) (by simp [b1]) hz, b1, h4]
  rfl

/-- The double loop, when an entry may raise. -/
theorem upperTri_cases {f : ℕ → ℕ → Except PyErr F} {Q : ℕ → ℕ → F → Prop} {E : PyErr → Prop}
    (h : ∀ i j, i < j → j < k → (∃ r, f i j = .ok r ∧ Q i j r) ∨ ∃ e, f i j = .error e ∧ E e) :
    (∃ g, (∀ i j, i < j → j < k → Q i j (g i j)) ∧ Arr2.upperTri k f = .ok (natMat k (upper g))) ∨
      ∃ e, Arr2.upperTri k f = .error e ∧ E e := by
  by_cases hall : ∀ i j, i < j → j < k → ∃ r, f i j = .ok r ∧ Q i j r
  · left
    choose g hg using hall
    refine ⟨fun i j => if h : i < j ∧ j < k then g i j h.1 h.2 else 0, fun i j hij hj => ?_, upperTri_natMat fun i j hij hj => ?_⟩
    · simpa [hij, hj] using (hg i j hij hj).2
    · simpa [hij, hj] using (hg i j hij hj).1
  · right
    have hE : ∀ e, (∃ i j, i < j ∧ j < k ∧ f i j = .error e) → E e := by
      rintro e ⟨i, j, hij, hj, he⟩
      rcases h i j hij hj with ⟨r, hr, _⟩ | ⟨e', he', hE⟩
      · rw [hr] at he; cases he
      · rw [he'] at he; cases he; exact hE
    have hrow : ∀ i e, mapE (fun j => if i < j then f i j else .ok 0) (List.range k) = .error e → E e := by
      intro i e he
      rcases mapE_cases (fun j => if i < j then f i j else .ok 0) (List.range k) with hc | ⟨j, hj, e', h1, h2⟩
      · choose! g hg using hc
        rw [mapE_ok hg] at he
        cases he
      · rw [h2] at he
        cases he
        split at h1
        · rename_i hij
          exact hE e ⟨i, j, hij, List.mem_range.mp hj, h1⟩
        · cases h1
    rcases mapE_cases (fun i => mapE (fun j => if i < j then f i j else .ok 0) (List.range k)) (List.range k) with hc | ⟨i, hi, e, h1, h2⟩
    · exfalso
      push Not at hall
      obtain ⟨i, j, hij, hj, hn⟩ := hall
      rcases h i j hij hj with ⟨r, hr, hq⟩ | ⟨e, he, _⟩
      · exact hn r hr hq
      · obtain ⟨r, hr⟩ := hc i (List.mem_range.mpr (hij.trans hj))
        rcases mapE_cases (fun j => if i < j then f i j else .ok 0) (List.range k) with hc | ⟨j', _, e', h1, h2⟩
        · obtain ⟨r', hr'⟩ := hc j (List.mem_range.mpr hj)
          simp only [if_pos hij, he] at hr'
          cases hr'
        · rw [h2] at hr; cases hr
    · refine ⟨e, ?_, hrow i e h1⟩
      rw [Arr2.upperTri, h2]
      rfl

/-- The sum of the covariances of two clusters of a batch. -/
def _root_.Verif.Gen.Batch.Summed (d k : ℕ) (P : ℕ → List (List F)) (A : Arr2 F) : Prop :=
  ∃ i j, i < j ∧ j < k ∧ A = zip2 (· + ·) (Batch.gauss d (P i)).sigma (Batch.gauss d (P j)).sigma

theorem batch (hi : InvShape F d) (G : Given d k P rows labels) (hk : 1 < k) (s0 : Core F) :
    (∃ r s, Batched RCIPmod ⟨d, rows⟩ labels s0 r s ∧ Batch.Returns d k P rows .rCIP r ∧ BatchHeld .rCIP d k P rows s) ∨
      ∃ e s, paramBatch ⟨d, rows⟩ labels s0 = .err e s ∧ LibRaises d (Batch.Summed d k P) e ∧
        (d ≠ 0 → ∀ r, ¬ Batch.Returns d k P rows .rCIP r) := by
  by_cases hd : d = 0
  · subst hd
    exact Or.inr ⟨_, _, modify_bind (lift_err rfl), Or.inl ⟨rfl, rfl⟩, fun h => absurd rfl h⟩
  have hdelta : deltaTerm d = .ok (ridge d : Arr2 F) := by rw [deltaTerm, if_neg hd]; rfl
  cases hc : Arith.normConst (F := F) d with
  | error e =>
    refine Or.inr ⟨_, _, modify_bind (lift_bind hdelta (modify_bind (lift_err hc))), Or.inr (Or.inl hc), ?_⟩
    rintro - r ⟨g, hg, -⟩
    obtain ⟨c, D, B, h1, -⟩ := hg 0 1 (by omega) hk
    rw [hc] at h1
    cases h1
  | ok c =>
    have hloop : forEach (List.range k) (batchStep ⟨d, rows⟩ labels) (stageG d k P rows c 0 s0) =
        .ok () (stageG d k P rows c k s0) :=
      forEach_range (fun i => stageG d k P rows c i s0) fun i hi => batchStep_eq G hi
    have h0 : stageG d k P rows c 0 s0 = { s0 with
        nSamples := rows.length
        dim := d
        isSetup := true
        deltaTerm := ridge d
        constant := c
        nClusters := k
        n := ⟨false, List.replicate k 0⟩
        v := Arr2.zeros k d
        sigma := List.replicate k (Arr2.zeros d d)
        sigmaShape := (d, d)
        D := Arr2.zeros k k } := by
      simp only [stageG, stageNV, fill_zero]; rfl
    rw [h0] at hloop
    have hrest : ∀ {r : Res (Core F) Unit}, ((Py.get >>= fun s => lift (Arr2.upperTri k (batchDist s)) >>= fun D =>
        lift (Arr2.add D D.transpose) >>= fun D' => modify fun s => { s with D := D' }) (stageG d k P rows c k s0) = r) →
        paramBatch ⟨d, rows⟩ labels s0 = r := by
      intro r hr
      refine modify_bind (lift_bind hdelta (modify_bind (lift_bind hc (modify_bind ?_))))
      rw [G.size]
      exact bind_ok_of hloop hr
    rcases upperTri_cases (k := k) (f := batchDist (stageG d k P rows c k s0))
      (Q := fun i j r => Overlap d (Batch.gauss d (P i)) (Batch.gauss d (P j)) r) 
      (E := LibRaises d (Batch.Summed d k P)) (fun i j hij hj => by
        rw [batchDist_eq (hij.trans hj) hj]
        refine (cip_cases hi hc _ _ (gauss_sq _) (gauss_sq _) (gauss_length _) (gauss_length _)).imp_right ?_
        exact fun ⟨e, h1, h2⟩ => ⟨e, h1, h2.mono fun A hA => ⟨i, j, hij, hj, hA⟩⟩) with ⟨g, hg, hU⟩ | ⟨e, he, hE⟩
    · left
      have hp := hrest (get_bind (lift_bind hU (lift_bind (add_transpose g) rfl)))
      have hr : (natMat k (Batch.both g)).rows.length = k := by simp [natMat]
      refine ⟨_, _, ⟨_, hp, get_bind ((congrFun (if_pos (by exact hr.symm ▸ hk)) _).trans (lift_bind
        (a := (pairs (List.range k)).map fun p => Batch.both g p.1 p.2) ?_ rfl)), rfl⟩, ⟨g, hg, rfl⟩, ?_⟩
      · exact hr.symm ▸ natMat_triu _
      · refine ⟨(stageG_nv c s0).congr rfl rfl rfl rfl rfl rfl, fun _ h => absurd rfl h, fun _ h => absurd rfl h,
          fun h => ?_, fun h => ?_, fun h => ?_, fun h => ?_, fun _ => fill_full k _ _⟩ <;> simp at h
    · refine Or.inr ⟨e, _, hrest (get_bind (lift_err he)), hE, ?_⟩
      rintro - r ⟨g, hg, -⟩
      have : Arr2.upperTri k (batchDist (stageG d k P rows c k s0)) = .ok (natMat k (upper g)) := by
        refine upperTri_natMat fun i j hij hj => ?_
        rw [batchDist_eq (hij.trans hj) hj]
        exact cip_of_overlap hi hc (gauss_sq _) (gauss_sq _) (gauss_length _) (gauss_length _) (hg i j hij hj)
      rw [he] at this
      cases this

end RCIP

/-! ## All nine -/

theorem batch {I : Index} (hI : I ≠ .rCIP) (G : Given d k P rows labels) (hk : 1 < k)
    (hp : I = .PS → ∃ i < k, P i ≠ []) (s0 : Core F) :
    ∃ s, Batched (mod F I) ⟨d, rows⟩ labels s0 (Batch.value d k P rows I) s ∧ BatchHeld I d k P rows s := by
  cases I with
  | CH => exact CH.batch G hk s0
  | WB => exact WB.batch G hk s0
  | XB => exact XB.batch G hk s0
  | DB => exact DB.batch G hk s0
  | GD43 => exact GD43.batch G hk s0
  | GD53 => exact GD53.batch G hk s0
  | PS => exact PS.batch G hk (hp rfl) s0
  | cSIL => exact CSIL.batch G hk s0
  | rCIP => exact absurd rfl hI

theorem mod_concrete (I : Index) : (mod F I).abstract = false := by cases I <;> rfl

end Verif.Gen
