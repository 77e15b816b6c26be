import Verif.Gen.SpecBatch
import Verif.Gen.Inc
import Verif.Gen.All
import Verif.Proofs.Batch

/-!
# Batches in any arithmetic: shared steps
-/

namespace Verif.Gen
open Py

variable {F : Type} {d k : ℕ}

/-! ## Tables that are being filled -/

/-- A table of length `k` of which the first `i` entries are filled. -/
def fill {α : Type} (k i : ℕ) (f : ℕ → α) (z : α) : List α := (List.range k).map fun j => if j < i then f j else z

@[simp] theorem fill_length {α : Type} (k i : ℕ) (f : ℕ → α) (z : α) : (fill k i f z).length = k := by simp [fill]

theorem fill_zero {α : Type} (k : ℕ) (f : ℕ → α) (z : α) : fill k 0 f z = List.replicate k z := by
  simp [fill]

theorem fill_full {α : Type} (k : ℕ) (f : ℕ → α) (z : α) : fill k k f z = (List.range k).map f :=
  List.map_congr_left fun _ hj => if_pos (List.mem_range.mp hj)

theorem fill_set {α : Type} {k i : ℕ} (f : ℕ → α) (z : α) : (fill k i f z).set i (f i) = fill k (i + 1) f z := by
  apply List.ext_getElem
  · simp
  · intro j h1 h2
    simp only [fill_length, List.length_set] at h1
    rw [List.getElem_set]
    by_cases e : i = j
    · subst e; simp [fill]
    · simp only [e, if_false, fill, List.getElem_map, List.getElem_range]
      have : j < i + 1 ↔ j < i := by omega
      simp only [this]

theorem setN_fill {s : Core F} {b : Bool} {i x : ℕ} {f : ℕ → ℕ} {z : ℕ} (hi : i < k) (h : s.n = ⟨b, fill k i f z⟩)
    (hx : x = f i) : setN i x s = .ok () { s with n := ⟨b, fill k (i + 1) f z⟩ } := by
  subst hx
  simp [setN, h, Seq.set, hi, fill_set]

theorem setV_fill [Zero F] {s : Core F} {i : ℕ} {f : ℕ → List F} {x z : List F} (hi : i < k) (h : s.v = ⟨d, fill k i f z⟩)
    (hx : x = f i) (hd : x.length = d) : setV i x s = .ok () { s with v := ⟨d, fill k (i + 1) f z⟩ } := by
  subst hx
  simp [setV, h, Arr2.setRow, hi, Vec.broadcastTo, hd, fill_set]

theorem setCP_fill {s : Core F} {b : Bool} {i : ℕ} {f : ℕ → F} {x z : F} (hi : i < k)
    (h : s.CP = some ⟨b, fill k i f z⟩) (hx : x = f i) :
    setCP i x s = .ok () { s with CP := some ⟨b, fill k (i + 1) f z⟩ } := by
  subst hx
  simp [setCP, h, attr, Seq.set, hi, fill_set]

/-! ## Reading tables -/

theorem get_range {α : Type} {b : Bool} {i : ℕ} {f : ℕ → α} (hi : i < k) :
    (⟨b, (List.range k).map f⟩ : Seq α).get i = .ok (f i) := by simp [Seq.get, hi]

theorem row_range {i : ℕ} {f : ℕ → List F} (hi : i < k) :
    (⟨d, (List.range k).map f⟩ : Arr2 F).row i = .ok (f i) := by simp [Arr2.row, hi]

theorem natMat_get {g : ℕ → ℕ → F} {i j : ℕ} (hi : i < k) (hj : j < k) : (natMat k g).get i j = .ok (g i j) := by
  simp [Arr2.get, natMat, hi, hj]

theorem natMat_row {g : ℕ → ℕ → F} {i : ℕ} (hi : i < k) : (natMat k g).row i = .ok ((List.range k).map (g i)) := by
  simp [Arr2.row, natMat, hi]

theorem natMat_col {g : ℕ → ℕ → F} {j : ℕ} (hj : j < k) :
    (natMat k g).col j = .ok ((List.range k).map fun i => g i j) := by
  rw [Arr2.col, if_pos (show j < (natMat k g).cols from hj)]
  show mapE _ ((List.range k).map fun i => (List.range k).map fun j => g i j) = _
  rw [mapE_map]
  apply mapE_ok
  intro i _
  simp [hj]

theorem mem_triu {n : ℕ} {p : ℕ × ℕ} (h : p ∈ pairs (List.range n)) : p.1 < p.2 ∧ p.2 < n := by
  rw [← triuPairs_eq] at h
  exact mem_triuPairs.mp h

theorem natMat_triu (g : ℕ → ℕ → F) : (natMat k g).triu k = .ok ((pairs (List.range k)).map fun p => g p.1 p.2) := by
  rw [Arr2.triu, triuPairs_eq]
  apply mapE_ok
  intro p hp
  obtain ⟨h1, h2⟩ := mem_triu hp
  exact natMat_get (h1.trans h2) h2

theorem eraseIdx_range {α : Type} {i : ℕ} (f : ℕ → α) :
    ((List.range k).map f).eraseIdx i = ((List.range k).filter (· ≠ i)).map f := by
  rw [List.eraseIdx_map]
  congr 1
  by_cases hi : i < k
  · have e : (List.range k).idxOf i = i := by
      have := List.nodup_range.idxOf_getElem i (by simpa using hi)
      simpa using this
    rw [← List.erase_eq_eraseIdx_of_idxOf e, List.Nodup.erase_eq_filter List.nodup_range]
    congr 1
    funext x
    by_cases e : x = i <;> simp [e]
  · rw [List.eraseIdx_of_length_le (by simpa using hi), List.filter_eq_self.mpr]
    intro a ha
    have := List.mem_range.mp ha
    simp; omega

theorem others_ne_nil (hk : 1 < k) (i : ℕ) : (List.range k).filter (· ≠ i) ≠ [] := by
  by_cases h : i = 0
  · exact List.ne_nil_of_mem (a := 1) (by simp [h, hk])
  · exact List.ne_nil_of_mem (a := 0) (by simp; omega)

/-! ## Selecting the rows of a cluster -/

/-- `data[subset_indices, :]` are the samples of the cluster; further rows of `data` do not matter. -/
theorem take_own (S : Samples F) (E : List (List F)) (i : ℕ) :
    (⟨d, S.map Prod.fst ++ E⟩ : Arr2 F).take (subsetIndices (S.map Prod.snd) i) = .ok ⟨d, own S (i : ℤ)⟩ := by
  induction S using List.reverseRecOn generalizing E with
  | nil => rfl
  | append_singleton S p ih =>
    obtain ⟨x, c⟩ := p
    have ih := ih ([x] ++ E)
    simp only [Arr2.take] at ih ⊢
    simp only [List.map_append, List.map_cons, List.map_nil, List.append_assoc] at ih ⊢
    rw [subsetIndices_append, mapE_append]
    cases h : mapE (fun i => (⟨d, S.map Prod.fst ++ ([x] ++ E)⟩ : Arr2 F).row i) (subsetIndices (S.map Prod.snd) i) with
    | error e => rw [h] at ih; cases ih
    | ok r =>
      rw [h] at ih
      simp only [except_bind_ok, except_pure, Except.ok.injEq] at ih ⊢
      have hr : r = own S (i : ℤ) := congrArg Arr2.rows ih
      by_cases hc : c = i
      · subst hc
        have : (⟨d, S.map Prod.fst ++ ([x] ++ E)⟩ : Arr2 F).row S.length = .ok x := by
          simp [Arr2.row]
        rw [if_pos rfl, List.length_map]
        simp only [mapE, this, except_bind_ok, except_pure, own_append_self, hr]
      · rw [if_neg hc]
        simp only [mapE, except_bind_ok, List.append_nil, hr, own_append_ne S x (Ne.symm hc)]

theorem uniqueSize_eq (S : Samples F) : uniqueSize (S.map Prod.snd) = (order S).length := by
  rw [uniqueSize, order_eq]
  apply List.Perm.length_eq
  rw [List.perm_ext_iff_of_nodup (List.nodup_dedup _) (firstSeen_nodup _)]
  intro a
  rw [List.mem_dedup, mem_firstSeen]

variable [Arith F]

theorem colMeans_length (l : List (List F)) : (colMeans d l).length = d := by simp [colMeans]

theorem sqDiff_length {x v : List F} (hx : x.length = d) (hv : v.length = d) : (sqDiff x v).length = d := by
  simp [sqDiff, hx, hv]

theorem subOne_eq {x v : List F} (hx : x.length = d) (hv : v.length = d) :
    Vec.sub x (v.map (· * Arith.one)) = .ok (List.zipWith (· - ·) x (v.map (· * Arith.one))) :=
  sub_eq hx (by simpa using hv)

theorem batchScatter_eq {l : List (List F)} (h : ∀ x ∈ l, x.length = d) :
    batchScatter ⟨d, l⟩ (colMeans d l) = .ok (Stat.batch d l).cp := by
  rw [batchScatter]
  show (mapE _ l >>= _) = _
  rw [mapE_ok (g := fun x => sqDiff x (colMeans d l))]
  · rfl
  · intro x hx
    rw [subOne_eq (h x hx) (colMeans_length l)]
    rfl

/-- The data of a batch: `k` different labels, `P i` the rows of cluster `i`, `d` features. -/
structure Given (d k : ℕ) (P : ℕ → List (List F)) (rows : List (List F)) (labels : List ℤ) : Prop where
  size : uniqueSize labels = k
  take : ∀ i, (⟨d, rows⟩ : Arr2 F).take (subsetIndices labels i) = .ok ⟨d, P i⟩
  own : ∀ i, ∀ x ∈ P i, x.length = d
  dim : ∀ x ∈ rows, x.length = d
  le : k ≤ rows.length

omit [Arith F] in
theorem given {S : Samples F} {E : List (List F)} (hS : S.Dim d) (hE : ∀ x ∈ E, x.length = d) :
    Given d (order S).length (fun i => own S (i : ℤ)) (S.map Prod.fst ++ E) (S.map Prod.snd) := by
  refine ⟨uniqueSize_eq S, take_own S E, fun i x hx => own_length S x hS hx, ?_, ?_⟩
  · intro x hx
    rcases List.mem_append.mp hx with hx | hx
    · obtain ⟨p, hp, rfl⟩ := List.mem_map.mp hx
      exact hS p hp
    · exact hE x hx
  · have h : (order S).length ≤ S.length := by
      rw [← uniqueSize_eq, uniqueSize]
      simpa using (List.dedup_sublist (S.map Prod.snd)).length_le
    simp; omega

/-! ## The loop over `_n`, `_v` and `_CP` -/

/-- The tables `_n` and `_v` with the first `i` clusters filled. -/
def stageNV (d : ℕ) (b : Bool) (k : ℕ) (P : ℕ → List (List F)) (i : ℕ) (s : Core F) : Core F :=
  { s with
    n := ⟨b, fill k i (fun i => (P i).length) 0⟩
    v := ⟨d, fill k i (fun i => colMeans d (P i)) (Vec.zeros d)⟩ }

/-- The tables `_n`, `_v` and `_CP` with the first `i` clusters filled. -/
def stage (d : ℕ) (b : Bool) (k : ℕ) (P : ℕ → List (List F)) (i : ℕ) (s : Core F) : Core F :=
  { stageNV d b k P i s with CP := some ⟨b, fill k i (fun i => (Stat.batch d (P i)).cp) 0⟩ }

theorem stageNV_step {β : Type} {b : Bool} {P : ℕ → List (List F)} {i : ℕ} {s : Core F} (hi : i < k)
    {f : Unit → Py (Core F) β} {r : Res (Core F) β} (h : f () (stageNV d b k P (i + 1) s) = r) :
    (setN i (P i).length >>= fun _ => setV i (Arr2.mean0 ⟨d, P i⟩) >>= f) (stageNV d b k P i s) = r := by
  refine bind_ok_of (setN_fill (f := fun i => (P i).length) hi rfl rfl) ?_
  refine bind_ok_of (setV_fill (d := d) hi (f := fun i => colMeans d (P i)) rfl rfl (colMeans_length _)) ?_
  exact h

theorem stage_step {β : Type} {b : Bool} {P : ℕ → List (List F)} {i : ℕ} {s : Core F} (hi : i < k)
    (hP : ∀ x ∈ P i, x.length = d)
    {f : Unit → Py (Core F) β} {r : Res (Core F) β} (h : f () (stage d b k P (i + 1) s) = r) :
    (setN i (P i).length >>= fun _ => setV i (Arr2.mean0 ⟨d, P i⟩) >>= fun _ =>
      lift (batchScatter ⟨d, P i⟩ (Arr2.mean0 ⟨d, P i⟩)) >>= fun cp => setCP i cp >>= f) (stage d b k P i s) = r := by
  refine bind_ok_of (setN_fill (f := fun i => (P i).length) hi rfl rfl) ?_
  refine bind_ok_of (setV_fill (d := d) hi (f := fun i => colMeans d (P i)) rfl rfl (colMeans_length _)) ?_
  refine lift_bind (batchScatter_eq hP) ?_
  refine bind_ok_of (setCP_fill (f := fun i => (Stat.batch d (P i)).cp) hi rfl rfl) ?_
  exact h

/-! ## What is recorded -/

/-- The records common to all classes after a batch. -/
structure BatchNV (d k : ℕ) (P : ℕ → List (List F)) (rows : List (List F)) (s : Core F) : Prop where
  dim : s.dim = d
  nSamples : s.nSamples = rows.length
  isSetup : s.isSetup = true
  clusters : s.nClusters = k
  n : s.n.items = (List.range k).map fun i => (P i).length
  v : s.v = ⟨d, (List.range k).map fun i => colMeans d (P i)⟩

/-- `_CP` after a batch. -/
def BatchCP (d k : ℕ) (P : ℕ → List (List F)) (s : Core F) : Prop :=
  ∃ b, s.CP = some ⟨b, (List.range k).map fun i => (Stat.batch d (P i)).cp⟩

theorem BatchNV.congr {P : ℕ → List (List F)} {rows : List (List F)} {s s' : Core F} (h : BatchNV d k P rows s)
    (h1 : s'.dim = s.dim) (h2 : s'.nSamples = s.nSamples) (h3 : s'.isSetup = s.isSetup)
    (h4 : s'.nClusters = s.nClusters) (h5 : s'.n = s.n) (h6 : s'.v = s.v) : BatchNV d k P rows s' :=
  ⟨h1.trans h.dim, h2.trans h.nSamples, h3.trans h.isSetup, h4.trans h.clusters, h5 ▸ h.n, h6.trans h.v⟩

/-- A finished batch: the call returns `r` and leaves the attributes `s`. -/
def Batched (M : Module F) (data : Arr2 F) (labels : List ℤ) (s0 : Core F) (r : F) (s : Core F) : Prop :=
  ∃ s1, M.paramBatch data labels s0 = .ok () s1 ∧ M.evaluate s1 = .ok () s ∧ s.criterion = r

omit [Arith F] in
theorem Batched.call {M : Module F} {data : Arr2 F} {labels : List ℤ} {o : Obj F} {r : F} {s : Core F}
    (h : Batched M data labels o.core r s) (hM : M.abstract = false) (ho : o.core.isSetup = false)
    (hk : 1 < uniqueSize labels) : getCvi M (.d2 data) (.arr labels) o = .ok r { o with core := s } := by
  obtain ⟨s1, h1, h2, h3⟩ := h
  have hu : labels.dedup.length > 1 := hk
  simp [getCvi, Module.update, ho, hM, LabelArg.numUnique, LabelArg.toList, hu, onCore, h1, h2, h3, Res.mapState]

omit [Arith F] in
theorem call_err {M : Module F} {data : Arr2 F} {labels : List ℤ} {o : Obj F} {e : PyErr} {s : Core F}
    (h : M.paramBatch data labels o.core = .err e s) (hM : M.abstract = false) (ho : o.core.isSetup = false)
    (hk : 1 < uniqueSize labels) : getCvi M (.d2 data) (.arr labels) o = .err e { o with core := s } := by
  have hu : labels.dedup.length > 1 := hk
  simp [getCvi, Module.update, ho, hM, LabelArg.numUnique, LabelArg.toList, hu, onCore, h, Res.mapState]

omit [Arith F] in
theorem call_err' {M : Module F} {data : Arr2 F} {labels : List ℤ} {o : Obj F} {e : PyErr} {s1 s : Core F}
    (h1 : M.paramBatch data labels o.core = .ok () s1) (h2 : M.evaluate s1 = .err e s) (hM : M.abstract = false)
    (ho : o.core.isSetup = false) (hk : 1 < uniqueSize labels) :
    getCvi M (.d2 data) (.arr labels) o = .err e { o with core := s } := by
  have hu : labels.dedup.length > 1 := hk
  simp [getCvi, Module.update, ho, hM, LabelArg.numUnique, LabelArg.toList, hu, onCore, h1, h2, Res.mapState]

/-- The part above the diagonal. -/
def upper (f : ℕ → ℕ → F) (i j : ℕ) : F := if i < j then f i j else 0

theorem upperTri_natMat {f : ℕ → ℕ → Except PyErr F} {g : ℕ → ℕ → F} (h : ∀ i j, i < j → j < k → f i j = .ok (g i j)) :
    Arr2.upperTri k f = .ok (natMat k (upper g)) := upperTri_ok h

theorem add_transpose (g : ℕ → ℕ → F) :
    Arr2.add (natMat k (upper g)) (natMat k (upper g)).transpose = .ok (natMat k (Batch.both g)) := by
  rw [natMat_transpose, Arr2.add, natMat_bin]; rfl

end Verif.Gen
