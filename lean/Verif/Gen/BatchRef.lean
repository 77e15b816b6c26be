import Verif.Gen.Batch

/-!
# Batches in any arithmetic: CH, WB, XB, DB, GD43, GD53
-/

namespace Verif.Gen
open Py

variable {F : Type} [Arith F] {d k : ℕ} {P : ℕ → List (List F)} {rows : List (List F)} {labels : List ℤ}

/-- The attributes `_n_samples`, `_dim`, `_is_setup`, `_n_clusters`, `_mu` are set before the loop. -/
def base (d k : ℕ) (rows : List (List F)) (s : Core F) : Core F :=
  { s with
    nSamples := rows.length
    dim := d
    isSetup := true
    mu := colMeans d rows
    nClusters := k }

theorem stage_nv {b : Bool} (s : Core F) : BatchNV d k P rows (stage d b k P k (base d k rows s)) :=
  ⟨rfl, rfl, rfl, rfl, fill_full k _ _, congrArg (Arr2.mk d) (fill_full k _ _)⟩

theorem stage_cp {b : Bool} (s : Core F) : BatchCP d k P (stage d b k P k s) :=
  ⟨b, congrArg (fun l => some (Seq.mk b l)) (fill_full k _ _)⟩

theorem stage_last {b : Bool} {i : ℕ} {s : Core F} (hi : i < k) (hP : ∀ x ∈ P i, x.length = d) :
    (setN i (P i).length >>= fun _ => setV i (Arr2.mean0 ⟨d, P i⟩) >>= fun _ =>
      lift (batchScatter ⟨d, P i⟩ (Arr2.mean0 ⟨d, P i⟩)) >>= fun cp => setCP i cp) (stage d b k P i s) =
      .ok () (stage d b k P (i + 1) s) := by
  refine bind_ok_of (setN_fill (f := fun i => (P i).length) hi rfl rfl) ?_
  refine bind_ok_of (setV_fill (d := d) hi (f := fun i => colMeans d (P i)) rfl rfl (colMeans_length _)) ?_
  refine lift_bind (batchScatter_eq hP) ?_
  exact setCP_fill (f := fun i => (Stat.batch d (P i)).cp) hi rfl rfl

/-! ## CH and WB -/

/-- The tables of CH and WB with the first `i` clusters filled. -/
def stageSep (d k : ℕ) (P : ℕ → List (List F)) (rows : List (List F)) (i : ℕ) (s : Core F) : Core F :=
  { stage d true k P i (base d k rows s) with SEP := fill k i (Batch.separation d P rows) 0 }

theorem CH.paramBatch_eq (G : Given d k P rows labels) (s : Core F) :
    CH.paramBatch ⟨d, rows⟩ labels s = .ok () (stageSep d k P rows k s) := by
  refine modify_bind (modify_bind ?_)
  rw [G.size]
  refine (congrArg _ ?_).trans (forEach_range (fun i => stageSep d k P rows i s) fun i hi => ?_)
  · simp only [stageSep, stage, stageNV, fill_zero]; rfl
  · refine lift_bind (G.take i) (stage_step (s := { base d k rows s with SEP := _ }) hi (G.own i) ?_)
    refine get_bind (lift_bind (sqDist_eq (colMeans_length _) (colMeans_length _)) ?_)
    rw [if_pos (by simpa [stage, stageNV] using hi)]
    exact congrArg (fun l => Res.ok () { stage d true k P (i + 1) (base d k rows s) with SEP := l })
      (fill_set (i := i) (Batch.separation d P rows) 0)

theorem WB.paramBatch_eq (G : Given d k P rows labels) (s : Core F) :
    WB.paramBatch ⟨d, rows⟩ labels s = .ok () (stageSep d k P rows k s) := by
  refine modify_bind (modify_bind ?_)
  rw [G.size]
  refine (congrArg _ ?_).trans (forEach_range (fun i => stageSep d k P rows i s) fun i hi => ?_)
  · simp only [stageSep, stage, stageNV, fill_zero]; rfl
  · refine lift_bind (G.take i) (stage_step (s := { base d k rows s with SEP := _ }) hi (G.own i) ?_)
    refine get_bind (lift_bind (sqDist_eq (colMeans_length _) (colMeans_length _)) ?_)
    rw [if_pos (by simpa [stage, stageNV] using hi)]
    exact congrArg (fun l => Res.ok () { stage d true k P (i + 1) (base d k rows s) with SEP := l })
      (fill_set (i := i) (Batch.separation d P rows) 0)

/-- What an object of class `I` holds after a batch. -/
structure BatchHeld (I : Index) (d k : ℕ) (P : ℕ → List (List F)) (rows : List (List F)) (s : Core F) : Prop
    extends BatchNV d k P rows s where
  cp : I ≠ .PS → I ≠ .rCIP → BatchCP d k P s
  mu : I ≠ .cSIL → I ≠ .rCIP → s.mu = colMeans d rows
  sep : I = .CH ∨ I = .WB → s.SEP = (List.range k).map (Batch.separation d P rows)
  table : I = .XB ∨ I = .DB ∨ I = .GD43 ∨ I = .GD53 ∨ I = .PS → s.D = natMat k (Batch.table d P I)
  spreads : I = .DB → s.Sv.items = (List.range k).map (Batch.spread d P)
  sil : I = .cSIL → s.Sm = natMat k (Batch.cell d P)
  pages : I = .rCIP → s.sigma = (List.range k).map fun i => (Batch.gauss d (P i)).sigma

theorem stageSep_held {I : Index} (hI : I = .CH ∨ I = .WB) (s : Core F) :
    BatchHeld I d k P rows (stageSep d k P rows k s) where
  toBatchNV := (stage_nv s).congr rfl rfl rfl rfl rfl rfl
  cp _ _ := stage_cp (b := true) (base d k rows s)
  mu _ _ := rfl
  sep _ := fill_full k _ _
  table h := by rcases hI with rfl | rfl <;> simp at h
  spreads h := by rcases hI with rfl | rfl <;> simp at h
  sil h := by rcases hI with rfl | rfl <;> simp at h
  pages h := by rcases hI with rfl | rfl <;> simp at h

theorem CH.batch (G : Given d k P rows labels) (hk : 1 < k) (s0 : Core F) :
    ∃ s, Batched CHmod ⟨d, rows⟩ labels s0 (Batch.value d k P rows .CH) s ∧ BatchHeld .CH d k P rows s := by
  have h := stageSep_held (d := d) (k := k) (P := P) (rows := rows) (Or.inl rfl : Index.CH = .CH ∨ _) s0
  obtain ⟨b, hb⟩ := h.cp (by simp) (by simp)
  refine ⟨_, ⟨_, CH.paramBatch_eq G s0, get_bind ((congrFun (if_pos (by exact hk)) _).trans
    (lift_bind (congrArg attr hb) rfl)), ?_⟩, ?_⟩
  · simp only [h.sep (Or.inl rfl)]
    rfl
  · exact ⟨h.toBatchNV.congr rfl rfl rfl rfl rfl rfl, h.cp, h.mu, h.sep, h.table, h.spreads, h.sil, h.pages⟩

theorem WB.batch (G : Given d k P rows labels) (hk : 1 < k) (s0 : Core F) :
    ∃ s, Batched WBmod ⟨d, rows⟩ labels s0 (Batch.value d k P rows .WB) s ∧ BatchHeld .WB d k P rows s := by
  have h := stageSep_held (d := d) (k := k) (P := P) (rows := rows) (Or.inr rfl : Index.WB = .CH ∨ _) s0
  obtain ⟨b, hb⟩ := h.cp (by simp) (by simp)
  refine ⟨_, ⟨_, WB.paramBatch_eq G s0, get_bind ((congrFun (if_pos (by exact hk)) _).trans
    (lift_bind (congrArg attr hb) rfl)), ?_⟩, ?_⟩
  · simp only [h.sep (Or.inr rfl)]
    rfl
  · exact ⟨h.toBatchNV.congr rfl rfl rfl rfl rfl rfl, h.cp, h.mu, h.sep, h.table, h.spreads, h.sil, h.pages⟩

/-! ## XB -/

theorem XB.batchDist_eq {s : Core F} (h : BatchNV d k P rows s) {i j : ℕ} (hi : i < k) (hj : j < k) :
    XB.batchDist s i j = .ok (between .XB (Stat.batch d (P i)) (Stat.batch d (P j))) := by
  rw [XB.batchDist, h.v, row_range hi, except_bind_ok, row_range hj, except_bind_ok,
    sqDist_eq (colMeans_length _) (colMeans_length _)]
  rfl

theorem XB.paramBatch_eq (G : Given d k P rows labels) (s : Core F) :
    XB.paramBatch ⟨d, rows⟩ labels s =
      .ok () { stage d true k P k (base d k rows s) with D := natMat k (Batch.table d P .XB) } := by
  refine modify_bind (modify_bind ?_)
  rw [G.size]
  refine bind_ok_of ((congrArg _ ?_).trans (forEach_range
    (fun i => stage d true k P i (base d k rows { s with D := Arr2.zeros k k })) fun i hi => ?_)) ?_
  · simp only [stage, stageNV, fill_zero]; rfl
  · exact lift_bind (G.take i) (stage_last hi (G.own i))
  · exact get_bind (lift_bind (upperTri_natMat fun i j hij hj =>
      XB.batchDist_eq (stage_nv _) (hij.trans hj) hj) rfl)

theorem table_held {I : Index} (hI : I = .XB ∨ I = .GD43 ∨ I = .GD53) {b : Bool} {s s' : Core F}
    (h : s' = { stage d b k P k (base d k rows s) with D := natMat k (Batch.table d P I) }) : BatchHeld I d k P rows s' := by
  subst h
  exact {
    toBatchNV := (stage_nv s).congr rfl rfl rfl rfl rfl rfl
    cp := fun _ _ => stage_cp (b := b) (base d k rows s)
    mu := fun _ _ => rfl
    sep := fun h => by rcases hI with rfl | rfl | rfl <;> simp at h
    table := fun _ => rfl
    spreads := fun h => by rcases hI with rfl | rfl | rfl <;> simp at h
    sil := fun h => by rcases hI with rfl | rfl | rfl <;> simp at h
    pages := fun h => by rcases hI with rfl | rfl | rfl <;> simp at h }

theorem Batch.distances_ne_nil {I : Index} (hk : 1 < k) : Batch.distances d k P I ≠ [] := by
  have := pairs_ne_nil (l := List.range k) (by simpa using hk)
  simpa [Batch.distances] using this

theorem XB.batch (G : Given d k P rows labels) (hk : 1 < k) (s0 : Core F) :
    ∃ s, Batched XBmod ⟨d, rows⟩ labels s0 (Batch.value d k P rows .XB) s ∧ BatchHeld .XB d k P rows s := by
  have h := table_held (d := d) (k := k) (P := P) (rows := rows) (Or.inl rfl : Index.XB = .XB ∨ _) (b := true) (s := s0) rfl
  obtain ⟨b, hb⟩ := h.cp (by simp) (by simp)
  refine ⟨_, ⟨_, XB.paramBatch_eq G s0, get_bind ((congrFun (if_pos (by exact hk)) _).trans
    (lift_bind (congrArg attr hb) (modify_bind (lift_bind (a := Batch.distances d k P .XB) ?_
      (lift_bind (amin_eq (Batch.distances_ne_nil hk)) rfl))))), ?_⟩, ?_⟩
  · have : (natMat k (Batch.table d P .XB)).rows.length = k := by simp [natMat]
    simp only [this]
    exact natMat_triu _
  · rfl
  · exact ⟨h.toBatchNV.congr rfl rfl rfl rfl rfl rfl, h.cp, h.mu, fun h => by simp at h, h.table, h.spreads, h.sil, h.pages⟩

/-! ## GD43 and GD53 -/

theorem GD43.batchDist_eq {s : Core F} (h : BatchNV d k P rows s) {i j : ℕ} (hi : i < k) (hj : j < k) :
    GD43.batchDist s i j = .ok (between .GD43 (Stat.batch d (P i)) (Stat.batch d (P j))) := by
  rw [GD43.batchDist, h.v, row_range hi, except_bind_ok, row_range hj, except_bind_ok,
    sqDist_eq (colMeans_length _) (colMeans_length _)]
  rfl

theorem GD43.paramBatch_eq (G : Given d k P rows labels) (s : Core F) :
    GD43.paramBatch ⟨d, rows⟩ labels s = .ok () { stage d false k P k (base d k rows { s with
      G := some (Arr2.zeros k d) }) with D := natMat k (Batch.table d P .GD43) } := by
  refine modify_bind (modify_bind ?_)
  rw [G.size]
  refine bind_ok_of ((congrArg _ ?_).trans (forEach_range
    (fun i => stage d false k P i (base d k rows { s with G := some (Arr2.zeros k d), D := Arr2.zeros k k })) fun i hi => ?_)) ?_
  · simp only [stage, stageNV, fill_zero]; rfl
  · exact lift_bind (G.take i) (stage_last hi (G.own i))
  · exact get_bind (lift_bind (upperTri_natMat fun i j hij hj =>
      GD43.batchDist_eq (stage_nv _) (hij.trans hj) hj) (lift_bind (add_transpose _) rfl))

theorem GD53.batchDist_eq {s : Core F} (h : BatchNV d k P rows s) (hc : BatchCP d k P s) {i j : ℕ} (hi : i < k) (hj : j < k) :
    GD53.batchDist s i j = .ok (between .GD53 (Stat.batch d (P i)) (Stat.batch d (P j))) := by
  obtain ⟨b, hc⟩ := hc
  have hn : ∀ i, i < k → s.n.get i = .ok (P i).length := by
    intro i hi
    rw [Seq.get, h.n]
    simp [hi]
  rw [GD53.batchDist, hc, attr, except_bind_ok, get_range hi, except_bind_ok, get_range hj, except_bind_ok,
    hn i hi, except_bind_ok, hn j hj, except_bind_ok]
  rfl

theorem GD53.paramBatch_eq (G : Given d k P rows labels) (s : Core F) :
    GD53.paramBatch ⟨d, rows⟩ labels s = .ok () { stage d false k P k (base d k rows { s with
      G := some (Arr2.zeros k d) }) with D := natMat k (Batch.table d P .GD53) } := by
  refine modify_bind (modify_bind ?_)
  rw [G.size]
  refine bind_ok_of ((congrArg _ ?_).trans (forEach_range
    (fun i => stage d false k P i (base d k rows { s with G := some (Arr2.zeros k d), D := Arr2.zeros k k })) fun i hi => ?_)) ?_
  · simp only [stage, stageNV, fill_zero]; rfl
  · exact lift_bind (G.take i) (stage_last hi (G.own i))
  · exact get_bind (lift_bind (upperTri_natMat fun i j hij hj =>
      GD53.batchDist_eq (stage_nv _) (stage_cp _) (hij.trans hj) hj) (lift_bind (add_transpose _) rfl))

theorem map_range_ne_nil {α : Type} (hk : 1 < k) (f : ℕ → α) : (List.range k).map f ≠ [] := by
  intro e
  have := congrArg List.length e
  simp at this
  omega

theorem maxScatter_range (hk : 1 < k) {n : List ℕ} (hn : n = (List.range k).map fun i => (P i).length) :
    GD43.maxScatter ((List.range k).map fun i => (Stat.batch d (P i)).cp) n = .ok (high ((List.range k).map (Batch.spread d P))) := by
  subst hn
  rw [GD43.maxScatter, Vec.bin, if_pos (by simp), except_bind_ok, List.map_map, List.zipWith_map, List.zipWith_self]
  exact amax_eq (map_range_ne_nil hk _)

theorem minUpper_range {I : Index} (hk : 1 < k) :
    GD43.minUpper k (natMat k (Batch.table d P I)) = .ok (low (Batch.distances d k P I)) := by
  rw [GD43.minUpper, if_pos ⟨by simp [natMat], rfl⟩, natMat_triu, except_bind_ok]
  exact amin_eq (Batch.distances_ne_nil hk)

theorem GD43.batch (G : Given d k P rows labels) (hk : 1 < k) (s0 : Core F) :
    ∃ s, Batched GD43mod ⟨d, rows⟩ labels s0 (Batch.value d k P rows .GD43) s ∧ BatchHeld .GD43 d k P rows s := by
  have h := table_held (d := d) (k := k) (P := P) (rows := rows) (Or.inr (Or.inl rfl) : Index.GD43 = .XB ∨ _) (b := false)
    (s := { s0 with G := some (Arr2.zeros k d) }) rfl
  obtain ⟨b, hb⟩ := h.cp (by simp) (by simp)
  refine ⟨_, ⟨_, GD43.paramBatch_eq G s0, get_bind ((congrFun (if_pos (by exact hk)) _).trans
    (lift_bind (congrArg attr hb) (lift_bind (maxScatter_range hk h.n) (modify_bind
      (lift_bind (minUpper_range hk) rfl))))), rfl⟩, ?_⟩
  exact ⟨h.toBatchNV.congr rfl rfl rfl rfl rfl rfl, h.cp, h.mu, h.sep, h.table, h.spreads, h.sil, h.pages⟩

theorem GD53.batch (G : Given d k P rows labels) (hk : 1 < k) (s0 : Core F) :
    ∃ s, Batched GD53mod ⟨d, rows⟩ labels s0 (Batch.value d k P rows .GD53) s ∧ BatchHeld .GD53 d k P rows s := by
  have h := table_held (d := d) (k := k) (P := P) (rows := rows) (Or.inr (Or.inr rfl) : Index.GD53 = .XB ∨ _) (b := false)
    (s := { s0 with G := some (Arr2.zeros k d) }) rfl
  obtain ⟨b, hb⟩ := h.cp (by simp) (by simp)
  refine ⟨_, ⟨_, GD53.paramBatch_eq G s0, get_bind ((congrFun (if_pos (by exact hk)) _).trans
    (lift_bind (congrArg attr hb) (lift_bind (maxScatter_range hk h.n) (modify_bind
      (lift_bind (minUpper_range hk) rfl))))), rfl⟩, ?_⟩
  exact ⟨h.toBatchNV.congr rfl rfl rfl rfl rfl rfl, h.cp, h.mu, h.sep, h.table, h.spreads, h.sil, h.pages⟩

/-! ## DB -/

omit [Arith F] in
theorem DB.setS_fill {s : Core F} {b : Bool} {i : ℕ} {f : ℕ → F} {x z : F} (hi : i < k)
    (h : s.Sv = ⟨b, fill k i f z⟩) (hx : x = f i) :
    Verif.DB.setS i x s = .ok () { s with Sv := ⟨b, fill k (i + 1) f z⟩ } := by
  subst hx
  simp [Verif.DB.setS, h, Seq.set, hi, fill_set]

theorem DB.batchDist_eq {s : Core F} (h : BatchNV d k P rows s) {i j : ℕ} (hi : i < k) (hj : j < k) :
    DB.batchDist s i j = .ok (between .DB (Stat.batch d (P i)) (Stat.batch d (P j))) := by
  rw [DB.batchDist, h.v, row_range hi, except_bind_ok, row_range hj, except_bind_ok,
    sqDist_eq (colMeans_length _) (colMeans_length _)]
  rfl

/-- The tables of DB with the first `i` clusters filled. -/
def stageDB (d k : ℕ) (P : ℕ → List (List F)) (rows : List (List F)) (i : ℕ) (s : Core F) : Core F :=
  { stage d false k P i (base d k rows s) with Sv := ⟨false, fill k i (Batch.spread d P) 0⟩ }

theorem stageDB_nv (s : Core F) : BatchNV d k P rows (stageDB d k P rows k s) :=
  (stage_nv (b := false) s).congr rfl rfl rfl rfl rfl rfl

theorem DB.paramBatch_eq (G : Given d k P rows labels) (s : Core F) :
    DB.paramBatch ⟨d, rows⟩ labels s = .ok () { stageDB d k P rows k { s with
      G := some (Arr2.zeros k d) } with D := natMat k (Batch.table d P .DB) } := by
  refine modify_bind (modify_bind ?_)
  rw [G.size]
  refine bind_ok_of ((congrArg _ ?_).trans (forEach_range
    (fun i => stageDB d k P rows i { s with G := some (Arr2.zeros k d), D := Arr2.zeros k k }) fun i hi => ?_)) ?_
  · simp only [stageDB, stage, stageNV, fill_zero]; rfl
  · refine lift_bind (G.take i) ?_
    refine bind_ok_of (setN_fill (f := fun i => (P i).length) hi rfl rfl) ?_
    refine bind_ok_of (setV_fill (d := d) hi (f := fun i => colMeans d (P i)) rfl rfl (colMeans_length _)) ?_
    refine lift_bind (batchScatter_eq (G.own i)) ?_
    refine bind_ok_of (setCP_fill (f := fun i => (Stat.batch d (P i)).cp) hi rfl rfl) ?_
    exact DB.setS_fill (f := Batch.spread d P) hi rfl rfl
  · exact get_bind (lift_bind (upperTri_natMat fun i j hij hj => DB.batchDist_eq (rows := rows)
      (s := stageDB d k P rows k { s with G := some (Arr2.zeros k d), D := Arr2.zeros k k })
      (stageDB_nv _) (hij.trans hj) hj) (lift_bind (add_transpose _) rfl))

theorem DB.held (s : Core F) :
    BatchHeld .DB d k P rows { stageDB d k P rows k s with D := natMat k (Batch.table d P .DB) } where
  toBatchNV := (stage_nv s).congr rfl rfl rfl rfl rfl rfl
  cp _ _ := stage_cp (b := false) (base d k rows s)
  mu _ _ := rfl
  sep h := by simp at h
  table _ := rfl
  spreads _ := fill_full k _ _
  sil h := by simp at h
  pages h := by simp at h

theorem DB.ratios_range {s : Core F} (h : BatchHeld .DB d k P rows s) :
    DB.ratios s = .ok (natMat k fun i j => Batch.both (Batch.quotient d P) j i) := by
  have hr : ∀ i j, i < j → j < k → DB.ratio s i j = .ok (Batch.quotient d P i j) := by
    intro i j hij hj
    have hS : ∀ i, i < k → s.Sv.get i = .ok (Batch.spread d P i) := by
      intro i hi
      rw [Seq.get, h.spreads rfl]
      simp [hi]
    rw [DB.ratio, hS i (hij.trans hj), except_bind_ok, hS j hj, except_bind_ok, h.table (by simp),
      natMat_get hj (hij.trans hj)]
    rfl
  rw [DB.ratios, h.clusters, upperTri_natMat hr, except_bind_ok, natMat_transpose, natMat_transpose, Arr2.add, natMat_bin]
  rfl

theorem DB.batch (G : Given d k P rows labels) (hk : 1 < k) (s0 : Core F) :
    ∃ s, Batched DBmod ⟨d, rows⟩ labels s0 (Batch.value d k P rows .DB) s ∧ BatchHeld .DB d k P rows s := by
  have h := DB.held (d := d) (k := k) (P := P) (rows := rows) { s0 with G := some (Arr2.zeros k d) }
  refine ⟨_, ⟨_, DB.paramBatch_eq G s0, get_bind ((congrFun (if_pos (by exact hk)) _).trans
    (lift_bind (DB.ratios_range h) (modify_bind (lift_bind
      (a := (List.range k).map fun j => high ((List.range k).map fun i => Batch.both (Batch.quotient d P) j i)) ?_ rfl)))), rfl⟩, ?_⟩
  · apply mapE_ok
    intro j hj
    rw [natMat_col (k := k) (List.mem_range.mp hj), except_bind_ok]
    exact amax_eq (map_range_ne_nil hk _)
  · exact ⟨h.toBatchNV.congr rfl rfl rfl rfl rfl rfl, h.cp, h.mu, h.sep, h.table, h.spreads, h.sil, h.pages⟩

end Verif.Gen
