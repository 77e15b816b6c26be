import Verif.Proofs.WrongLength
import Verif.Proofs.Similar

/-!
# Single samples after a batch

For DB, GD43, GD53, PS and rCIP the batch leaves exactly the attributes that incremental mode needs (`batch_rep`), with an empty
label map.  CH, WB, XB and cSIL lack the rows of `_G` (`incBody_noG`).
-/

namespace Verif
open Spec Py

variable {d : ℕ}

/-! ## An arrival order that numbers the clusters like the batch -/

theorem keys_sorted {T : Stream d} (h : T.Pairwise fun p q => p.2 ≤ q.2) : (keys T).Pairwise (· ≤ ·) := by
  induction T using List.reverseRecOn with
  | nil => exact List.Pairwise.nil
  | append_singleton T p ih =>
    obtain ⟨h1, -, h2⟩ := List.pairwise_append.mp h
    rw [show keys (T ++ [p]) = _ from keys_append T p.1 p.2, addKey]
    split
    · exact ih h1
    · refine List.pairwise_append.mpr ⟨ih h1, List.pairwise_singleton _ _, ?_⟩
      intro a ha b hb
      rw [List.mem_singleton.mp hb]
      have := mem_keys.mp ha
      simp only [labels, List.mem_toFinset, List.mem_map] at this
      obtain ⟨q, hq, rfl⟩ := this
      exact h2 q hq p (by simp)

theorem exists_sorted {S : Stream d} (h : Consecutive S) : ∃ T, S.Perm T ∧ keys T = rangeKeys (numClusters S) := by
  obtain ⟨T, hT⟩ : ∃ T, T = S.insertionSort fun p q => p.2 ≤ q.2 := ⟨_, rfl⟩
  have hp : S.Perm T := hT ▸ (List.perm_insertionSort _ S).symm
  have : Std.Total fun p q : Pt d × ℤ => p.2 ≤ q.2 := ⟨fun p q => le_total p.2 q.2⟩
  have : IsTrans (Pt d × ℤ) fun p q => p.2 ≤ q.2 := ⟨fun p q r => le_trans⟩
  have hs : T.Pairwise fun p q => p.2 ≤ q.2 := hT ▸ List.pairwise_insertionSort _ S
  refine ⟨T, hp, ?_⟩
  refine List.Perm.eq_of_pairwise (le := (· ≤ ·)) (fun a b _ _ => le_antisymm) (keys_sorted hs) ?_ ?_
  · rw [rangeKeys, List.pairwise_map]
    exact List.pairwise_lt_range.imp fun h => by omega
  · rw [List.perm_ext_iff_of_nodup (keys_nodup T) (rangeKeys_nodup _)]
    intro c
    rw [mem_keys, labels_perm hp, mem_rangeKeys, h c]

/-! ## The attributes after a batch -/

theorem sep_perm {S T : Stream d} (h : S.Perm T) (a b : ℤ) : sep T a b = sep S a b := by
  rw [sep, centroid_perm h, centroid_perm h]; rfl

theorem scatter_perm {S T : Stream d} (h : S.Perm T) (c : ℤ) : scatter T c = scatter S c := by
  rw [scatter, centroid_perm h, scatter, ((cluster_perm h c).map _).sum_eq]

theorem RepNV.perm {S T : Stream d} (h : S.Perm T) {b : Bool} {ks : List ℤ} {s : Core} (nv : RepNV b ks S s) : RepNV b ks T s := by
  refine ⟨nv.dim, nv.k, ?_, ?_⟩
  · rw [nv.n, show size T = size S from funext (size_perm h)]
  · rw [nv.v]; simp only [centroid_perm h]

theorem RepCP.perm {S T : Stream d} (h : S.Perm T) {b : Bool} {ks : List ℤ} {s : Core} (cp : RepCP b ks S s) : RepCP b ks T s := by
  rw [RepCP] at *; simp only [cp, scatter_perm h]

theorem repG_zeros {k : ℕ} {s : Core} (h : s.G = some (Arr2.zeros k d)) : RepG d (rangeKeys k) s := by
  rw [RepG, h, zeros_rows, List.map_const', rangeKeys_length, zeros_eq_enc]

/-- What `batch_rep` says of a class. -/
def BatchRep (M : Module) (R : Stream d → Core → Prop) (V : Stream d → XR) : Prop :=
  ∀ S : Stream d, Consecutive S → 1 < numClusters S →
    ∃ o, getCvi M (.d2 (encRows (S.map Prod.fst))) (.arr (S.map Prod.snd)) M.fresh = .ok (V S) o ∧ o.labelMap = [] ∧
      ∀ T, S.Perm T → keys T = rangeKeys (numClusters S) → R T o.core

theorem batchRep_of {M : Module} {R : Stream d → Core → Prop} {V : Stream d → XR} (hM : M.abstract = false)
    (hi : M.init.isSetup = false)
    (h : ∀ S : Stream d, KeysOf (rangeKeys (numClusters S)) S → S ≠ [] → ∃ s1 s2,
      M.paramBatch (encRows (S.map Prod.fst)) (S.map Prod.snd) M.init = .ok () s1 ∧ M.evaluate s1 = .ok () s2 ∧ s2.criterion = V S ∧
        ∀ T, S.Perm T → keys T = rangeKeys (numClusters S) → R T s2) : BatchRep M R V := by
  intro S hS hk
  obtain ⟨s1, s2, h1, h2, h3, h4⟩ := h S (keysOf_range hS) (nonempty_of_clusters hk)
  refine ⟨⟨[], s2⟩, ?_, rfl, h4⟩
  rw [← h3]
  exact batch_call (o := M.fresh) hM hi hk h1 h2

theorem DB.batchRep : BatchRep DBmod (DB.Rep (d := d)) Spec.DB := by
  refine batchRep_of rfl rfl fun S hr hS => ?_
  have hp := DB.paramBatch_eq S [] DBmod.init
  rw [List.append_nil] at hp
  have hSv : (DB.batched0 S [] DBmod.init).Sv = ⟨false, (rangeKeys (numClusters S)).map fun c => XR.fin (meanScatter S c)⟩ := by
    simp only [DB.batched0, DB.stageS, stage, stageNV, mix_full]
    congr 1
    exact List.map_congr_left fun c hc => DB.meanX_of_mem ((hr.mem c).mp hc)
  obtain ⟨w, he⟩ := DB.evaluate_rep (b := false) (s := { DB.batched0 S [] DBmod.init with
      D := sqMat (rangeKeys (numClusters S)) fun a b => if a = b then 0 else XB.distX S a b }) hr
    (by simp [DB.batched0, DB.stageS, stage, stageNV, batchBase])
    (by
      intro a ha b hb e
      simp only [sqMat_get ha hb, if_neg e, XB.distX_of_mem ((hr.mem a).mp ha) ((hr.mem b).mp hb)])
    hSv
  refine ⟨_, _, hp, he, rfl, fun T hT hk => ?_⟩
  have nv : RepNV false (rangeKeys (numClusters S)) S (DB.batched0 S [] DBmod.init) := stage_nv hr rfl rfl
  have nv' := nv.perm hT
  have cp : RepCP false (rangeKeys (numClusters S)) S (DB.batched0 S [] DBmod.init) := stage_cp
  have cp' := RepCP.perm hT cp
  rw [← hk] at nv' cp'
  refine ⟨⟨⟨nv'.dim, nv'.k, nv'.n, nv'.v⟩, cp', ?_, ?_, ?_, rfl⟩, ?_, ?_⟩
  · rw [hk]; exact repG_zeros rfl
  · exact hT.length_eq
  · rw [mean_perm hT]
    exact (by simpa using mean0_all hS : (encRows (S.map Prod.fst ++ [])).mean0 = _)
  · rw [hk]
    refine sqMat_congr fun a ha b hb => ?_
    rw [sep_perm hT]
    split
    · rename_i e; subst e; simp [sep, dist2_self, XR.zero_def]
    · rw [XB.distX_of_mem ((hr.mem a).mp ha) ((hr.mem b).mp hb)]
  · rw [hk]
    refine Eq.trans hSv ?_
    simp only [meanScatter, scatter_perm hT, size_perm hT]

/-- The statistics common to GD43 and GD53. -/
theorem GD43.repMu {S T : Stream d} (hr : KeysOf (rangeKeys (numClusters S)) S) (hS : S ≠ []) (hT : S.Perm T)
    (hk : keys T = rangeKeys (numClusters S)) (D : Arr2) (w g v : XR) :
    RepMu T { GD43.batched0 S [] Core.init with D := D, intra := w, inter := g, criterion := v } := by
  have nv : RepNV false (rangeKeys (numClusters S)) S (GD43.batched0 S [] Core.init) := stage_nv hr rfl rfl
  have nv' := nv.perm hT
  have cp : RepCP false (rangeKeys (numClusters S)) S (GD43.batched0 S [] Core.init) := stage_cp
  have cp' := RepCP.perm hT cp
  rw [← hk] at nv' cp'
  refine ⟨⟨nv'.dim, nv'.k, nv'.n, nv'.v⟩, cp', ?_, ?_, ?_, rfl⟩
  · rw [hk]; exact repG_zeros rfl
  · exact hT.length_eq
  · rw [mean_perm hT]
    exact (by simpa using mean0_all hS : (encRows (S.map Prod.fst ++ [])).mean0 = _)

theorem GD43.batchRep : BatchRep GD43mod (GD43.Rep (d := d)) Spec.GD43 := by
  refine batchRep_of rfl rfl fun S hr hS => ?_
  have hp := GD43.paramBatch_eq S [] GD43mod.init
  rw [List.append_nil] at hp
  have nv : RepNV false (rangeKeys (numClusters S)) S (GD43.batched0 S [] GD43mod.init) := stage_nv hr rfl rfl
  obtain ⟨w, g, he⟩ := GD43.evaluate_rep (s := { GD43.batched0 S [] GD43mod.init with
      D := sqMat (rangeKeys (numClusters S)) fun a b => if a = b then 0 else GD43.distX S a b }) hr
    ⟨nv.dim, nv.k, nv.n, nv.v⟩ (stage_cp (s := GD43mod.init))
    ((upper_sqMat _ _).congr hr.nodup fun a ha b hb e => by
      rw [if_neg e, GD43.distX_of_mem ((hr.mem a).mp ha) ((hr.mem b).mp hb)])
  refine ⟨_, _, hp, he, rfl, fun T hT hk => ⟨GD43.repMu hr hS hT hk _ _ _ _, ?_⟩⟩
  rw [hk]
  refine sqMat_congr fun a ha b hb => ?_
  rw [sep_perm hT]
  split
  · rename_i e; subst e; simp [sep, dist2_self, XR.zero_def]
  · rw [GD43.distX_of_mem ((hr.mem a).mp ha) ((hr.mem b).mp hb)]

theorem GD53.batchRep : BatchRep GD53mod (GD53.Rep (d := d)) Spec.GD53 := by
  refine batchRep_of rfl rfl fun S hr hS => ?_
  have hp := GD53.paramBatch_eq S [] GD53mod.init
  rw [List.append_nil] at hp
  have nv : RepNV false (rangeKeys (numClusters S)) S (GD43.batched0 S [] GD53mod.init) := stage_nv hr rfl rfl
  obtain ⟨w, g, he⟩ := GD53.evaluate_rep (s := { GD43.batched0 S [] GD53mod.init with
      D := sqMat (rangeKeys (numClusters S)) fun a b => if a = b then 0 else GD53.distX S a b }) hr
    ⟨nv.dim, nv.k, nv.n, nv.v⟩ (stage_cp (s := GD53mod.init))
    ((upper_sqMat _ _).congr hr.nodup fun a ha b hb e => by
      rw [if_neg e, GD53.distX_of_mem ((hr.mem a).mp ha)])
  refine ⟨_, _, hp, he, rfl, fun T hT hk => ⟨GD43.repMu hr hS hT hk _ _ _ _, ?_⟩⟩
  rw [hk]
  refine sqMat_congr fun a ha b hb => ?_
  rw [GD53.entry, pooled, scatter_perm hT, scatter_perm hT, size_perm hT, size_perm hT]
  split
  · rfl
  · rw [GD53.distX_of_mem ((hr.mem a).mp ha)]; rfl

theorem PS.batchRep : BatchRep PSmod (PS.Rep (d := d)) Spec.PS := by
  refine batchRep_of rfl rfl fun S hr hS => ?_
  have hp := PS.paramBatch_eq S [] PSmod.init
  rw [List.append_nil] at hp
  have nv : RepNV false (rangeKeys (numClusters S)) S (PS.batched0 S [] PSmod.init) := stageNV_nv hr rfl rfl
  obtain ⟨w, t, p, he⟩ := PS.evaluate_rep (s := { PS.batched0 S [] PSmod.init with
      D := sqMat (rangeKeys (numClusters S)) fun a b => if a = b then 0 else XB.distX S a b }) hr
    ⟨nv.dim, nv.k, nv.n, nv.v⟩ rfl
    (fun a ha b hb e => by
      rw [if_neg e, XB.distX_of_mem ((hr.mem a).mp ha) ((hr.mem b).mp hb)])
  refine ⟨_, _, hp, he, rfl, fun T hT hk => ?_⟩
  have nv' := nv.perm hT
  rw [← hk] at nv'
  refine ⟨⟨nv'.dim, nv'.k, nv'.n, nv'.v⟩, ?_, hT.length_eq, rfl⟩
  rw [hk]
  refine sqMat_congr fun a ha b hb => ?_
  rw [sep_perm hT]
  split
  · rename_i e; subst e; simp [sep, dist2_self, XR.zero_def]
  · rw [XB.distX_of_mem ((hr.mem a).mp ha) ((hr.mem b).mp hb)]

theorem RCIP.batchRep (hd : 0 < d) : BatchRep RCIPmod (RCIP.Rep (d := d)) Spec.rCIP := by
  refine batchRep_of rfl rfl fun S hr hS => ?_
  have hp := RCIP.paramBatch_eq hd S [] RCIPmod.init
  rw [List.append_nil] at hp
  have hD : (sqMat (rangeKeys (numClusters S)) fun a b => if a = b then 0 else RCIP.cipX S a b) =
      sqMat (rangeKeys (numClusters S)) (RCIP.entry S) := by
    apply sqMat_congr
    intro a ha b hb
    have hx : RCIP.cipX S a b = .fin (Spec.cip S a b) := if_pos ⟨(hr.mem a).mp ha, (hr.mem b).mp hb⟩
    rw [RCIP.entry, hx]
  rw [hD] at hp
  refine ⟨_, _, hp, RCIP.evaluate_rep hr rfl, rfl, fun T hT hk => ?_⟩
  have nv : RepNV false (rangeKeys (numClusters S)) S (RCIP.batched0 S [] RCIPmod.init) := stageNV_nv hr rfl rfl
  have nv' := nv.perm hT
  rw [← hk] at nv'
  refine ⟨⟨nv'.dim, nv'.k, nv'.n, nv'.v⟩, ⟨rfl, RCIP.normConst_eq d, rfl⟩, ?_, ?_, hT.length_eq, rfl⟩
  · rw [hk, RCIP.RepSigma]
    simp only [RCIP.batched0, RCIP.stageR, stageNV, mix_full, regCov, cov_perm hT]
  · rw [hk]
    refine sqMat_congr fun a ha b hb => ?_
    simp only [RCIP.entry, Spec.cip, regCov, cov_perm hT, centroid_perm hT]

theorem Index.batchRep {I : Index} (hI : I = .DB ∨ I = .GD43 ∨ I = .GD53 ∨ I = .PS ∨ I = .rCIP) (hd : DimOk I d) :
    BatchRep I.mod (I.Rep (d := d)) (Spec.value I) := by
  rcases hI with rfl | rfl | rfl | rfl | rfl
  · exact DB.batchRep
  · exact GD43.batchRep
  · exact GD53.batchRep
  · exact PS.batchRep
  · exact RCIP.batchRep (hd rfl)

/-! ## Continuing with single samples -/

/-- The same samples with the labels replaced by their numbers in order of first occurrence. -/
def renumber (T : Stream d) : Stream d := T.map fun p => (p.1, ((keys T).idxOf p.2 : ℤ))

theorem renumber_append (T : Stream d) (x : Pt d) (c : ℤ) :
    renumber (T ++ [(x, c)]) = renumber T ++ [(x, ((keys T).idxOf c : ℤ))] := by
  have h : ∀ a, a ∈ keys T ∨ a = c → (keys (T ++ [(x, c)])).idxOf a = (keys T).idxOf a := by
    intro a ha
    rw [keys_append, addKey]
    split
    · rfl
    · rename_i hc
      rcases ha with ha | rfl
      · exact List.idxOf_append_of_mem ha
      · rw [idxOf_append_new hc, List.idxOf_eq_length hc]
  rw [renumber, List.map_append, List.map_singleton, h c (.inr rfl), renumber]
  congr 1
  apply List.map_congr_left
  intro p hp
  rw [h p.2 (.inl (mem_keys.mpr (by simp only [labels, List.mem_toFinset]; exact List.mem_map_of_mem hp)))]

theorem rangeKeys_succ (k : ℕ) : rangeKeys (k + 1) = rangeKeys k ++ [(k : ℤ)] := by
  simp [rangeKeys, List.range_succ]

/-- One further sample keeps the numbering. -/
theorem keys_renumber {T0 : Stream d} {k : ℕ} (hT : keys T0 = rangeKeys k) (T : Stream d) :
    keys (T0 ++ renumber T) = rangeKeys (max k (keys T).length) := by
  induction T using List.reverseRecOn with
  | nil => simpa [renumber, keys, firstSeen] using hT
  | append_singleton T p ih =>
    obtain ⟨x, c⟩ := p
    rw [renumber_append, ← List.append_assoc, keys_append, ih, keys_append]
    by_cases hc : c ∈ keys T
    · have := List.idxOf_lt_length_of_mem hc
      rw [addKey_old hc, addKey_old (natCast_mem_rangeKeys (lt_max_of_lt_right this))]
    · rw [addKey_new hc, List.length_append, List.length_singleton, List.idxOf_eq_length hc]
      by_cases hk : (keys T).length < k
      · rw [addKey_old (natCast_mem_rangeKeys (lt_max_of_lt_left hk)), max_eq_left hk.le, max_eq_left hk]
      · push Not at hk
        rw [max_eq_right hk, max_eq_right (by omega), rangeKeys_succ, addKey_new]
        simp [mem_rangeKeys]

/-- Feeding single samples to an object whose attributes represent `T0` but whose label map is empty. -/
theorem feed_renumbered {M : Module} {R : Stream d → Core → Prop} {V : Stream d → XR} (h : Refines M R V) {T0 : Stream d} {k : ℕ}
    (hne : T0 ≠ []) (hT : keys T0 = rangeKeys k) (P T : Stream d) (o : Obj) (hm : o.labelMap = mapOf (keys P))
    (hR : R (T0 ++ renumber P) o.core) :
    ∃ o', feed M (encS T) o = .ok (T.inits.tail.map fun Q => V (T0 ++ renumber (P ++ Q))) o' := by
  induction T generalizing P o with
  | nil => exact ⟨o, rfl⟩
  | cons p T ih =>
    obtain ⟨x, c⟩ := p
    have hi : (keys (T0 ++ renumber P)).idxOf ((keys P).idxOf c : ℤ) = (keys P).idxOf c := by
      rw [keys_renumber hT]
      by_cases hlt : (keys P).idxOf c < max k (keys P).length
      · exact idx_range hlt
      · have hle := List.idxOf_le_length (l := keys P) (a := c)
        rw [List.idxOf_eq_length, rangeKeys_length]
        · omega
        · rw [mem_rangeKeys]; push Not; intro _; exact_mod_cast not_lt.mp hlt
    obtain ⟨s1, h1, hR1⟩ := h.step (T0 ++ renumber P) o.core x ((keys P).idxOf c : ℤ) (.inr ⟨by simp [hne], hR⟩)
    rw [hi] at h1
    obtain ⟨s2, h2, hV, hR2⟩ := h.eval _ s1 (by simp) hR1
    rw [List.append_assoc, ← renumber_append] at hV hR2
    have e : getCvi M (.d1 (enc x)) (.int c) o = .ok (V (T0 ++ renumber (P ++ [(x, c)]))) ⟨mapOf (keys (P ++ [(x, c)])), s2⟩ := by
      have : M.update (.d1 (enc x)) (.int c) o = .ok () ⟨mapOf (keys (P ++ [(x, c)])), s1⟩ := by
        simp [Module.update, Module.paramInc, h.concrete, hm, getInternalLabel_mapOf, onCore, h1, Res.mapState, keys_append]
      simp [getCvi, this, onCore, h2, Res.mapState, hV]
    obtain ⟨o2, h3⟩ := ih (P ++ [(x, c)]) ⟨mapOf (keys (P ++ [(x, c)])), s2⟩ rfl hR2
    refine ⟨o2, ?_⟩
    rw [inits_tail_cons]
    have hf : feed M (encS ((x, c) :: T)) o = (getCvi M (.d1 (enc x)) (.int c) >>= fun r => feed M (encS T) >>= fun rs =>
      pure (r :: rs)) o := rfl
    rw [hf, bind_apply, e, Res.bind_ok, bind_apply, h3, Res.bind_ok, pure_apply]
    simp [Function.comp_def]

/-! ## The classes without `_G` -/

/-- `_G` has no rows and `_n` is an array. -/
def NoG (s : Core) : Prop := (∃ g, s.G = some g ∧ g.rows = []) ∧ s.n.isArr = true

/-- The method raises on every object satisfying `P` and keeps `P`. -/
def StuckAt {σ α : Type} (P : σ → Prop) (x : Py σ α) : Prop := ∀ s, P s → ∃ e s', x s = .err e s' ∧ P s'

section
variable {σ α β : Type} {P : σ → Prop}

theorem stuck_left {x : Py σ α} {f : α → Py σ β} (h : StuckAt P x) : StuckAt P (x >>= f) := by
  intro s hs
  obtain ⟨e, s', he, hp⟩ := h s hs
  exact ⟨e, s', by rw [bind_apply, he]; rfl, hp⟩

theorem stuck_right {x : Py σ α} {f : α → Py σ β} (hx : Keeps P x) (h : ∀ a, StuckAt P (f a)) : StuckAt P (x >>= f) := by
  intro s hs
  have := hx s hs
  rw [bind_apply]
  cases hr : x s with
  | err e s' => rw [hr] at this; exact ⟨e, s', rfl, this⟩
  | ok a s' => rw [hr] at this; exact h a s' this

theorem stuck_get {f : σ → Py σ β} (h : ∀ s, P s → StuckAt P (f s)) : StuckAt P (Py.get >>= f) :=
  fun s hs => h s hs s hs

theorem stuck_lift {x : Except PyErr α} {f : α → Py σ β} (h : ∀ a, x = .ok a → StuckAt P (f a)) :
    StuckAt P (Py.lift x >>= f) := by
  intro s hs
  cases x with
  | error e => exact ⟨e, s, rfl, hs⟩
  | ok a => exact h a rfl s hs

theorem stuck_ite {c : Prop} [Decidable c] {x y : Py σ α} (hx : StuckAt P x) (hy : StuckAt P y) :
    StuckAt P (if c then x else y) := by split <;> assumption

end

theorem noG_setN (i x : ℕ) : Keeps NoG (setN i x) := by
  intro s hs
  simp only [setN, bind_apply, get_apply, Res.bind_ok, Seq.set]
  split <;> exact hs

theorem noG_setV (i : ℕ) (x : Vec) : Keeps NoG (setV i x) := by unfold setV; keeps_v
theorem noG_setCP (i : ℕ) (x : XR) : Keeps NoG (setCP i x) := by unfold setCP; keeps_v

theorem noG_setup (y : Vec) : Keeps NoG (Base.setup y) :=
  keeps_modify fun _ h => ⟨⟨_, rfl, rfl⟩, h.2⟩

theorem stuck_appendN (x : ℕ) : StuckAt NoG (appendN x) := by
  refine stuck_get fun s hs => stuck_lift fun n hn => ?_
  rw [Seq.append, if_pos hs.2] at hn
  cases hn

theorem row_nil {g : Arr2} (h : g.rows = []) (i : ℕ) : g.row i = .error .indexError := by
  simp [Arr2.row, h]

theorem oldStats_noG {s : Core} (hs : NoG s) (y : Vec) (i : ℕ) (st : OldStats) : oldStats y i s ≠ .ok st := by
  intro h
  obtain ⟨g, hg, hr⟩ := hs.1
  unfold oldStats at h
  obtain ⟨_, _, h⟩ := except_bind_inv h
  obtain ⟨_, _, h⟩ := except_bind_inv h
  obtain ⟨_, _, h⟩ := except_bind_inv h
  obtain ⟨_, _, h⟩ := except_bind_inv h
  obtain ⟨_, _, h⟩ := except_bind_inv h
  obtain ⟨_, _, h⟩ := except_bind_inv h
  obtain ⟨_, _, h⟩ := except_bind_inv h
  obtain ⟨_, h1, h⟩ := except_bind_inv h
  obtain ⟨_, h2, h⟩ := except_bind_inv h
  rw [hg] at h1
  cases h1
  rw [row_nil hr] at h2
  cases h2

theorem noG_setupOrMu {su : Vec → Py Core Unit} (hsu : ∀ y, Keeps NoG (su y)) (y : Vec) : Keeps NoG (setupOrMu su y) := by
  unfold setupOrMu
  refine keeps_bind keeps_get fun _ => keeps_ite (hsu y) ?_
  keeps_v

theorem noG_setupIfFirst {su : Vec → Py Core Unit} (hsu : ∀ y, Keeps NoG (su y)) (y : Vec) : Keeps NoG (setupIfFirst su y) := by
  unfold setupIfFirst
  exact keeps_bind keeps_get fun _ => keeps_ite (hsu y) (keeps_pure _)

theorem noG_incClusters : Keeps NoG incClusters := keeps_modify fun _ h => h

/-- The classes whose batch mode makes no `_G`. -/
def Index.Stuck (I : Index) : Prop := I = .CH ∨ I = .WB ∨ I = .XB ∨ I = .cSIL

theorem stuck_incBody {I : Index} (hI : I.Stuck) (y : Vec) (i : ℕ) : StuckAt NoG (I.mod.incBody y i) := by
  rcases hI with rfl | rfl | rfl | rfl
  · refine stuck_get fun s0 _ => stuck_right (noG_setupOrMu (fun y => ?_) y) fun _ => stuck_get fun s hs => stuck_left (stuck_ite ?_ ?_)
    · exact keeps_bind (noG_setup y) fun _ => by keeps_v
    · exact stuck_get fun s hs => stuck_right noG_incClusters fun _ => stuck_left (stuck_appendN 1)
    · exact stuck_get fun s hs => stuck_lift fun st hst => absurd hst (oldStats_noG hs y i st)
  · refine stuck_get fun s0 _ => stuck_right (noG_setupOrMu (fun y => ?_) y) fun _ => stuck_get fun s hs => stuck_left (stuck_ite ?_ ?_)
    · exact keeps_bind (noG_setup y) fun _ => by keeps_v
    · exact stuck_get fun s hs => stuck_right noG_incClusters fun _ => stuck_left (stuck_appendN 1)
    · exact stuck_get fun s hs => stuck_lift fun st hst => absurd hst (oldStats_noG hs y i st)
  · refine stuck_get fun s0 _ => stuck_right (noG_setupOrMu (fun y => ?_) y) fun _ => stuck_get fun s hs => stuck_left (stuck_ite ?_ ?_)
    · exact keeps_bind (noG_setup y) fun _ => by keeps_v
    · exact stuck_get fun s hs => stuck_right (keeps_lift _) fun _ => stuck_right noG_incClusters fun _ => stuck_left (stuck_appendN 1)
    · exact stuck_get fun s hs => stuck_lift fun st hst => absurd hst (oldStats_noG hs y i st)
  · refine stuck_get fun s0 _ => stuck_right (noG_setupIfFirst noG_setup y) fun _ => stuck_get fun s hs => stuck_left (stuck_ite ?_ ?_)
    · exact stuck_get fun s hs => stuck_right (keeps_lift _) fun _ => stuck_right (keeps_lift _) fun _ =>
        stuck_right noG_incClusters fun _ => stuck_left (stuck_appendN 1)
    · refine stuck_get fun s hs => stuck_right (keeps_lift _) fun _ => stuck_right (keeps_lift _) fun _ =>
        stuck_right (keeps_lift _) fun _ => stuck_right (keeps_lift _) fun _ => stuck_right (keeps_lift _) fun _ =>
        stuck_right (keeps_lift _) fun _ => stuck_lift fun g hg => stuck_lift fun r hr => ?_
      obtain ⟨g', hg', hn⟩ := hs.1
      rw [hg'] at hg
      cases hg
      rw [row_nil hn] at hr
      cases hr

theorem noG_incBody {I : Index} (hI : I.Stuck) (y : Vec) (i : ℕ) : Keeps NoG (I.mod.incBody y i) := by
  intro s hs
  obtain ⟨e, s', h, hs'⟩ := stuck_incBody hI y i s hs
  rw [h]; exact hs'

theorem noG_evaluate {I : Index} (hI : I.Stuck) : Keeps NoG I.mod.evaluate := by
  rcases hI with rfl | rfl | rfl | rfl
  · show Keeps NoG CH.evaluate; unfold CH.evaluate; keeps_v
  · show Keeps NoG WB.evaluate; unfold WB.evaluate; keeps_v
  · show Keeps NoG XB.evaluate; unfold XB.evaluate; keeps_v
  · show Keeps NoG CSIL.evaluate; unfold CSIL.evaluate; keeps_v

/-- Before the batch `_n` may be a list. -/
def NoRows (s : Core) : Prop := ∃ g, s.G = some g ∧ g.rows = []

theorem noG_paramBatch {I : Index} (hI : I.Stuck) (a : Arr2) (l : List ℤ) (s : Core) (hs : NoRows s) :
    NoG (I.mod.paramBatch a l s).state := by
  have key : ∀ {f g : Core → Core} {h : Unit → Py Core Unit}, (∀ s, NoRows s → NoRows (f s)) → (∀ s, NoRows s → NoG (g s)) →
      (∀ u, Keeps NoG (h u)) → NoG ((Py.modify f >>= fun _ => Py.modify g >>= h) s).state := by
    intro f g h hf hg hh
    exact hh () (g (f s)) (hg _ (hf _ hs))
  rcases hI with rfl | rfl | rfl | rfl
  · refine key (fun _ h => h) (fun _ h => ⟨h, rfl⟩) fun _ => keeps_forEach fun i => ?_
    unfold CH.batchStep
    exact keeps_bind (keeps_lift _) fun _ => keeps_bind (noG_setN _ _) fun _ => keeps_bind (noG_setV _ _) fun _ =>
      keeps_bind (keeps_lift _) fun _ => keeps_bind (noG_setCP _ _) fun _ => by keeps_v
  · refine key (fun _ h => h) (fun _ h => ⟨h, rfl⟩) fun _ => keeps_forEach fun i => ?_
    exact keeps_bind (keeps_lift _) fun _ => keeps_bind (noG_setN _ _) fun _ => keeps_bind (noG_setV _ _) fun _ =>
      keeps_bind (keeps_lift _) fun _ => keeps_bind (noG_setCP _ _) fun _ => by keeps_v
  · refine key (fun _ h => h) (fun _ h => ⟨h, rfl⟩) fun _ => keeps_bind (keeps_forEach fun i => ?_) fun _ => by keeps_v
    unfold XB.batchStep
    exact keeps_bind (keeps_lift _) fun _ => keeps_bind (noG_setN _ _) fun _ => keeps_bind (noG_setV _ _) fun _ =>
      keeps_bind (keeps_lift _) fun _ => noG_setCP _ _
  · refine key (fun _ h => h) (fun _ h => ⟨h, rfl⟩) fun _ => keeps_bind (keeps_forEach fun i => ?_) fun _ => by keeps_v
    unfold CSIL.batchStep
    exact keeps_bind (keeps_lift _) fun _ => keeps_bind (noG_setN _ _) fun _ => keeps_bind (noG_setV _ _) fun _ =>
      keeps_bind (keeps_lift _) fun _ => keeps_bind (noG_setCP _ _) fun _ => by keeps_v

end Verif
