import Verif.Proofs.Run

/-!
# Batch mode with an empty cluster

The batch loops look for the labels `0 .. k-1`, where `k` is the number of distinct labels.  If one of these does not occur,
its centroid is the mean of no rows, which is NaN, and NaN reaches the value of every index.
`E` are rows beyond the last label, which no loop reads.
-/

namespace Verif
open Spec Py

variable {d : ℕ}

/-- A label `e < k` that does not occur. -/
structure Gap (S : Stream d) (e : ℤ) : Prop where
  two : 1 < numClusters S
  mem : e ∈ rangeKeys (numClusters S)
  absent : e ∉ labels S

/-- Labels that are not exactly `0 .. k-1` leave one of these out. -/
theorem exists_gap {S : Stream d} (hk : 2 ≤ numClusters S) (h : ¬ Consecutive S) : ∃ e, Gap S e := by
  by_contra hcon
  apply h
  have hsub : (rangeKeys (numClusters S)).toFinset ⊆ labels S := by
    intro e he
    by_contra hne
    exact hcon ⟨e, hk, List.mem_toFinset.1 he, hne⟩
  have hcard : (rangeKeys (numClusters S)).toFinset.card = (labels S).card := by
    rw [List.toFinset_card_of_nodup (rangeKeys_nodup _), rangeKeys_length]; rfl
  have heq := Finset.eq_of_subset_of_card_le hsub hcard.ge
  intro c
  rw [← heq, List.mem_toFinset, mem_rangeKeys]

theorem Gap.size {S : Stream d} {e : ℤ} (g : Gap S e) : Spec.size S e = 0 := by
  rw [Spec.size, cluster_eq_nil g.absent]; rfl

theorem Gap.scatter {S : Stream d} {e : ℤ} (g : Gap S e) : Spec.scatter S e = 0 := by
  rw [Spec.scatter, cluster_eq_nil g.absent]; rfl

theorem Gap.vRow {S : Stream d} {e : ℤ} (g : Gap S e) : vRow S e = List.replicate d .nan := vRow_of_notMem g.absent

theorem sqDistX_nan' {v : Vec} (hd : 0 < d) (h : v.length = d) : sqDistX v (List.replicate d .nan) = .nan := by
  rw [sqDistX_comm, sqDistX_nan hd h]

theorem Gap.dist {S : Stream d} {e : ℤ} (g : Gap S e) (hd : 0 < d) (a : ℤ) : XB.distX S a e = .nan := by
  rw [XB.distX, g.vRow, sqDistX_nan' hd (vRow_length S a)]

theorem Gap.meanX {S : Stream d} {e : ℤ} (g : Gap S e) : DB.meanX S e = .nan := by
  rw [DB.meanX, g.scatter, g.size, Nat.cast_zero, XR.fin_div, XR.idiv_zero_zero]

theorem Gap.other {S : Stream d} {e : ℤ} (g : Gap S e) : ∃ a ∈ rangeKeys (numClusters S), a ≠ e := by
  obtain ⟨a, ha, hae⟩ := exists_other (rangeKeys_nodup (numClusters S)) (by simpa using g.two) e
  exact ⟨a, ha, hae⟩

/-- The NaN distance is above the diagonal. -/
theorem Gap.upper {S : Stream d} {e : ℤ} (g : Gap S e) {f : ℤ → ℤ → XR} (hs : ∀ a b, f a b = f b a)
    (hf : ∀ a, a ≠ e → f a e = .nan) : XR.nan ∈ upperVals (rangeKeys (numClusters S)) f := by
  obtain ⟨a, ha, hae⟩ := g.other
  exact (mem_upperVals (rangeKeys_nodup _) fun a _ b _ => hs a b).2 ⟨a, ha, e, g.mem, hae, (hf a hae).symm⟩

theorem amin_ok {l : Vec} (h : l ≠ []) : ∃ x, Vec.amin l = .ok x := by
  cases l with
  | nil => exact absurd rfl h
  | cons a l => exact ⟨_, rfl⟩

theorem amax_ok {l : Vec} (h : l ≠ []) : ∃ x, Vec.amax l = .ok x := by
  cases l with
  | nil => exact absurd rfl h
  | cons a l => exact ⟨_, rfl⟩

/-! ## The classes -/

/-- Batch call whose value is NaN. -/
def NanBatch (M : Module) (S : Stream d) (E : List (Pt d)) (o : Obj) : Prop :=
  ∃ o', getCvi M (.d2 (encRows (S.map Prod.fst ++ E))) (.arr (S.map Prod.snd)) o = .ok .nan o'

theorem nanBatch {M : Module} {S : Stream d} {E : List (Pt d)} {o : Obj} {s1 : Core} (hM : M.abstract = false)
    (ho : o.core.isSetup = false) (hk : 1 < numClusters S)
    (h1 : M.paramBatch (encRows (S.map Prod.fst ++ E)) (S.map Prod.snd) o.core = .ok () s1)
    (h2 : ∃ s2, M.evaluate s1 = .ok () s2 ∧ s2.criterion = .nan) : NanBatch M S E o := by
  obtain ⟨s2, h2, h3⟩ := h2
  exact batch_value hM ho hk h1 h2 h3

theorem batch_call_err {M : Module} {data : Arr2} {S : Stream d} {o : Obj} {s1 s2 : Core} {e : PyErr}
    (hM : M.abstract = false) (ho : o.core.isSetup = false) (hk : 1 < numClusters S)
    (h1 : M.paramBatch data (S.map Prod.snd) o.core = .ok () s1) (h2 : M.evaluate s1 = .err e s2) :
    ∃ o', getCvi M (.d2 data) (.arr (S.map Prod.snd)) o = .err e o' := by
  have hu : ((S.map Prod.snd).dedup).length > 1 := by
    have := uniqueSize_eq S
    rw [uniqueSize] at this
    omega
  refine ⟨{ o with core := s2 }, ?_⟩
  simp [getCvi, Module.update, ho, hM, LabelArg.numUnique, LabelArg.toList, hu, onCore, h1, h2, Res.mapState]

section
variable {S : Stream d} {E : List (Pt d)} {e : ℤ} {o : Obj}

theorem CH.sep_nan (g : Gap S e) (hd : 0 < d) {s : Core} : (CH.batched S E s).SEP.sum = .nan := by
  apply XR.sum_eq_nan
  rw [CH.batched]
  simp only [stageSep, stage, stageNV, mix_full]
  refine List.mem_map.2 ⟨e, g.mem, ?_⟩
  show sepX S (encRows (S.map Prod.fst ++ E)).mean0 e = _
  rw [sepX, g.vRow, sqDistX_nan hd (mean0_length (S.map Prod.fst ++ E)), XR.mul_nan]

theorem CH.batch_nan (g : Gap S e) (hd : 0 < d) (ho : o.core.isSetup = false) : NanBatch CHmod S E o := by
  refine nanBatch rfl ho g.two (paramBatch_eq S E o.core) ⟨?_, ?_, ?_⟩
  rotate_left
  show CH.evaluate _ = _
  rw [evaluate]
  refine get_bind ?_
  rw [if_pos (show (batched S E o.core).nClusters > 1 from g.two)]
  refine lift_bind rfl ?_
  rw [modify_apply, CH.sep_nan g hd, XR.nan_div, XR.nan_mul]
  rfl

theorem WB.batch_nan (g : Gap S e) (hd : 0 < d) (ho : o.core.isSetup = false) : NanBatch WBmod S E o := by
  refine nanBatch rfl ho g.two (paramBatch_eq S E o.core) ⟨?_, ?_, ?_⟩
  rotate_left
  show WB.evaluate _ = _
  rw [evaluate]
  refine get_bind ?_
  rw [if_pos (show (CH.batched S E o.core).nClusters > 1 from g.two)]
  refine lift_bind rfl ?_
  rw [modify_apply, CH.sep_nan g hd, XR.div_nan, XR.nan_mul]
  rfl

theorem XB.batch_nan (g : Gap S e) (hd : 0 < d) (ho : o.core.isSetup = false) : NanBatch XBmod S E o := by
  obtain ⟨U, hU, hp⟩ := paramBatch_eq S E o.core
  refine nanBatch rfl ho g.two hp ⟨?_, ?_, ?_⟩
  rotate_left
  show XB.evaluate _ = _
  rw [evaluate]
  refine get_bind ?_
  rw [if_pos (show (batched0 S E o.core).nClusters > 1 from g.two)]
  refine lift_bind rfl (modify_bind (lift_bind (a := upperVals (rangeKeys (numClusters S)) (distX S)) ?_
    (lift_bind (a := .nan) (amin_nan (g.upper (distX_comm S) fun a _ => g.dist hd a)) ?_)))
  · show U.triu U.rows.length = _
    rw [hU.1, triu_upper hU]
  · rw [modify_apply, XR.mul_nan, XR.div_nan]
  rfl

theorem maxScatter_nan (g : Gap S e) :
    GD43.maxScatter ((rangeKeys (numClusters S)).map fun c => XR.fin (Spec.scatter S c))
      ((rangeKeys (numClusters S)).map (Spec.size S)) = .ok .nan := by
  rw [GD43.maxScatter, Vec.bin, if_pos (by simp), except_bind_ok]
  apply amax_nan
  rw [List.map_map, List.zipWith_map, List.zipWith_self]
  refine List.mem_map.2 ⟨e, g.mem, ?_⟩
  exact g.meanX

theorem GD43.batch_nan (g : Gap S e) (hd : 0 < d) (ho : o.core.isSetup = false) : NanBatch GD43mod S E o := by
  refine nanBatch rfl ho g.two (paramBatch_eq S E o.core) ⟨?_, ?_, ?_⟩
  rotate_left
  show GD43.evaluate _ = _
  rw [evaluate]
  refine get_bind ?_
  rw [if_pos (show (batched0 S E o.core).nClusters > 1 from g.two)]
  have hup := upper_sqMat (rangeKeys (numClusters S)) fun a b => if a = b then 0 else distX S a b
  refine lift_bind (a := ⟨false, (rangeKeys (numClusters S)).map fun c => XR.fin (Spec.scatter S c)⟩) ?_
    (lift_bind (a := .nan) ?_ (modify_bind (lift_bind (a := .nan) ?_ ?_)))
  · simp only [batched0, stage, mix_full]; rfl
  · have : (batched0 S E o.core).n.items = (rangeKeys (numClusters S)).map (Spec.size S) := by
      simp only [batched0, stage, stageNV, mix_full]
    simp only [this]
    exact maxScatter_nan g
  · show minUpper (numClusters S) _ = _
    rw [minUpper, if_pos ⟨by simp, by simp⟩]
    have ht := triu_upper hup
    rw [rangeKeys_length] at ht
    refine CSIL.except_bind_of ht (amin_nan (g.upper ?_ ?_))
    · intro a b; simp only [eq_comm (a := a), distX_comm S a]
    · intro a ha; rw [if_neg ha, distX, g.dist hd, XR.sqrt_nan]
  · rw [modify_apply, XR.nan_div]
  rfl

theorem GD53.batch_nan (g : Gap S e) (ho : o.core.isSetup = false) : NanBatch GD53mod S E o := by
  have hup := upper_sqMat (rangeKeys (numClusters S)) fun a b => if a = b then 0 else distX S a b
  have hne : upperVals (rangeKeys (numClusters S)) (fun a b => if a = b then 0 else distX S a b) ≠ [] := by
    obtain ⟨a, ha, hae⟩ := g.other
    refine List.ne_nil_of_mem ((mem_upperVals (rangeKeys_nodup _) ?_).2 ⟨a, ha, e, g.mem, hae, rfl⟩)
    intro a _ b _; simp only [eq_comm (a := a), distX_comm S a]
  obtain ⟨m, hm⟩ := amin_ok hne
  refine nanBatch rfl ho g.two (paramBatch_eq S E o.core) ⟨?_, ?_, ?_⟩
  rotate_left
  show GD53.evaluate _ = _
  rw [evaluate]
  refine get_bind ?_
  rw [if_pos (show (GD43.batched0 S E o.core).nClusters > 1 from g.two)]
  refine lift_bind (a := ⟨false, (rangeKeys (numClusters S)).map fun c => XR.fin (Spec.scatter S c)⟩) ?_
    (lift_bind (a := .nan) ?_ (modify_bind (lift_bind (a := m) ?_ ?_)))
  · simp only [GD43.batched0, stage, mix_full]; rfl
  · have : (GD43.batched0 S E o.core).n.items = (rangeKeys (numClusters S)).map (Spec.size S) := by
      simp only [GD43.batched0, stage, stageNV, mix_full]
    simp only [this]
    exact maxScatter_nan g
  · show GD43.minUpper (numClusters S) _ = _
    rw [GD43.minUpper, if_pos ⟨by simp, by simp⟩]
    have ht := triu_upper hup
    rw [rangeKeys_length] at ht
    exact CSIL.except_bind_of ht hm
  · rw [modify_apply, XR.mul_nan, XR.div_nan]
  rfl

theorem DB.batch_nan (g : Gap S e) (ho : o.core.isSetup = false) : NanBatch DBmod S E o := by
  set s := { batched0 S E o.core with
    D := sqMat (rangeKeys (numClusters S)) fun a b => if a = b then 0 else XB.distX S a b } with hs
  set q : ℤ → ℤ → XR := fun a b => (meanX S a + meanX S b) / (if b = a then 0 else XB.distX S b a) with hq
  have hSv : s.Sv = ⟨false, (rangeKeys (numClusters S)).map (meanX S)⟩ := by
    simp only [hs, batched0, stageS, stage, stageNV, mix_full]
  obtain ⟨U, h1, _, _, h4⟩ := symmetrise (rangeKeys_nodup (numClusters S)) (f := ratio s) (g := q)
    (by
      intro a ha b hb
      rw [ratio, hSv, get_rep ha, except_bind_ok, get_rep hb, except_bind_ok, hs]
      simp only []
      rw [sqMat_get hb ha]
      rfl)
    (by
      intro a _ b _
      simp only [hq]
      rw [add_comm, XB.distX_comm S b a]
      simp only [eq_comm])
  have hcol : ∀ c, ∃ x, Vec.amax ((rangeKeys (numClusters S)).map fun a => if a = c then 0 else q a c) = .ok x := by
    intro c
    exact amax_ok (by simpa using List.ne_nil_of_mem g.mem)
  choose m hm using hcol
  have hme : m e = .nan := by
    have : Vec.amax ((rangeKeys (numClusters S)).map fun a => if a = e then 0 else q a e) = .ok .nan := by
      apply amax_nan
      obtain ⟨a, ha, hae⟩ := g.other
      refine List.mem_map.2 ⟨a, ha, ?_⟩
      rw [if_neg hae]
      simp only [hq]
      rw [g.meanX, XR.add_nan, XR.nan_div]
    rw [hm] at this
    exact Except.ok.inj this
  refine nanBatch rfl ho g.two (paramBatch_eq S E o.core) ⟨?_, ?_, ?_⟩
  rotate_left
  show DB.evaluate s = _
  rw [evaluate]
  refine get_bind ?_
  rw [if_pos (show s.nClusters > 1 from g.two)]
  refine lift_bind (a := sqMat (rangeKeys (numClusters S)) fun a b => if a = b then 0 else q a b) ?_
    (modify_bind (lift_bind (a := (rangeKeys (numClusters S)).map m) ?_ ?_))
  · rw [ratios]
    rw [rangeKeys_length] at h1
    exact CSIL.except_bind_of h1 h4
  · rw [sqMat_cols]
    apply mapE_range_keys (rangeKeys_nodup _)
    intro c hc
    rw [sqMat_col hc, except_bind_ok, hm]
  · rw [modify_apply, XR.sum_eq_nan (List.mem_map.2 ⟨e, g.mem, hme⟩), XR.nan_div]
  rfl

theorem RCIP.batch_nan (g : Gap S e) (hd : 0 < d) (ho : o.core.isSetup = false) : NanBatch RCIPmod S E o := by
  refine nanBatch rfl ho g.two (paramBatch_eq hd S E o.core) ⟨?_, ?_, ?_⟩
  rotate_left
  show RCIP.evaluate _ = _
  rw [evaluate]
  refine get_bind ?_
  have hup := upper_sqMat (rangeKeys (numClusters S)) fun a b => if a = b then 0 else cipX S a b
  simp only [sqMat_rows_length, rangeKeys_length]
  rw [if_pos (show numClusters S > 1 from g.two)]
  have ht := triu_upper hup
  rw [rangeKeys_length] at ht
  refine lift_bind ht ?_
  rw [modify_apply, XR.sum_eq_nan (g.upper ?_ ?_)]
  · intro a b; simp only [eq_comm (a := a), cipX_comm S a]
  · intro a ha
    rw [if_neg ha, cipX, if_neg fun h => g.absent h.2]
  rfl

theorem CSIL.cross_nan (g : Gap S e) (hd : 0 < d) (a : ℤ) : crossX S a e = .nan := by
  by_cases ha : a ∈ labels S
  · rw [crossX, XR.sum_eq_nan, XR.nan_div]
    obtain ⟨p, hp⟩ := List.exists_mem_of_ne_nil _ (cluster_ne_nil.2 ha)
    refine List.mem_map.2 ⟨p, hp, ?_⟩
    rw [g.vRow, sqDistX_nan' hd (by simp)]
  · rw [crossX, Spec.size, cluster_eq_nil ha]
    simp [XR.zero_def, XR.fin_div]

theorem CSIL.batch_nan (g : Gap S e) (hd : 0 < d) (ho : o.core.isSetup = false) : NanBatch CSILmod S E o := by
  have hcoef : ∀ c ∈ rangeKeys (numClusters S), ∃ x, coef (sqMat (rangeKeys (numClusters S)) (crossX S))
      ((rangeKeys (numClusters S)).idxOf c) = .ok x ∧ (c = e → x = .nan) := by
    intro c hc
    have hl := List.idxOf_lt_length_of_mem hc
    have hne : ((rangeKeys (numClusters S)).map fun a => crossX S a c).eraseIdx
        ((rangeKeys (numClusters S)).idxOf c) ≠ [] := by
      rw [← List.length_pos_iff, List.length_eraseIdx_of_lt (by simpa using hl)]
      have := g.two
      simp; omega
    obtain ⟨m, hm⟩ := amin_ok hne
    refine ⟨(m - crossX S c c) / XR.max (crossX S c c) m, ?_, ?_⟩
    · rw [coef, sqMat_get hc hc, except_bind_ok, sqMat_col hc, except_bind_ok, Vec.delete, if_pos (by simpa using hl),
        except_bind_ok, hm, except_bind_ok, except_pure]
    · rintro rfl
      rw [cross_nan g hd, XR.sub_nan, XR.nan_div]
  choose! m hm using hcoef
  refine nanBatch rfl ho g.two (paramBatch_eq S E o.core) ⟨?_, ?_, ?_⟩
  rotate_left
  show CSIL.evaluate _ = _
  rw [evaluate]
  refine modify_bind (get_bind ?_)
  rw [if_pos]
  · refine lift_bind (a := (rangeKeys (numClusters S)).map m) ?_ ?_
    · have := mapE_range_keys (rangeKeys_nodup (numClusters S)) fun c hc => (hm c hc).1
      rw [rangeKeys_length] at this
      exact this
    · rw [modify_apply, XR.sum_eq_nan (List.mem_map.2 ⟨e, g.mem, (hm e g.mem).2 rfl⟩), XR.nan_div]
  · refine ⟨g.two, ?_⟩
    show Arr2.any _ = true
    simp only [Arr2.any, sqMat, List.any_map, List.any_eq_true, Function.comp]
    exact ⟨e, g.mem, e, g.mem, by rw [cross_nan g hd]; rfl⟩
  rfl

/-! ## PS -/

theorem PS.row_delete (g : Gap S e) {c : ℤ} (hc : c ∈ rangeKeys (numClusters S)) (f : ℤ → ℤ → XR) :
    ∃ l x, Vec.delete ((rangeKeys (numClusters S)).map (f c)) ((rangeKeys (numClusters S)).idxOf c) = .ok l ∧
      Vec.amin l = .ok x := by
  have hl := List.idxOf_lt_length_of_mem hc
  have hne : ((rangeKeys (numClusters S)).map (f c)).eraseIdx ((rangeKeys (numClusters S)).idxOf c) ≠ [] := by
    rw [← List.length_pos_iff, List.length_eraseIdx_of_lt (by simpa using hl)]
    have := g.two
    simp; omega
  obtain ⟨m, hm⟩ := amin_ok hne
  exact ⟨_, m, by rw [Vec.delete, if_pos (by simpa using hl)], hm⟩

/-- The object when the loop over the clusters of `PS._evaluate` starts, and what has happened before. -/
theorem PS.evaluate_start (g : Gap S e) (hd : 0 < d) (s : Core) :
    ∃ s' m, s'.D = sqMat (rangeKeys (numClusters S)) (fun a b => if a = b then 0 else XB.distX S a b) ∧
      s'.n = ⟨false, (rangeKeys (numClusters S)).map (Spec.size S)⟩ ∧ s'.betaT = .nan ∧
      ((rangeKeys (numClusters S)).map (Spec.size S)).max? = some m ∧
      evaluate { batched0 S E s with
        D := sqMat (rangeKeys (numClusters S)) fun a b => if a = b then 0 else XB.distX S a b } =
      (do
        let ps ← lift (mapE (psTerm s' m) (List.range (numClusters S)))
        modify fun s => { s with PSi := ps, criterion := ps.sum } : Py Core Unit) s' := by
  have hne : (rangeKeys (numClusters S)).map (Spec.size S) ≠ [] := by simpa using List.ne_nil_of_mem g.mem
  obtain ⟨m, hm⟩ : ∃ m, ((rangeKeys (numClusters S)).map (Spec.size S)).max? = some m := by
    rw [← Option.isSome_iff_exists, List.isSome_max?_iff]; exact hne
  have hv : (batched0 S E s).v = ⟨d, (rangeKeys (numClusters S)).map (vRow S)⟩ := by
    simp only [batched0, stageNV, mix_full]
  have hn : (batched0 S E s).n = ⟨false, (rangeKeys (numClusters S)).map (Spec.size S)⟩ := by
    simp only [batched0, stageNV, mix_full]
  have hbar : (batched0 S E s).v.mean0 = List.replicate d .nan := by
    rw [hv, Arr2.mean0]
    simp only []
    rw [List.eq_replicate_iff]
    refine ⟨by simp, ?_⟩
    intro x hx
    obtain ⟨j, hj, rfl⟩ := List.mem_map.1 hx
    rw [XR.sum_eq_nan, XR.nan_div]
    rw [List.map_map]
    refine List.mem_map.2 ⟨e, g.mem, ?_⟩
    rw [Function.comp, g.vRow]
    simp [List.mem_range.1 hj]
  have hdev : ∀ c ∈ rangeKeys (numClusters S), devSq { batched0 S E s with
        D := sqMat (rangeKeys (numClusters S)) fun a b => if a = b then 0 else XB.distX S a b
        vBar := List.replicate d .nan } ((rangeKeys (numClusters S)).idxOf c) = .ok .nan := by
    intro c hc
    rw [devSq]
    simp only [hv]
    rw [row_rep hc, except_bind_ok]
    have hsub : Vec.sub (vRow S c) (List.replicate d .nan) = .ok (List.replicate d .nan) := by
      rw [Vec.sub, Vec.bin, if_pos (by simp [vRow_length])]
      congr 1
      rw [List.eq_replicate_iff]
      refine ⟨by simp [vRow_length], ?_⟩
      intro x hx
      rw [List.mem_iff_getElem] at hx
      obtain ⟨i, hi, rfl⟩ := hx
      simp
    rw [hsub, except_bind_ok, Vec.inner, if_pos rfl, RCIP.vec_nan hd (by simp)]
  refine ⟨{ batched0 S E s with
      D := sqMat (rangeKeys (numClusters S)) fun a b => if a = b then 0 else XB.distX S a b
      vBar := List.replicate d .nan, betaT := .nan }, m, rfl, hn, rfl, hm, ?_⟩
  rw [evaluate]
  refine get_bind ?_
  rw [if_pos (show (batched0 S E s).nClusters > 1 from g.two)]
  refine modify_bind (get_bind (lift_bind (a := (rangeKeys (numClusters S)).map fun _ => .nan) ?_ (modify_bind (get_bind
    (lift_bind (a := m) ?_ ?_)))))
  · have := mapE_range_keys (rangeKeys_nodup (numClusters S)) hdev
    rw [rangeKeys_length] at this
    simp only [hbar]
    exact this
  · simp only [hn, hm]
  · simp only [hbar]
    rw [XR.sum_eq_nan (List.mem_map.2 ⟨e, g.mem, rfl⟩), XR.nan_div]
    rfl

theorem PS.batch_nan (g : Gap S e) (hd : 0 < d) (ho : o.core.isSetup = false)
    (hx : ∃ c ∈ labels S, c ∈ rangeKeys (numClusters S)) : NanBatch PSmod S E o := by
  obtain ⟨s', m, hD, hn, hb, hm, he⟩ := evaluate_start (E := E) g hd o.core
  have hm0 : m ≠ 0 := by
    obtain ⟨c, hc, hc'⟩ := hx
    have := (List.max?_eq_some_iff.1 hm).2 _ (List.mem_map.2 ⟨c, hc', rfl⟩)
    have := size_pos hc
    omega
  refine nanBatch rfl ho g.two (paramBatch_eq S E o.core) ⟨{ s' with
    PSi := (rangeKeys (numClusters S)).map fun _ => .nan, criterion := .nan }, he.trans ?_, rfl⟩
  have hterm : ∀ c ∈ rangeKeys (numClusters S), psTerm s' m ((rangeKeys (numClusters S)).idxOf c) = .ok .nan := by
    intro c hc
    obtain ⟨l, x, hl, hx⟩ := row_delete g hc fun a b => if a = b then 0 else XB.distX S a b
    rw [psTerm, hD, sqMat_row hc, except_bind_ok, hl, except_bind_ok, hn, get_rep hc, except_bind_ok, pyDiv,
      if_neg (by exact_mod_cast hm0), except_bind_ok, hx, except_bind_ok, except_pure, hb, XR.div_nan, XR.exp_nan, XR.sub_nan]
  have := mapE_range_keys (rangeKeys_nodup (numClusters S)) hterm
  rw [rangeKeys_length] at this
  refine lift_bind this ?_
  rw [modify_apply, XR.sum_eq_nan (List.mem_map.2 ⟨e, g.mem, rfl⟩)]

/-- If no label is in `0 .. k-1` then PS divides by the largest size, which is zero. -/
theorem PS.batch_zero (g : Gap S e) (hd : 0 < d) (ho : o.core.isSetup = false)
    (hx : ¬ ∃ c ∈ labels S, c ∈ rangeKeys (numClusters S)) :
    ∃ o', getCvi PSmod (.d2 (encRows (S.map Prod.fst ++ E))) (.arr (S.map Prod.snd)) o = .err .zeroDivisionError o' := by
  obtain ⟨s', m, hD, hn, hb, hm, he⟩ := evaluate_start (E := E) g hd o.core
  have hm0 : m = 0 := by
    obtain ⟨c, hc, rfl⟩ := List.mem_map.1 (List.max?_eq_some_iff.1 hm).1
    by_contra h0
    refine hx ⟨c, ?_, hc⟩
    by_contra hc'
    apply h0
    rw [Spec.size, cluster_eq_nil hc']; rfl
  have h0 : (0 : ℤ) ∈ rangeKeys (numClusters S) := natCast_mem_rangeKeys (i := 0) (by have := g.two; omega)
  have hterm : psTerm s' m 0 = .error .zeroDivisionError := by
    obtain ⟨l, x, hl, hx⟩ := row_delete g h0 fun a b => if a = b then 0 else XB.distX S a b
    have e0 : (rangeKeys (numClusters S)).idxOf 0 = 0 := idx_range (i := 0) (by have := g.two; omega)
    have hr := sqMat_row (g := fun a b => if a = b then 0 else XB.distX S a b) h0
    have hg := get_rep (b := false) (f := Spec.size S) h0
    rw [e0] at hl hr hg
    rw [psTerm, hD, hr, except_bind_ok, hl, except_bind_ok, hn, hg, except_bind_ok, pyDiv,
      if_pos (by exact_mod_cast hm0), except_bind_error]
  have hmap : mapE (psTerm s' m) (List.range (numClusters S)) = .error .zeroDivisionError := by
    obtain ⟨k, hk⟩ := Nat.exists_eq_succ_of_ne_zero (show numClusters S ≠ 0 by have := g.two; omega)
    rw [hk, List.range_succ_eq_map, mapE, hterm, except_bind_error]
  refine batch_call_err (s2 := s') rfl ho g.two (paramBatch_eq S E o.core) (he.trans ?_)
  rw [hmap]; rfl

end

end Verif
