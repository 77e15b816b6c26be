import Verif.Proofs.Degenerate
import Verif.Props.Batch
import Verif.Props.Values

/-!
# C26–C33: degenerate cases, signs, ranges and conservation laws

`incRun`/`incLast`/`batchRun`/`objAfter` are the observables of `Verif/Api.lean`; the conditions on the data set are those of
`Verif/SpecDegenerate.lean`.
-/

namespace Verif
open Spec

variable {d : ℕ}

/-- `v` is what class `I` returned for the data set `S`: after the last sample in incremental mode, or in batch mode. -/
def Returned (I : Index) (S : Stream d) (v : XR) : Prop := incLast I S = .ok (some v) ∨ batchRun I S = .ok v

theorem dimOk_of_pos {I : Index} (hd : 0 < d) : DimOk I d := fun _ => hd

/-- Incremental values other than cSIL are the defined ones. -/
theorem inc_value {I : Index} (hI : I ≠ .cSIL) (hd : DimOk I d) {S : Stream d} {v : XR} (h : incLast I S = .ok (some v)) :
    v = Spec.value I S := by
  by_cases hS : S = []
  · subst hS
    rw [incLast_nil] at h
    cases h
  · rw [incLast_eq hI hd hS] at h
    cases h; rfl

/-- A value returned by batch mode is the defined one or NaN. -/
theorem batch_value_or_nan {I : Index} (hd : 0 < d) {S : Stream d} {v : XR} (h : batchRun I S = .ok v) :
    v = Spec.value I S ∨ v = .nan := by
  rw [C20_outcome I hd, batchOutcome] at h
  split at h
  · cases h
  · split at h
    · cases h; exact .inl rfl
    · split at h
      · cases h
      · cases h; exact .inr rfl

theorem returned_value {I : Index} (hI : I ≠ .cSIL) (hd : 0 < d) {S : Stream d} {v : XR} (h : Returned I S v) :
    v = Spec.value I S ∨ v = .nan := by
  rcases h with h | h
  · exact .inl (inc_value hI (dimOk_of_pos hd) h)
  · exact batch_value_or_nan hd h

/-! ## C26: one cluster -/

theorem numClusters_le_one {S : Stream d} : numClusters S ≤ 1 ↔ ∀ p ∈ S, ∀ q ∈ S, p.2 = q.2 := by
  rw [numClusters, Finset.card_le_one]
  constructor
  · intro h p hp q hq
    exact h _ (by simp only [labels, List.mem_toFinset]; exact List.mem_map_of_mem hp) _
      (by simp only [labels, List.mem_toFinset]; exact List.mem_map_of_mem hq)
  · intro h a ha b hb
    simp only [labels, List.mem_toFinset, List.mem_map] at ha hb
    obtain ⟨p, hp, rfl⟩ := ha
    obtain ⟨q, hq, rfl⟩ := hb
    exact h p hp q hq

/-- **C26**: while all labels seen are equal, every returned value is `0.0`. -/
theorem C26_one_cluster (I : Index) (hd : DimOk I d) (S : Stream d) (h : ∀ p ∈ S, ∀ q ∈ S, p.2 = q.2) :
    incRun I S = .ok (List.replicate S.length (.fin 0)) := by
  rw [incRun_actual hd]
  congr 1
  rw [List.eq_replicate_iff]
  refine ⟨by simp, ?_⟩
  intro v hv
  obtain ⟨P, hP, rfl⟩ := List.mem_map.1 hv
  have hpre : P <+: S := (List.mem_inits _ _).1 (List.mem_of_mem_tail hP)
  exact actual_one I (numClusters_le_one.2 fun p hp q hq => h p (hpre.subset hp) q (hpre.subset hq))

example : incRun .rCIP ([(![1, 2], 7), (![3, 4], 7), (![3, 4], 7)] : Stream 2) = .ok [.fin 0, .fin 0, .fin 0] :=
  C26_one_cluster .rCIP (fun _ => by omega) _ (by simp)

/-! ## C27: signs -/

/-- **C27**: CH, WB, XB, DB, GD43, GD53 and rCIP never return a negative number or `-inf`. -/
theorem C27_nonneg (I : Index) (h1 : I ≠ .PS) (h2 : I ≠ .cSIL) (hd : 0 < d) (S : Stream d) (v : XR) (h : Returned I S v) :
    ¬ v.IsNeg := by
  rcases returned_value h2 hd h with rfl | rfl
  · exact value_not_neg h1 h2 S
  · exact id

example : Returned .CH demo (.fin (16 / 3)) :=
  .inl (by rw [incLast_eq (by simp) (by simp [DimOk]) (by simp [demo])]; exact congrArg (fun v => Except.ok (some v)) demo_CH)

/-- Every value of the whole incremental run is non-negative, not just the last. -/
theorem C27_nonneg_run (I : Index) (h1 : I ≠ .PS) (h2 : I ≠ .cSIL) (hd : DimOk I d) (S : Stream d) :
    ∃ vs, incRun I S = .ok vs ∧ vs.length = S.length ∧ ∀ v ∈ vs, ¬ v.IsNeg := by
  refine ⟨_, incRun_eq h2 hd S, by simp, ?_⟩
  intro v hv
  obtain ⟨P, _, rfl⟩ := List.mem_map.1 hv
  exact value_not_neg h1 h2 P

/-! ## C28: finite exactly on non-degenerate partitions -/

/-- **C28**, incremental mode: with two or more clusters the last value is a finite number exactly when the partition is not
degenerate for the index. -/
theorem C28_finite_inc (I : Index) (hI : I ≠ .cSIL) (hd : DimOk I d) (S : Stream d) (hk : 2 ≤ numClusters S) (v : XR)
    (h : incLast I S = .ok (some v)) : v.IsFin ↔ NonDegenerate I S := by
  rw [inc_value hI hd h]
  exact value_isFin hk

/-- **C28**, batch mode (here for all nine classes). -/
theorem C28_finite_batch (I : Index) (hd : DimOk I d) (S : Stream d) (hk : 2 ≤ numClusters S) (hc : Consecutive S) (v : XR)
    (h : batchRun I S = .ok v) : v.IsFin ↔ NonDegenerate I S := by
  rw [batchRun_eq hd hc hk] at h
  cases h
  exact value_isFin hk

/-- **C28**, CH: while every cluster has exactly one sample the value is NaN. -/
theorem C28_CH_singletons (S : Stream d) (hk : 2 ≤ numClusters S) (h : ∀ c ∈ labels S, size S c = 1) :
    incLast .CH S = .ok (some .nan) ∧ (Consecutive S → batchRun .CH S = .ok .nan) := by
  have hw : WGSS S = 0 := by
    rw [WGSS_eq_zero]
    intro c hc
    rw [scatter_eq_zero hc]
    intro x y hx hy
    obtain ⟨p, hp⟩ := List.length_eq_one_iff.1 (h c hc)
    have e : ∀ z, (z, c) ∈ S → z = p := by
      intro z hz
      have : z ∈ cluster S c := by
        simp only [cluster, List.mem_map, List.mem_filter, decide_eq_true_eq]
        exact ⟨_, ⟨hz, rfl⟩, rfl⟩
      rw [hp] at this
      simpa using this
    rw [e x hx, e y hy]
  have hl : S.length = numClusters S := by
    have := length_by_label S
    rw [Finset.sum_congr rfl fun c hc => by rw [h c hc]] at this
    simp only [Nat.cast_one, Finset.sum_const, nsmul_eq_mul, mul_one] at this
    exact_mod_cast this
  have hv : Spec.value .CH S = .nan := by
    show Spec.CH S = .nan
    rw [Spec.CH, if_neg (by omega), if_neg (by simpa using hw), if_neg (by simp [hl])]
  refine ⟨?_, fun hc => ?_⟩
  · rw [incLast_eq (by simp) (by simp [DimOk]) (ne_nil_of_two hk), hv]
  · rw [batchRun_eq (by simp [DimOk]) hc hk, hv]

example : incLast .CH ([(![0], 3), (![1], 4)] : Stream 1) = .ok (some .nan) := by
  have hl : labels ([(![0], 3), (![1], 4)] : Stream 1) = {3, 4} := by ext; simp [labels]
  refine (C28_CH_singletons _ ?_ ?_).1
  · rw [numClusters, hl]; decide
  · rw [hl]; simp [size, cluster]

/-- The demo data set is non-degenerate for CH, so its value is finite. -/
example (v : XR) (h : incLast .CH demo = .ok (some v)) : v.IsFin :=
  (C28_finite_inc .CH (by simp) (by simp [DimOk]) demo demo_two v h).2
    ⟨![0], ![2], 0, by simp [demo], by simp [demo], fun h => by have := congrFun h 0; norm_num at this⟩

/-! ## C29: range of PS -/

/-- **C29**: with `k ≥ 2` clusters and centroids not all equal, PS is strictly between `-k` and `k`. -/
theorem C29_PS_range (hd : 0 < d) (S : Stream d) (hk : 2 ≤ numClusters S) (hc : CentroidsDiffer S) (v : ℝ)
    (h : Returned .PS S (.fin v)) : -(numClusters S : ℝ) < v ∧ v < numClusters S := by
  obtain ⟨w, hw, h1, h2⟩ := PS_range hk hc
  have hv : Spec.value .PS S = .fin w := hw
  rcases returned_value (by simp) hd h with e | e
  · rw [hv, XR.fin_inj] at e
    subst e
    exact ⟨h1, h2⟩
  · cases e

/-- The value exists: PS does return a number in that case. -/
theorem C29_PS_returned (S : Stream d) (hk : 2 ≤ numClusters S) (hc : CentroidsDiffer S) :
    ∃ v, Returned .PS S (.fin v) := by
  obtain ⟨w, hw, _, _⟩ := PS_range hk hc
  exact ⟨w, .inl ((incLast_eq (by simp) (by simp [DimOk]) (ne_nil_of_two hk)).trans
    (congrArg (fun v => Except.ok (some v)) hw))⟩

example : ∃ v, Returned .PS demo (.fin v) ∧ -2 < v ∧ v < 2 := by
  have hc : CentroidsDiffer demo := ⟨0, by simp [demo_labels], 1, by simp [demo_labels], by
    rw [demo_centroid0, demo_centroid1]; intro h; have := congrFun h 0; norm_num at this⟩
  obtain ⟨v, hv⟩ := C29_PS_returned demo demo_two hc
  have := C29_PS_range Nat.one_pos demo demo_two hc v hv
  rw [demo_numClusters] at this
  exact ⟨v, hv, by simpa using this⟩

/-! ## C30: range of cSIL -/

/-- **C30**, part that holds: in batch mode a cSIL value that is a number lies in `[-1, 1]`. -/
theorem C30_cSIL_range_partial (hd : 0 < d) (S : Stream d) (v : ℝ) (h : batchRun .cSIL S = .ok (.fin v)) :
    -1 ≤ v ∧ v ≤ 1 := by
  rcases batch_value_or_nan hd h with e | e
  · exact cSIL_range S v e.symm
  · cases e

/-- **C30** is false in incremental mode: `9, 11` (label 0), `10, 10` (label 1) give `-50`; in fact the value is unbounded below. -/
theorem C30_cSIL_range_false (b : ℝ) : ∃ S : Stream 1, ∃ v, 2 ≤ numClusters S ∧ incLast .cSIL S = .ok (some (.fin v)) ∧ v < b := by
  refine ⟨badStream (2 * (|b| + 1)), -(2 * (|b| + 1)) ^ 2 / 2, (bad_numClusters _).ge, ?_, ?_⟩
  · rw [incLast_actual (by simp [DimOk]) (bad_ne_nil _)]
    change Except.ok (some (CSIL.actual (badStream _))) = _
    rw [bad_actual]
  · have h0 := abs_nonneg b
    have h1 := neg_abs_le b
    nlinarith

example : batchRun .cSIL (badStream 10) = .ok (.fin 0) := by
  rw [C19_batch_partial _ (bad_consecutive 10) (bad_numClusters 10).ge, bad_spec]

/-! ## C31: rCIP -/

/-- **C31**: for two or more clusters rCIP returns a positive finite number, in both modes; it never raises in incremental mode,
and never a singular-matrix error in batch mode, whatever the labels. -/
theorem C31_rCIP_positive (hd : 0 < d) (S : Stream d) :
    (2 ≤ numClusters S → ∃ v, 0 < v ∧ incLast .rCIP S = .ok (some (.fin v)) ∧
      (Consecutive S → batchRun .rCIP S = .ok (.fin v))) ∧
    (∃ vs, incRun .rCIP S = .ok vs) ∧ batchRun .rCIP S ≠ .error .linAlgError := by
  refine ⟨fun hk => ?_, ⟨_, incRun_actual (dimOk_of_pos hd) S⟩, ?_⟩
  · obtain ⟨v, hv, e⟩ := rCIP_pos hk
    refine ⟨v, hv, ?_, fun hc => ?_⟩
    · rw [incLast_eq (by simp) (dimOk_of_pos hd) (ne_nil_of_two hk)]
      exact congrArg (fun v => Except.ok (some v)) e
    · rw [batchRun_eq (dimOk_of_pos hd) hc hk]
      exact congrArg Except.ok e
  · rw [C20_outcome _ hd, batchOutcome]
    intro h
    split at h
    · cases h
    · split at h
      · cases h
      · split at h <;> cases h

/-- Two coinciding single-sample clusters in three dimensions. -/
example : ∃ v, 0 < v ∧ incLast .rCIP ([(![1, 1, 1], 0), (![1, 1, 1], 1)] : Stream 3) = .ok (some (.fin v)) := by
  obtain ⟨v, h1, h2, _⟩ := (C31_rCIP_positive (d := 3) (by omega) [(![1, 1, 1], 0), (![1, 1, 1], 1)]).1 (by
    rw [numClusters, show labels _ = {0, 1} by ext; simp [labels]]; decide)
  exact ⟨v, h1, h2⟩

/-! ## C32: CH against WB -/

/-- **C32**: where both are numbers, `CH * WB = k (n - k) / (k - 1)`, in either mode. -/
theorem C32_CH_WB (hd : 0 < d) (S : Stream d) (hk : 2 ≤ numClusters S) (a b : ℝ)
    (ha : Returned .CH S (.fin a)) (hb : Returned .WB S (.fin b)) :
    a * b = numClusters S * (S.length - numClusters S) / (numClusters S - 1) := by
  have hA : Spec.CH S = .fin a := by
    rcases returned_value (by simp) hd ha with e | e
    · exact e.symm
    · cases e
  have hB : Spec.WB S = .fin b := by
    rcases returned_value (by simp) hd hb with e | e
    · exact e.symm
    · cases e
  rw [Spec.CH, if_neg (by omega)] at hA
  rw [Spec.WB, if_neg (by omega)] at hB
  by_cases hw : WGSS S = 0
  · rw [if_neg (by simpa using hw)] at hA
    split at hA <;> cases hA
  by_cases hg : BGSS S = 0
  · rw [if_neg (by simpa using hg)] at hB
    split at hB <;> cases hB
  rw [if_pos hw, XR.fin_inj] at hA
  rw [if_pos hg, XR.fin_inj] at hB
  have hk1 : (numClusters S : ℝ) - 1 ≠ 0 := by
    have : (2 : ℝ) ≤ numClusters S := by exact_mod_cast hk
    intro h; linarith
  rw [← hA, ← hB]
  field_simp

example : Returned .WB demo (.fin (3 / 8)) := by
  refine .inl ((incLast_eq (by simp) (by simp [DimOk]) (by simp [demo])).trans ?_)
  show Except.ok (some (Spec.WB demo)) = _
  rw [Spec.WB, if_neg (by rw [demo_numClusters]; decide), if_pos (by rw [demo_BGSS]; norm_num), demo_BGSS, demo_WGSS,
    demo_numClusters]
  norm_num

/-! ## C33: conservation of scatter -/

/-- **C33**: the compactnesses `_CP` and separations `_SEP` held by a CH or WB object after any stream sum to the total scatter
of the samples about their mean. -/
theorem C33_conserved (I : Index) (hI : I = .CH ∨ I = .WB) (S : Stream d) :
    ∃ cp, (objAfter I S).core.CP = some cp ∧ cp.items.sum + (objAfter I S).core.SEP.sum = .fin (totalScatter S) := by
  have hinv := objAfter_inv (I := I) (by rcases hI with rfl | rfl <;> simp [DimOk]) S
  rcases hinv with ⟨rfl, h⟩ | ⟨_, _, hr⟩
  · rcases hI with rfl | rfl <;>
    · rw [h]
      exact ⟨_, rfl, by simp [Index.mod, CHmod, WBmod, Module.fresh, Core.init, totalScatter, XR.zero_def]⟩
  · have key : (objAfter I S).core.CP = some ⟨false, (keys S).map fun c => XR.fin (scatter S c)⟩ ∧
        (objAfter I S).core.SEP = (keys S).map fun c => XR.fin (size S c * dist2 (centroid S c) (mean S)) := by
      rcases hI with rfl | rfl
      · exact ⟨CH.Rep.toRepMu hr |>.cp, CH.Rep.sep hr⟩
      · exact ⟨WB.Rep.toRepMu hr |>.cp, WB.Rep.sep hr⟩
    refine ⟨_, key.1, ?_⟩
    rw [key.2]
    show (List.map _ (keys S)).sum + _ = _
    rw [(keysOf_keys S).sumX, (keysOf_keys S).sumX, XR.fin_add, ← scatter_conserved]
    rfl

example : ∃ cp, (objAfter .CH demo).core.CP = some cp ∧ cp.items.sum + (objAfter .CH demo).core.SEP.sum = .fin (38 / 3) := by
  have h := C33_conserved .CH (.inl rfl) demo
  rwa [← scatter_conserved, demo_WGSS, demo_BGSS, show (2 : ℝ) + 32 / 3 = 38 / 3 by norm_num] at h

end Verif
