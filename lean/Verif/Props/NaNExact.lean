import Verif.Proofs.NaNFinal
import Verif.Props.NaN

/-!
# C61: a missing value shows

Full statement: once two clusters have been seen and a feature of some sample is missing, the value is NaN.  It holds in batch mode
for every class and in incremental mode for every class but GD53.
-/

namespace Verif
open Py Spec

variable {d : ℕ}

/-- **C61**, incremental mode, every class but GD53: the value returned for the `n`-th sample, when features may be missing.
Without a gap so far it is the value of the samples; with one cluster so far it is 0; otherwise it is NaN. -/
theorem C61_partial (I : Index) (hI : I ≠ .GD53) (hd : DimOk I d) {T : GappyStream d} {rs : List XR} (h : incRunG I T = .ok rs) {n : ℕ}
    (hn : n < T.length) :
    (¬ SomeGap (T.take (n + 1)) → ∀ S vs, Completes S T → incRun I S = .ok vs → rs[n]? = vs[n]?) ∧
    (¬ TwoLabels (T.take (n + 1)) → rs[n]? = some (.fin 0)) ∧
    (SomeGap (T.take (n + 1)) → TwoLabels (T.take (n + 1)) → rs[n]? = some .nan) := by
  obtain ⟨rs1, o1, h1, hl, e⟩ := run_prefix h hn
  refine ⟨fun hg S vs hS hv => ?_, fun h2 => ?_, fun ⟨p, hp, hg⟩ h2 => ?_⟩
  · rw [encSG_encS (List.forall₂_take (n + 1) hS) hg] at h1
    obtain ⟨o2, h3, _⟩ := (I.refines hd).run (S.take (n + 1))
    rw [h1] at h3
    cases h3
    rw [e, run_at hd hv]
  · rw [e, ← getLast_of_length hl]
    exact one_zero hd h1 (by intro e; rw [e] at h1; cases h1; cases hl) h2
  · rw [e, ← getLast_of_length hl]
    exact last_nan hd h1 hp hg h2 fun e => absurd e hI

/-- **C61**, incremental GD53: NaN needs a missing feature in a sample that is not alone in its cluster.  When every sample with a gap
is alone in its cluster so far, the missing values play no part: the value is that of every completion. -/
theorem C61_GD53 {T : GappyStream d} {rs : List XR} (h : incRunG .GD53 T = .ok rs) {n : ℕ} (hn : n < T.length) :
    (¬ SharedGap (T.take (n + 1)) → ∀ S vs, Completes S T → incRun .GD53 S = .ok vs → rs[n]? = vs[n]?) ∧
    (¬ TwoLabels (T.take (n + 1)) → rs[n]? = some (.fin 0)) ∧
    (SharedGap (T.take (n + 1)) → TwoLabels (T.take (n + 1)) → rs[n]? = some .nan) := by
  have hd : DimOk Index.GD53 d := nofun
  obtain ⟨rs1, o1, h1, hl, e⟩ := run_prefix h hn
  refine ⟨fun hg S vs hS hv => ?_, fun h2 => ?_, fun ⟨p, hp, hg, hc⟩ h2 => ?_⟩
  · obtain ⟨o2, h3⟩ := GD53.bfeed (List.forall₂_take (n + 1) hS) (P := []) (A := []) .nil (w := fun _ => [])
      (o := Index.GD53.mod.fresh) (fun p hp hgp => by
        by_contra hne
        refine hg ⟨p, hp, hgp, ?_⟩
        have : 0 < ((T.take (n + 1)).map Prod.snd).count p.2 := List.count_pos_iff.2 (List.mem_map_of_mem hp)
        simp only [List.nil_append] at hne
        omega) rfl (.inl ⟨rfl, rfl⟩) (by simp [keys, firstSeen])
    rw [e, run_at hd hv]
    change feed Index.GD53.mod _ _ = _ at h3
    rw [h1] at h3
    cases h3
    rfl
  · rw [e, ← getLast_of_length hl]
    exact one_zero hd h1 (by intro e; rw [e] at h1; cases h1; cases hl) h2
  · rw [e, ← getLast_of_length hl]
    exact last_nan hd h1 hp hg h2 fun _ => hc

/-- `demoGap` has a missing feature in a cluster of two samples: NaN, for every class. -/
example (I : Index) : ∃ rs, incRunG I demoGap = .ok rs ∧ rs[2]? = some .nan := by
  obtain ⟨rs, h, _⟩ := C60_inc I (d := 1) (fun _ => by decide) demoGap
  refine ⟨rs, h, ?_⟩
  have hg : SharedGap (demoGap.take 3) := ⟨(![none], 0), by simp [demoGap], ⟨0, rfl⟩, by simp [demoGap]⟩
  have h2 : TwoLabels (demoGap.take 3) := ⟨(![none], 0), by simp [demoGap], (![some 5], 1), by simp [demoGap], by decide⟩
  by_cases hI : I = .GD53
  · subst hI
    exact (C61_GD53 h (n := 2) (by simp [demoGap])).2.2 hg h2
  · obtain ⟨p, hp, hgp, _⟩ := hg
    exact (C61_partial I hI (fun _ => by decide) h (n := 2) (by simp [demoGap])).2.2 ⟨p, hp, hgp⟩ h2

/-- `demo` with the only sample of the second cluster missing. -/
noncomputable def demoLone : GappyStream 1 := [(![some 0], 0), (![some 2], 0), (![none], 1)]

theorem demoLone_demo : Completes demo demoLone := by
  simp [Completes, demo, demoLone, Fills]

theorem demo_GD53 : Spec.GD53 demo = .fin (1 / 3) := by
  have h0 : size demo 0 = 2 := by simp [size, demo_cluster0]
  have h1 : size demo 1 = 1 := by simp [size, demo_cluster1]
  have hp : pairValues demo (fun a b => (scatter demo a + scatter demo b) / ((size demo a : ℝ) + size demo b)) = {2 / 3} := by
    ext r
    simp only [pairValues, demo_labels, Finset.mem_insert, Finset.mem_singleton, Set.mem_ofPred_eq, Set.mem_singleton_iff]
    constructor
    · rintro ⟨a, rfl | rfl, b, rfl | rfl, hab, rfl⟩
      · exact absurd rfl hab
      · norm_num [h0, h1, demo_scatter0, demo_scatter1]
      · norm_num [h0, h1, demo_scatter0, demo_scatter1]
      · exact absurd rfl hab
    · rintro rfl
      exact ⟨0, .inl rfl, 1, .inr rfl, by decide, by norm_num [h0, h1, demo_scatter0, demo_scatter1]⟩
  have hs : {r | ∃ c ∈ labels demo, r = meanScatter demo c} = {1, 0} := by
    ext r
    simp [demo_labels, meanScatter, h0, h1, demo_scatter0, demo_scatter1]
  rw [Spec.GD53, if_neg (by rw [demo_numClusters]; decide), hp, hs, csInf_singleton, csSup_pair]
  norm_num [ratio]

/-- **C61** is false for incremental GD53: two clusters, a missing feature, and the value `1/3`. -/
theorem C61_false : ∃ (T : GappyStream 1) (rs : List XR), SomeGap T ∧ TwoLabels T ∧ T.length = 3 ∧ incRunG .GD53 T = .ok rs ∧
    rs[2]? = some (.fin (1 / 3)) := by
  obtain ⟨rs, h, _⟩ := C60_inc .GD53 (d := 1) nofun demoLone
  refine ⟨demoLone, rs, ⟨(![none], 1), by simp [demoLone], 0, rfl⟩,
    ⟨(![some 0], 0), by simp [demoLone], (![none], 1), by simp [demoLone], by decide⟩, rfl, h, ?_⟩
  have hb : ¬ SharedGap (demoLone.take 3) := by
    rintro ⟨p, hp, ⟨i, hi⟩, hc⟩
    simp only [demoLone, List.take_succ_cons, List.take_nil, List.mem_cons, List.not_mem_nil, or_false] at hp
    rcases hp with rfl | rfl | rfl
    · simp at hi
    · simp at hi
    · simp [demoLone] at hc
  have hr := incRun_actual (I := .GD53) (d := 1) nofun demo
  have e := (C61_GD53 h (n := 2) (by simp [demoLone])).1 hb demo _ demoLone_demo hr
  rw [e]
  have hv : (demo.inits.tail)[2]? = some demo := rfl
  rw [List.getElem?_map, hv, Option.map_some]
  exact congrArg some demo_GD53

/-- **C61**, batch mode, every class: if a completion of the array is evaluated, the array with missing features is evaluated to NaN. -/
theorem C61_batch (I : Index) (hd : 0 < d) {S : Stream d} {T : GappyStream d} (h : Completes S T) (hg : SomeGap T) {v : XR}
    (hv : batchRun I S = .ok v) : batchRunG I T = .ok .nan := by
  have ho := C20_outcome I hd S
  rw [hv, batchOutcome] at ho
  obtain ⟨p, hp, hg⟩ := hg
  split at ho
  · cases ho
  · rename_i hk
    split at ho
    · rename_i hc
      exact batch_nan hd h hc (by omega) hp hg
    · split at ho
      · cases ho
      · cases ho
        obtain ⟨r, hr, e | e⟩ := (C60_batch I h).2 _ hv <;> rw [hr, e]

/-- The hypotheses are met by `demo` and `demoLone`, for every class. -/
example (I : Index) : batchRunG I demoLone = .ok .nan :=
  C61_batch I (by decide) demoLone_demo ⟨(![none], 1), by simp [demoLone], 0, rfl⟩
    (batchRun_eq (fun _ => by decide) demo_consecutive demo_two)

end Verif
