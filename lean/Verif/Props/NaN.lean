import Verif.Proofs.NaNRun
import Verif.Props.Batch
import Verif.Props.Demo

/-!
# C60: missing values

A stream with missing values is presented with NaN in their place.  `Completes S T` says that `S` is `T` with the missing values
filled in by numbers.
-/

namespace Verif
open Spec

variable {d : ℕ}

/-! ## A stream with a gap and two of its completions -/

/-- `demo` with the second sample missing. -/
noncomputable def demoGap : GappyStream 1 := [(![some 0], 0), (![none], 0), (![some 5], 1)]

/-- Another completion of it. -/
noncomputable def demoOther : Stream 1 := [(![0], 0), (![0], 0), (![5], 1)]

theorem demoGap_demo : Completes demo demoGap := by
  simp [Completes, demo, demoGap, Fills]

theorem demoGap_other : Completes demoOther demoGap := by
  simp [Completes, demoOther, demoGap, Fills]

theorem demoOther_CH : Spec.CH demoOther ≠ Spec.CH demo := by
  have hl : labels demoOther = {0, 1} := by ext c; simp [labels, demoOther]
  have hk : numClusters demoOther = 2 := by rw [numClusters, hl]; rfl
  have h0 : cluster demoOther 0 = [![0], ![0]] := by simp [cluster, demoOther]
  have h1 : cluster demoOther 1 = [![5]] := by simp [cluster, demoOther]
  have c0 : centroid demoOther 0 = ![0] := by
    ext i
    norm_num [centroid, h0, meanOf]
  have c1 : centroid demoOther 1 = ![5] := by
    ext i
    norm_num [centroid, h1, meanOf]
  have hw : WGSS demoOther = 0 := by
    rw [WGSS, hl, Finset.sum_pair (by decide)]
    norm_num [scatter, h0, h1, c0, c1, dist2]
  rw [demo_CH, Spec.CH, if_neg (by rw [hk]; decide), if_neg (by rw [hw]; simp)]
  split <;> simp

/-- **C60**, incremental mode.  Feeding a stream with missing values raises nothing, and each value returned is NaN or is the value
that would have been returned for *every* way of filling in the missing values: a number never depends on a missing value. -/
theorem C60_inc (I : Index) (hd : DimOk I d) (T : GappyStream d) :
    ∃ rs : List XR, incRunG I T = .ok rs ∧
      ∀ S, Completes S T → ∃ vs, incRun I S = .ok vs ∧ List.Forall₂ (fun v r => r = .nan ∨ r = v) vs rs := by
  have : Completes (T.map fun p => (fun i => (p.1 i).getD 0, p.2)) T := by
    rw [Completes, List.forall₂_map_left_iff, List.forall₂_same]
    refine fun p _ => ⟨fun i r h => ?_, rfl⟩
    simp [h]
  obtain ⟨rs, o, h1, _⟩ := incRunG_ref hd this
  refine ⟨rs, by rw [incRunG, h1]; rfl, fun S hS => ⟨_, incRun_actual hd S, ?_⟩⟩
  obtain ⟨rs', o', h2, h3, _⟩ := incRunG_ref hd hS
  rw [h1] at h2
  cases h2
  exact h3

/-- **C60**, consequence: where two ways of filling in the missing values lead to different values, NaN is returned. -/
theorem C60_disagree (I : Index) (hd : DimOk I d) {T : GappyStream d} {rs v w : List XR} (h : incRunG I T = .ok rs) {S S' : Stream d}
    (hS : Completes S T) (hS' : Completes S' T) (hv : incRun I S = .ok v) (hw : incRun I S' = .ok w) {i : ℕ} (hi : i < T.length)
    (hne : v[i]? ≠ w[i]?) : rs[i]? = some .nan := by
  obtain ⟨rs', h1, h2⟩ := C60_inc I hd T
  rw [h] at h1
  cases h1
  obtain ⟨v', hv', hf⟩ := h2 S hS
  obtain ⟨w', hw', hg⟩ := h2 S' hS'
  rw [hv] at hv'
  rw [hw] at hw'
  cases hv'
  cases hw'
  have hlen : v.length = T.length := by
    rw [incRun_actual hd] at hv
    cases hv
    simpa using hS.length_eq
  have hr : i < rs.length := by rw [← hf.length_eq, hlen]; exact hi
  have iv : i < v.length := by omega
  have iw : i < w.length := by rw [hg.length_eq]; exact hr
  rw [List.getElem?_eq_getElem hr]
  rw [List.getElem?_eq_getElem iv, List.getElem?_eq_getElem iw] at hne
  rcases (List.forall₂_iff_get.1 hf).2 i iv hr with h | h <;> rcases (List.forall₂_iff_get.1 hg).2 i iw hr with h' | h' <;>
    simp only [List.get_eq_getElem] at h h'
  · rw [h]
  · rw [h]
  · rw [h']
  · exact absurd (by rw [← h, ← h']) hne

/-- The last value returned for `demoGap` is NaN. -/
example : ∃ rs, incRunG .CH demoGap = .ok rs ∧ rs[2]? = some .nan := by
  obtain ⟨rs, h, _⟩ := C60_inc .CH (d := 1) (by intro h; cases h) demoGap
  refine ⟨rs, h, C60_disagree .CH (by intro h; cases h) h demoGap_demo demoGap_other (incRun_actual (by intro h; cases h) _)
    (incRun_actual (by intro h; cases h) _) (by simp [demoGap]) ?_⟩
  intro e
  exact demoOther_CH (by simpa [demo, demoOther, Index.actual, Spec.value] using e.symm)

/-- **C60**, batch mode.  If a completion is evaluated to `v`, the array with the missing values is evaluated to NaN or to `v`; with
fewer than two labels it is rejected like every completion. -/
theorem C60_batch (I : Index) {S : Stream d} {T : GappyStream d} (h : Completes S T) :
    (numClusters S < 2 → batchRunG I T = .error .valueError) ∧
    ∀ v, batchRun I S = .ok v → ∃ r, batchRunG I T = .ok r ∧ (r = .nan ∨ r = v) := by
  refine ⟨fun hk => ?_, fun v hv => batchRunG_ref h hv⟩
  rw [batchRunG, ← (rowsG_ref h).2]
  have ht : (LabelArg.arr (S.map Prod.snd)).Trivial := by
    intro a ha b hb
    have : (labels S).card ≤ 1 := by rw [numClusters] at hk; omega
    exact Finset.card_le_one.1 this a (by simpa [labels] using ha) b (by simpa [labels] using hb)
  rw [(C04_one_label I.mod _ _ ht _).1]
  rfl

/-- **C60**, batch mode with consecutive labels: a value is returned, NaN or the value of the index for every completion. -/
theorem C60_batch_value (I : Index) (hd : 0 < d) {S : Stream d} {T : GappyStream d} (h : Completes S T) (hc : Consecutive S)
    (hk : 2 ≤ numClusters S) : ∃ r, batchRunG I T = .ok r ∧ (r = .nan ∨ r = Spec.value I S) :=
  (C60_batch I h).2 _ (batchRun_eq (fun _ => hd) hc hk)

/-- The hypotheses are met by `demo` and `demoGap`. -/
example (I : Index) : ∃ r, batchRunG I demoGap = .ok r ∧ (r = .nan ∨ r = Spec.value I demo) :=
  C60_batch_value I (by decide) demoGap_demo demo_consecutive demo_two

end Verif
