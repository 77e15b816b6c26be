import Verif.Proofs.BatchTables
import Verif.Props.State

/-!
# C58: what an object records in batch mode

The batch tables are indexed by the labels themselves; the label map stays empty.
-/

namespace Verif
open Spec

variable {d : ℕ}

theorem getElem?_rangeKeys {α : Type} {k i : ℕ} (f : ℤ → α) (h : i < k) : ((rangeKeys k).map f)[i]? = some (f i) := by
  simp [rangeKeys, h]

/-- **C58**: after a batch call with at least two distinct labels (any integers, whether the call returned or raised) the object is
set up with an empty label map; it records the number of rows, features and distinct labels; entry `i` of its tables holds the
multiplicity of label `i`, the mean of its rows, their scatter (rCIP: their regularised covariance), and `_mu` the mean of all
rows. -/
theorem C58_batch_bookkeeping (I : Index) (hd : 0 < d) (S : Stream d) (hk : 2 ≤ numClusters S) :
    (batchAfter I S).labelMap = [] ∧
    (batchAfter I S).core.isSetup = true ∧
    (batchAfter I S).core.dim = d ∧
    (batchAfter I S).core.nSamples = S.length ∧
    (batchAfter I S).core.nClusters = numClusters S ∧
    (batchAfter I S).core.n.items.length = numClusters S ∧
    (batchAfter I S).core.v.rows.length = numClusters S ∧
    (∀ i < numClusters S, (batchAfter I S).core.n.items[i]? = some ((S.map Prod.snd).count (i : ℤ)) ∧
      (batchAfter I S).core.v.rows[i]? = some
        (if (i : ℤ) ∈ labels S then enc (meanOf ((S.filter fun p => p.2 = (i : ℤ)).map Prod.fst)) else List.replicate d .nan) ∧
      (I ≠ .PS → I ≠ .rCIP → ∃ cp, (batchAfter I S).core.CP = some cp ∧ cp.items[i]? = some (.fin (scatter S i))) ∧
      (I = .rCIP → (batchAfter I S).core.sigma[i]? = some (Arr2.ofMatrix (regCov S i)))) ∧
    (I ≠ .rCIP → I ≠ .cSIL → (batchAfter I S).core.mu = enc (mean S)) := by
  obtain ⟨s1, h1, a1, a2, a3, a4, a5, a6, a7, a8, a9⟩ := paramBatch_tables I hd S I.mod.fresh.core
  obtain ⟨hl, ht⟩ := batchAfter_tables I S hk h1
  have b1 : (batchAfter I S).core.isSetup = s1.isSetup := congrArg Tables.isSetup ht
  have b2 : (batchAfter I S).core.dim = s1.dim := congrArg Tables.dim ht
  have b3 : (batchAfter I S).core.nSamples = s1.nSamples := congrArg Tables.nSamples ht
  have b4 : (batchAfter I S).core.nClusters = s1.nClusters := congrArg Tables.nClusters ht
  have b5 : (batchAfter I S).core.n = s1.n := congrArg Tables.n ht
  have b6 : (batchAfter I S).core.v = s1.v := congrArg Tables.v ht
  have b7 : (batchAfter I S).core.CP = s1.CP := congrArg Tables.CP ht
  have b8 : (batchAfter I S).core.sigma = s1.sigma := congrArg Tables.sigma ht
  have b9 : (batchAfter I S).core.mu = s1.mu := congrArg Tables.mu ht
  have hc : ∀ c, size S c = (S.map Prod.snd).count c := by
    intro c
    rw [size, cluster, List.length_map, List.count_eq_countP, List.countP_map, List.countP_eq_length_filter]
    rfl
  refine ⟨hl, b1.trans a1, b2.trans a2, b3.trans a3, b4.trans a4, by rw [b5, a5]; simp, by rw [b6, a6]; simp, fun i hi => ?_,
    fun h1 h2 => (b9.trans (a9 h1 h2)).trans (mean0_all (nonempty_of_clusters hk))⟩
  refine ⟨by rw [b5, a5, getElem?_rangeKeys _ hi, hc], ?_, fun h1 h2 => ?_, fun h => by rw [b8, a8 h, getElem?_rangeKeys _ hi]⟩
  · rw [b6, a6, getElem?_rangeKeys _ hi]
    by_cases hm : (i : ℤ) ∈ labels S
    · rw [if_pos hm, vRow_of_mem hm]; rfl
    · rw [if_neg hm, vRow_of_notMem hm]
  · obtain ⟨b, h⟩ := a7 h1 h2
    exact ⟨_, b7.trans h, getElem?_rangeKeys _ hi⟩

/-- **C58**: with labels `0, .., k-1` a batch object and an object fed the same rows one by one record the same counts and
centroids for every label, the same totals, and (cSIL excepted) the same compactness or covariance. -/
theorem C58_modes_agree (I : Index) (hd : 0 < d) (S : Stream d) (hk : 2 ≤ numClusters S) (hc : Consecutive S) :
    (batchAfter I S).core.nSamples = (objAfter I S).core.nSamples ∧
    (batchAfter I S).core.nClusters = (objAfter I S).core.nClusters ∧
    ∀ i : ℕ, (i : ℤ) ∈ labels S →
      (batchAfter I S).core.n.items[i]? = (objAfter I S).count i ∧
      (batchAfter I S).core.v.rows[i]? = (objAfter I S).centroid i ∧
      (I ≠ .PS → I ≠ .rCIP → I ≠ .cSIL →
        ((batchAfter I S).core.CP.bind fun cp => cp.items[i]?) = (objAfter I S).compactness i) ∧
      (I = .rCIP → (batchAfter I S).core.sigma[i]? = (objAfter I S).page i) := by
  obtain ⟨_, _, _, b1, b2, _, _, b3, _⟩ := C58_batch_bookkeeping I hd S hk
  obtain ⟨i2, i1, _, _, _, i3, _⟩ := C34_bookkeeping I (fun _ => hd) S
  refine ⟨b1.trans i1.symm, b2.trans i2.symm, fun i hi => ?_⟩
  obtain ⟨c1, c2, c3, c4⟩ := b3 i (by have := ((hc i).1 hi).2; omega)
  rw [if_pos hi] at c2
  refine ⟨c1.trans (i3 i hi).1.symm, c2.trans (i3 i hi).2.symm, fun h1 h2 h3 => ?_, fun h => ?_⟩
  · obtain ⟨cp, e1, e2⟩ := c3 h1 h2
    rw [objAfter_compactness h1 h2, if_pos hi, if_neg h3, e1]
    exact e2
  · rw [c4 h]; subst h; rw [objAfter_page hd, if_pos hi]

example : (batchAfter .DB demo).core.n.items[0]? = some 2 ∧ (batchAfter .DB demo).core.v.rows[1]? = some [.fin 5] ∧
    (batchAfter .DB demo).core.CP.bind (fun cp => cp.items[0]?) = some (.fin 2) := by
  obtain ⟨_, _, _, _, _, _, _, h, _⟩ := C58_batch_bookkeeping .DB one_pos demo demo_two
  obtain ⟨h0, _, h2, _⟩ := h 0 (by have := demo_two; omega)
  obtain ⟨_, h1, _, _⟩ := h 1 (by have := demo_two; omega)
  refine ⟨h0, ?_, ?_⟩
  · rw [h1, if_pos (by simp [demo_labels])]
    have : meanOf ((demo.filter fun p => p.2 = 1).map Prod.fst) = ![5] := demo_centroid1
    rw [Nat.cast_one, this]; simp [enc]
  · obtain ⟨cp, e1, e2⟩ := h2 (by decide) (by decide)
    rw [e1, Option.bind_some, e2]
    exact congrArg (fun x => some (XR.fin x)) demo_scatter0

/-- **C58**, cSIL: what `_CP` holds depends on the mode: scatters in batch mode, sums of squared norms in incremental mode. -/
theorem C58_cSIL_false : ∃ S : Stream 1, 2 ≤ numClusters S ∧ Consecutive S ∧
    ((batchAfter .cSIL S).core.CP.bind fun cp => cp.items[0]?) = some (.fin 2) ∧
    (objAfter .cSIL S).compactness 0 = some (.fin 4) := by
  refine ⟨demo, demo_two, demo_consecutive, ?_, ?_⟩
  · obtain ⟨_, _, _, _, _, _, _, h, _⟩ := C58_batch_bookkeeping .cSIL one_pos demo demo_two
    obtain ⟨_, _, h2, _⟩ := h 0 (by have := demo_two; omega)
    obtain ⟨cp, e1, e2⟩ := h2 (by decide) (by decide)
    rw [e1, Option.bind_some, e2]
    exact congrArg (fun x => some (XR.fin x)) demo_scatter0
  · rw [objAfter_compactness (by decide) (by decide), if_pos (by simp [demo_labels]), if_pos rfl]
    norm_num [sumSqNorm, demo_cluster0]

end Verif
