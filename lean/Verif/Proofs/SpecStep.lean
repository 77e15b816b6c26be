import Verif.Proofs.Keys

/-!
# How the specification changes when one sample is added
-/

namespace Verif
open Spec

variable {d : ℕ}

/-- The labels of `S` in order of first occurrence. -/
def keys (S : Stream d) : List ℤ := firstSeen (S.map Prod.snd)

theorem keys_nodup (S : Stream d) : (keys S).Nodup := firstSeen_nodup _

@[simp] theorem keys_nil : keys ([] : Stream d) = [] := rfl

theorem keys_append (S : Stream d) (x : Pt d) (c : ℤ) : keys (S ++ [(x, c)]) = addKey (keys S) c := by
  simp [keys, firstSeen_append]

theorem mem_keys {S : Stream d} {c : ℤ} : c ∈ keys S ↔ c ∈ labels S := by
  simp [keys, mem_firstSeen, labels]

theorem labels_eq (S : Stream d) : labels S = (keys S).toFinset := by
  ext c; simp [mem_keys]

theorem mem_labels {S : Stream d} {c : ℤ} : c ∈ labels S ↔ ∃ x, (x, c) ∈ S := by
  simp [labels]

theorem labels_append (S : Stream d) (x : Pt d) (c : ℤ) : labels (S ++ [(x, c)]) = insert c (labels S) := by
  ext a; simp [labels]

theorem cluster_append_self (S : Stream d) (x : Pt d) (c : ℤ) :
    cluster (S ++ [(x, c)]) c = cluster S c ++ [x] := by
  simp [cluster]

theorem cluster_append_ne (S : Stream d) (x : Pt d) {c a : ℤ} (h : a ≠ c) :
    cluster (S ++ [(x, c)]) a = cluster S a := by
  simp [cluster, Ne.symm h]

theorem cluster_ne_nil {S : Stream d} {c : ℤ} : cluster S c ≠ [] ↔ c ∈ labels S := by
  rw [mem_labels]
  simp only [cluster, ne_eq, List.map_eq_nil_iff, List.filter_eq_nil_iff, decide_eq_true_eq, Prod.forall, not_forall,
    not_not]
  constructor
  · rintro ⟨x, c', h, rfl⟩; exact ⟨x, h⟩
  · rintro ⟨x, h⟩; exact ⟨x, c, h, rfl⟩

theorem cluster_eq_nil {S : Stream d} {c : ℤ} (h : c ∉ labels S) : cluster S c = [] := by
  by_contra h'; exact h (cluster_ne_nil.mp h')

theorem size_pos {S : Stream d} {c : ℤ} (h : c ∈ labels S) : 0 < size S c :=
  List.length_pos_iff.mpr (cluster_ne_nil.mpr h)

theorem size_pos_real {S : Stream d} {c : ℤ} (h : c ∈ labels S) : (0 : ℝ) < (size S c : ℝ) := by
  exact_mod_cast size_pos h

theorem size_append_self (S : Stream d) (x : Pt d) (c : ℤ) : size (S ++ [(x, c)]) c = size S c + 1 := by
  simp [size, cluster_append_self]

theorem size_append_ne (S : Stream d) (x : Pt d) {c a : ℤ} (h : a ≠ c) : size (S ++ [(x, c)]) a = size S a := by
  simp [size, cluster_append_ne S x h]

theorem centroid_append_ne (S : Stream d) (x : Pt d) {c a : ℤ} (h : a ≠ c) :
    centroid (S ++ [(x, c)]) a = centroid S a := by
  simp [centroid, cluster_append_ne S x h]

theorem scatter_append_ne (S : Stream d) (x : Pt d) {c a : ℤ} (h : a ≠ c) :
    scatter (S ++ [(x, c)]) a = scatter S a := by
  simp [scatter, cluster_append_ne S x h, centroid_append_ne S x h]

theorem centroid_append_new (S : Stream d) (x : Pt d) {c : ℤ} (h : c ∉ labels S) :
    centroid (S ++ [(x, c)]) c = x := by
  simp [centroid, cluster_append_self, cluster_eq_nil h, meanOf_singleton]

theorem size_append_new (S : Stream d) (x : Pt d) {c : ℤ} (h : c ∉ labels S) : size (S ++ [(x, c)]) c = 1 := by
  simp [size, cluster_append_self, cluster_eq_nil h]

theorem scatter_append_new (S : Stream d) (x : Pt d) {c : ℤ} (h : c ∉ labels S) :
    scatter (S ++ [(x, c)]) c = 0 := by
  simp [scatter, centroid_append_new S x h, cluster_append_self, cluster_eq_nil h, dist2_self]

theorem centroid_append_self (S : Stream d) (x : Pt d) (c : ℤ) (i : Fin d) :
    centroid (S ++ [(x, c)]) c i =
      (1 - 1 / ((size S c + 1 : ℕ) : ℝ)) * centroid S c i + 1 / ((size S c + 1 : ℕ) : ℝ) * x i := by
  simp only [centroid, cluster_append_self, size, meanOf_append_singleton]

theorem mean_append (S : Stream d) (x : Pt d) (c : ℤ) (i : Fin d) :
    mean (S ++ [(x, c)]) i =
      (1 - 1 / ((S.length + 1 : ℕ) : ℝ)) * mean S i + 1 / ((S.length + 1 : ℕ) : ℝ) * x i := by
  have := meanOf_append_singleton (S.map Prod.fst) x i
  simpa [mean] using this

theorem mean_singleton (x : Pt d) (c : ℤ) : mean [(x, c)] = x := by simp [mean, meanOf_singleton]

/-- The sum of squared distances of a cluster to an arbitrary point. -/
theorem sum_dist2_cluster {S : Stream d} {c : ℤ} (h : c ∈ labels S) (w : Pt d) :
    ((cluster S c).map fun p => dist2 p w).sum = scatter S c + size S c * dist2 (centroid S c) w :=
  sum_dist2 _ (cluster_ne_nil.mpr h) w

theorem scatter_append_old (S : Stream d) (x : Pt d) {c : ℤ} (h : c ∈ labels S) :
    scatter (S ++ [(x, c)]) c = scatter S c
      + dist2 x (centroid (S ++ [(x, c)]) c) + size S c * dist2 (centroid S c) (centroid (S ++ [(x, c)]) c) := by
  have := sum_dist2_cluster h (centroid (S ++ [(x, c)]) c)
  rw [scatter, cluster_append_self, List.map_append, List.sum_append, this]
  simp; ring

/-- The deviation sum of a cluster stays zero. -/
theorem deviation_append (S : Stream d) (x : Pt d) (c : ℤ) (i : Fin d) :
    (x i - centroid (S ++ [(x, c)]) c i) + size S c * (centroid S c i - centroid (S ++ [(x, c)]) c i) = 0 := by
  rw [centroid_append_self]
  push_cast
  have : (size S c : ℝ) + 1 ≠ 0 := by positivity
  field_simp
  ring

theorem scatter_nonneg (S : Stream d) (c : ℤ) : 0 ≤ scatter S c := by
  apply List.sum_nonneg
  intro r hr
  obtain ⟨p, _, rfl⟩ := List.mem_map.mp hr
  exact dist2_nonneg _ _

theorem WGSS_nonneg (S : Stream d) : 0 ≤ WGSS S := Finset.sum_nonneg fun c _ => scatter_nonneg S c

theorem BGSS_nonneg (S : Stream d) : 0 ≤ BGSS S :=
  Finset.sum_nonneg fun _ _ => mul_nonneg (Nat.cast_nonneg _) (dist2_nonneg _ _)

theorem meanScatter_nonneg (S : Stream d) (c : ℤ) : 0 ≤ meanScatter S c :=
  div_nonneg (scatter_nonneg S c) (Nat.cast_nonneg _)

theorem sep_nonneg (S : Stream d) (a b : ℤ) : 0 ≤ sep S a b := dist2_nonneg _ _

theorem sep_comm (S : Stream d) (a b : ℤ) : sep S a b = sep S b a := dist2_comm _ _

theorem numClusters_le (S : Stream d) : numClusters S ≤ S.length := by
  simpa [numClusters, labels] using List.toFinset_card_le (S.map Prod.snd)

/-! ## Key lists for a data set -/

/-- `ks` lists every label of `S` exactly once. -/
structure KeysOf (ks : List ℤ) (S : Stream d) : Prop where
  nodup : ks.Nodup
  mem : ∀ c, c ∈ ks ↔ c ∈ labels S

theorem keysOf_keys (S : Stream d) : KeysOf (keys S) S := ⟨keys_nodup S, fun _ => mem_keys⟩

theorem KeysOf.length {ks : List ℤ} {S : Stream d} (h : KeysOf ks S) : ks.length = numClusters S := by
  have : labels S = ks.toFinset := by ext c; simp [h.mem]
  rw [numClusters, this, List.toFinset_card_of_nodup h.nodup]

theorem KeysOf.sum {ks : List ℤ} {S : Stream d} (h : KeysOf ks S) (f : ℤ → ℝ) :
    (ks.map f).sum = ∑ c ∈ labels S, f c := by
  have : labels S = ks.toFinset := by ext c; simp [h.mem]
  rw [this, List.sum_toFinset f h.nodup]

theorem KeysOf.sumX {ks : List ℤ} {S : Stream d} (h : KeysOf ks S) (f : ℤ → ℝ) :
    (ks.map fun c => XR.fin (f c)).sum = XR.fin (∑ c ∈ labels S, f c) := by
  rw [XR.sum_fin, h.sum]

end Verif
