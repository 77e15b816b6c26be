import Verif.Gen.RoundingSum
import Verif.Gen.Uniform
import Verif.Spec

/-! # The real numbers a stream of floats stands for -/

namespace Verif.Gen

variable {F : Type} [Arith F]

/-- The points that a stream of floats stands for. -/
def real (val : F → ℝ) (d : ℕ) (S : Samples F) : Spec.Stream d := S.map fun p => (fun i => val (p.1.getD i 0), p.2)

variable (val : F → ℝ) (d : ℕ) (S : Samples F) (c : ℤ)

theorem labels_real : Spec.labels (real val d S) = (order S).toFinset := by
  ext c
  simp [Spec.labels, real, mem_order]

theorem numClusters_real : Spec.numClusters (real val d S) = (order S).length := by
  rw [Spec.numClusters, labels_real, List.toFinset_card_of_nodup (order_nodup S)]

theorem cluster_real : Spec.cluster (real val d S) c = (own S c).map fun x (i : Fin d) => val (x.getD i 0) := by
  simp [Spec.cluster, real, own, List.filter_map, Function.comp_def]

theorem size_real : Spec.size (real val d S) c = (own S c).length := by
  rw [Spec.size, cluster_real, List.length_map]

theorem centroid_real (i : Fin d) : Spec.centroid (real val d S) c i = Rounding.mean val (own S c) i := by
  rw [Spec.centroid, Spec.meanOf, cluster_real]
  simp [Rounding.mean, Function.comp_def]

theorem mean_real (i : Fin d) : Spec.mean (real val d S) i = Rounding.mean val (S.map Prod.fst) i := by
  simp [Spec.mean, Spec.meanOf, real, Rounding.mean, Function.comp_def]

theorem list_sum_comm {ι κ : Type} (l : List ι) (s : Finset κ) (f : ι → κ → ℝ) :
    (l.map fun x => ∑ j ∈ s, f x j).sum = ∑ j ∈ s, (l.map fun x => f x j).sum := by
  induction l with
  | nil => simp
  | cons a l ih => simp [ih, Finset.sum_add_distrib]

theorem scatter_real : Spec.scatter (real val d S) c = Rounding.scatter val (own S c) d := by
  have e : ∀ x : List F, Spec.dist2 (fun i : Fin d => val (x.getD i 0)) (Spec.centroid (real val d S) c) =
      ∑ j ∈ Finset.range d, (val (x.getD j 0) - Rounding.mean val (own S c) j) ^ 2 := by
    intro x
    rw [Spec.dist2, Finset.sum_range]
    exact Finset.sum_congr rfl fun i _ => by rw [centroid_real]
  rw [Spec.scatter, cluster_real, List.map_map]
  simp only [Function.comp_def, e]
  rw [list_sum_comm]
  simp [Rounding.scatter, Rounding.column, Rounding.mean, Function.comp_def]

theorem sum_range_list (f : ℕ → ℝ) (d : ℕ) : ∑ j ∈ Finset.range d, f j = ((List.range d).map f).sum := by
  rw [← List.toFinset_range, List.sum_toFinset f List.nodup_range]

theorem sep_real (a b : ℤ) : Spec.sep (real val d S) a b =
    ((List.range d).map fun j => (Rounding.mean val (own S a) j - Rounding.mean val (own S b) j) ^ 2).sum := by
  rw [Spec.sep, Spec.dist2, ← sum_range_list, Finset.sum_range]
  exact Finset.sum_congr rfl fun i _ => by rw [centroid_real, centroid_real]

theorem dist2_real : Spec.dist2 (Spec.centroid (real val d S) c) (Spec.mean (real val d S)) =
    ((List.range d).map fun j => (Rounding.mean val (own S c) j - Rounding.mean val (S.map Prod.fst) j) ^ 2).sum := by
  rw [Spec.dist2, ← sum_range_list, Finset.sum_range]
  exact Finset.sum_congr rfl fun i _ => by rw [centroid_real, mean_real]

theorem WGSS_real : Spec.WGSS (real val d S) = ((order S).map fun c => Rounding.scatter val (own S c) d).sum := by
  rw [Spec.WGSS, labels_real, List.sum_toFinset _ (order_nodup S)]
  simp only [scatter_real]

theorem BGSS_real : Spec.BGSS (real val d S) = ((order S).map fun c => ((own S c).length : ℝ) *
    ((List.range d).map fun j => (Rounding.mean val (own S c) j - Rounding.mean val (S.map Prod.fst) j) ^ 2).sum).sum := by
  rw [Spec.BGSS, labels_real, List.sum_toFinset _ (order_nodup S)]
  simp only [size_real, dist2_real]

theorem length_real : (real val d S).length = S.length := List.length_map ..

end Verif.Gen
