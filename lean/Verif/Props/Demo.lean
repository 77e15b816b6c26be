import Verif.Proofs.Run

/-! # A concrete data set used to show that hypotheses are satisfiable -/

namespace Verif
open Spec

/-- Three one-dimensional samples in two clusters. -/
noncomputable def demo : Stream 1 := [(![0], 0), (![2], 0), (![5], 1)]

theorem demo_labels : labels demo = {0, 1} := by
  ext c; simp [labels, demo]

theorem demo_numClusters : numClusters demo = 2 := by
  rw [numClusters, demo_labels]; rfl

theorem demo_consecutive : Consecutive demo := by
  intro c
  rw [demo_numClusters, demo_labels]
  simp only [Finset.mem_insert, Finset.mem_singleton]
  omega

theorem demo_two : 2 ≤ numClusters demo := demo_numClusters.ge

theorem demo_cluster0 : cluster demo 0 = [![0], ![2]] := by simp [cluster, demo]
theorem demo_cluster1 : cluster demo 1 = [![5]] := by simp [cluster, demo]

theorem demo_centroid0 : centroid demo 0 = ![1] := by
  funext i; fin_cases i
  norm_num [centroid, demo_cluster0, meanOf]

theorem demo_centroid1 : centroid demo 1 = ![5] := by
  funext i; fin_cases i
  norm_num [centroid, demo_cluster1, meanOf]

theorem demo_mean : mean demo = ![7 / 3] := by
  funext i; fin_cases i
  norm_num [mean, demo, meanOf]

theorem demo_scatter0 : scatter demo 0 = 2 := by
  norm_num [scatter, demo_cluster0, demo_centroid0, dist2]

theorem demo_scatter1 : scatter demo 1 = 0 := by
  norm_num [scatter, demo_cluster1, demo_centroid1, dist2]

theorem demo_WGSS : WGSS demo = 2 := by
  rw [WGSS, demo_labels, Finset.sum_pair (by decide), demo_scatter0, demo_scatter1]; norm_num

theorem demo_BGSS : BGSS demo = 32 / 3 := by
  rw [BGSS, demo_labels, Finset.sum_pair (by decide)]
  norm_num [size, demo_cluster0, demo_cluster1, demo_centroid0, demo_centroid1, demo_mean, dist2]

/-- The demo data is not degenerate: CH is a proper number. -/
theorem demo_CH : Spec.CH demo = .fin (16 / 3) := by
  have hl : demo.length = 3 := rfl
  rw [Spec.CH, if_neg (by rw [demo_numClusters]; decide), if_pos (by rw [demo_WGSS]; norm_num), demo_BGSS, demo_WGSS,
    demo_numClusters, hl]
  norm_num

end Verif
