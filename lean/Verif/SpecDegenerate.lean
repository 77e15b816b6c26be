import Verif.Api

/-!
# Specification: degenerate partitions and ranges

When a partition is degenerate for an index, said in terms of the data set only.
-/

namespace Verif
open Spec

variable {d : ℕ}

/-- Sum of squared distances of all samples to their mean. -/
noncomputable def totalScatter (S : Stream d) : ℝ := (S.map fun p => dist2 p.1 (mean S)).sum

/-- Some two clusters have different centroids. -/
def CentroidsDiffer (S : Stream d) : Prop := ∃ a ∈ labels S, ∃ b ∈ labels S, centroid S a ≠ centroid S b

/-- Any two clusters have different centroids. -/
def CentroidsDistinct (S : Stream d) : Prop := ∀ a ∈ labels S, ∀ b ∈ labels S, a ≠ b → centroid S a ≠ centroid S b

/-- The partition is not degenerate for the index: CH, GD43, GD53 need two different samples in one cluster, WB and PS two
different centroids, XB and DB pairwise different centroids, rCIP nothing; cSIL needs, unless all cross scatters vanish, that no
cluster has both zero own scatter and zero cross scatter from another cluster. -/
def NonDegenerate : Index → Stream d → Prop
  | .CH, S | .GD43, S | .GD53, S => ∃ x y c, (x, c) ∈ S ∧ (y, c) ∈ S ∧ x ≠ y
  | .WB, S | .PS, S => CentroidsDiffer S
  | .XB, S | .DB, S => CentroidsDistinct S
  | .rCIP, _ => True
  | .cSIL, S => (∀ a ∈ labels S, ∀ b ∈ labels S, crossScatter S a b = 0) ∨
      ∀ c ∈ labels S, crossScatter S c c ≠ 0 ∨ ∀ b ∈ labels S, b ≠ c → crossScatter S b c ≠ 0

end Verif
