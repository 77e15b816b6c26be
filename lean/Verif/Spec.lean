import Verif.Num
import Mathlib.Data.Matrix.Basic
import Mathlib.LinearAlgebra.Matrix.NonsingularInverse
import Mathlib.Analysis.SpecialFunctions.Pow.Real
import Mathlib.Analysis.Real.Pi.Bounds
import Mathlib.Order.ConditionallyCompleteLattice.Basic
import Mathlib.Data.Finset.Lattice.Fold

/-!
# Specification: what the nine indices mean

A labelled data set is a list of pairs (point of `ℝ^d`, integer label).  Everything here is defined directly from the
data set; nothing refers to the model of the code.  Values are `XR` because the code returns floats: the degenerate cases
(coinciding centroids, zero scatter) are spelled out.
-/

namespace Verif.Spec

/-- A point of `ℝ^d`. -/
abbrev Pt (d : ℕ) := Fin d → ℝ

/-- A labelled data set, in arrival/row order. -/
abbrev Stream (d : ℕ) := List (Pt d × ℤ)

variable {d : ℕ}

/-- The labels that occur. -/
def labels (S : Stream d) : Finset ℤ := (S.map Prod.snd).toFinset

/-- Number of clusters. -/
def numClusters (S : Stream d) : ℕ := (labels S).card

/-- The points of cluster `c`. -/
def cluster (S : Stream d) (c : ℤ) : List (Pt d) := (S.filter fun p => decide (p.2 = c)).map Prod.fst

/-- The number of points of cluster `c`. -/
def size (S : Stream d) (c : ℤ) : ℕ := (cluster S c).length

/-- Arithmetic mean of a list of points. -/
noncomputable def meanOf (l : List (Pt d)) : Pt d := fun i => (l.map fun p => p i).sum / (l.length : ℝ)

/-- Centroid of cluster `c`. -/
noncomputable def centroid (S : Stream d) (c : ℤ) : Pt d := meanOf (cluster S c)

/-- Mean of all points. -/
noncomputable def mean (S : Stream d) : Pt d := meanOf (S.map Prod.fst)

/-- Squared Euclidean distance. -/
def dist2 (x y : Pt d) : ℝ := ∑ i, (x i - y i) ^ 2

/-- Sum of the squared distances of the points of cluster `c` to its centroid. -/
noncomputable def scatter (S : Stream d) (c : ℤ) : ℝ :=
  ((cluster S c).map fun p => dist2 p (centroid S c)).sum

/-- Within-group sum of scatters. -/
noncomputable def WGSS (S : Stream d) : ℝ := ∑ c ∈ labels S, scatter S c

/-- Between-group sum of scatters. -/
noncomputable def BGSS (S : Stream d) : ℝ := ∑ c ∈ labels S, (size S c : ℝ) * dist2 (centroid S c) (mean S)

/-- Float quotient of two non-negative reals: `nan` for `0/0`, `inf` for `a/0`. -/
noncomputable def ratio (a b : ℝ) : XR :=
  if b ≠ 0 then .fin (a / b) else if a ≠ 0 then .pinf else .nan

/-- The values `g a b` over all pairs of different clusters. -/
def pairValues (S : Stream d) (g : ℤ → ℤ → ℝ) : Set ℝ :=
  {r | ∃ a ∈ labels S, ∃ b ∈ labels S, a ≠ b ∧ r = g a b}

/-- The values `g c b` over all clusters `b` other than `c`. -/
def otherValues (S : Stream d) (c : ℤ) (g : ℤ → ℝ) : Set ℝ :=
  {r | ∃ b ∈ labels S, b ≠ c ∧ r = g b}

/-- Squared distance of two centroids. -/
noncomputable def sep (S : Stream d) (a b : ℤ) : ℝ := dist2 (centroid S a) (centroid S b)

/-- Mean scatter of a cluster: mean squared distance to the centroid. -/
noncomputable def meanScatter (S : Stream d) (c : ℤ) : ℝ := scatter S c / (size S c : ℝ)

/-! ## The indices -/

/-- Calinski–Harabasz: `BGSS / WGSS * (n - k) / (k - 1)`. -/
noncomputable def CH (S : Stream d) : XR :=
  if numClusters S ≤ 1 then .fin 0
  else if WGSS S ≠ 0 then
    .fin (BGSS S / WGSS S * (((S.length : ℝ) - numClusters S) / ((numClusters S : ℝ) - 1)))
  else if BGSS S ≠ 0 ∧ S.length ≠ numClusters S then .pinf
  else .nan

/-- WB index: `k * WGSS / BGSS`. -/
noncomputable def WB (S : Stream d) : XR :=
  if numClusters S ≤ 1 then .fin 0
  else if BGSS S ≠ 0 then .fin (WGSS S / BGSS S * numClusters S)
  else if WGSS S ≠ 0 then .pinf
  else .nan

/-- Xie–Beni: `WGSS / (n * min squared distance of centroids)`. -/
noncomputable def XB (S : Stream d) : XR :=
  if numClusters S ≤ 1 then .fin 0
  else ratio (WGSS S) (S.length * sInf (pairValues S (sep S)))

/-- Davies–Bouldin (with squared distances): mean over clusters of the largest `(S_c + S_b) / sep(c, b)`. -/
noncomputable def DB (S : Stream d) : XR :=
  if numClusters S ≤ 1 then .fin 0
  else if ∃ a ∈ labels S, ∃ b ∈ labels S, a ≠ b ∧ sep S a b = 0 ∧ meanScatter S a + meanScatter S b = 0 then .nan
  else if ∃ a ∈ labels S, ∃ b ∈ labels S, a ≠ b ∧ sep S a b = 0 then .pinf
  else .fin ((∑ c ∈ labels S, sSup (otherValues S c fun b => (meanScatter S c + meanScatter S b) / sep S c b))
    / numClusters S)

/-- Generalised Dunn 43: least distance of centroids over twice the largest mean scatter. -/
noncomputable def GD43 (S : Stream d) : XR :=
  if numClusters S ≤ 1 then .fin 0
  else ratio (sInf (pairValues S fun a b => Real.sqrt (sep S a b)))
    (2 * sSup {r | ∃ c ∈ labels S, r = meanScatter S c})

/-- Generalised Dunn 53: least pooled mean scatter of two clusters over twice the largest mean scatter. -/
noncomputable def GD53 (S : Stream d) : XR :=
  if numClusters S ≤ 1 then .fin 0
  else ratio (sInf (pairValues S fun a b => (scatter S a + scatter S b) / ((size S a : ℝ) + size S b)))
    (2 * sSup {r | ∃ c ∈ labels S, r = meanScatter S c})

/-- Mean of the centroids. -/
noncomputable def centroidMean (S : Stream d) : Pt d := fun i => (∑ c ∈ labels S, centroid S c i) / numClusters S

/-- Mean squared distance of the centroids to their mean. -/
noncomputable def beta (S : Stream d) : ℝ := (∑ c ∈ labels S, dist2 (centroid S c) (centroidMean S)) / numClusters S

/-- The largest cluster size. -/
def maxSize (S : Stream d) : ℕ := (labels S).sup (size S)

/-- Partition separation: sum of `n_c / n_max - exp(-(nearest other centroid) / beta)`. -/
noncomputable def PS (S : Stream d) : XR :=
  if numClusters S ≤ 1 then .fin 0
  else if beta S = 0 then .nan
  else .fin (∑ c ∈ labels S,
    ((size S c : ℝ) / maxSize S - Real.exp (-sInf (otherValues S c fun b => sep S c b) / beta S)))

/-- Sample covariance matrix of cluster `c` (zero for a singleton). -/
noncomputable def cov (S : Stream d) (c : ℤ) : Matrix (Fin d) (Fin d) ℝ :=
  Matrix.of fun i j =>
    ((cluster S c).map fun p => (p i - centroid S c i) * (p j - centroid S c j)).sum / ((size S c : ℝ) - 1)

/-- Regularised covariance: `cov + 10^(-12/d) I`. -/
noncomputable def regCov (S : Stream d) (c : ℤ) : Matrix (Fin d) (Fin d) ℝ :=
  cov S c + ((10 : ℝ) ^ (-(12 : ℝ) / (d : ℝ))) • (1 : Matrix (Fin d) (Fin d) ℝ)

/-- Cross information potential of two Gaussians: the density of `N(0, A)` at `w`. -/
noncomputable def gauss (A : Matrix (Fin d) (Fin d) ℝ) (w : Pt d) : ℝ :=
  1 / Real.sqrt ((2 * Real.pi) ^ d) * (1 / Real.sqrt A.det) * Real.exp (-(1 / 2) * ∑ i, ∑ j, w i * A⁻¹ i j * w j)

/-- Cross information potential of clusters `a` and `b`. -/
noncomputable def cip (S : Stream d) (a b : ℤ) : ℝ :=
  gauss (regCov S a + regCov S b) (fun i => centroid S a i - centroid S b i)

/-- Representative cross information potential: sum over unordered pairs of clusters. -/
noncomputable def rCIP (S : Stream d) : XR :=
  .fin (∑ a ∈ labels S, ∑ b ∈ (labels S).filter (fun b => a < b), cip S a b)

/-- Mean squared distance of the points of cluster `a` to the centroid of cluster `b`. -/
noncomputable def crossScatter (S : Stream d) (a b : ℤ) : ℝ :=
  ((cluster S a).map fun p => dist2 p (centroid S b)).sum / (size S a : ℝ)

/-- The nearest other cluster as seen from centroid `c`. -/
noncomputable def silOther (S : Stream d) (c : ℤ) : ℝ := sInf (otherValues S c fun b => crossScatter S b c)

/-- Centroid-based silhouette: mean over clusters of `(b_c - a_c) / max(a_c, b_c)`, `a_c = crossScatter c c`. -/
noncomputable def cSIL (S : Stream d) : XR :=
  if numClusters S ≤ 1 then .fin 0
  else if ∀ a ∈ labels S, ∀ b ∈ labels S, crossScatter S a b = 0 then .fin 0
  else if ∃ c ∈ labels S, crossScatter S c c = 0 ∧ silOther S c = 0 then .nan
  else .fin ((∑ c ∈ labels S,
    (silOther S c - crossScatter S c c) / max (crossScatter S c c) (silOther S c)) / numClusters S)

end Verif.Spec
