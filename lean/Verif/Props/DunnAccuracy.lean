import Verif.Props.IndexAccuracy

/-!
# C76: the values of GD43, GD53 and DB are accurate

As C75.  The quotients are not taken of sums over all samples but of mean scatters and squared distances of centroids; the bound
`T = d * M ^ 2` is the one for a single sample.
-/

namespace Verif.Gen
open Py Rounding

variable {F : Type} [Arith F] {d : ℕ} {val : F → ℝ} {fin : F → Prop} {u η Ω M γ β : ℝ} {N : ℕ} {S : Samples F}

section
variable (h : Setting F val fin u η Ω M γ N d) (hu : 0 < u) (hη : η ≤ u ^ 2) (hΩ : 1 ≤ u * Ω) (hM : 0 < M) (D : Inputs val fin M N d S)
  (hk : 2 ≤ Spec.numClusters (real val d S)) (hβ : 1000 * (γ * N) ≤ β)
include h hu hη hΩ hM D hk hβ

/-- **C76** for GD53. -/
theorem C76_GD53 (hP : ∀ a ∈ Spec.labels (real val d S), ∀ b ∈ Spec.labels (real val d S), a ≠ b →
      β * (d * M ^ 2) ≤ (Spec.scatter (real val d S) a + Spec.scatter (real val d S) b) /
        ((Spec.size (real val d S) a : ℝ) + Spec.size (real val d S) b)) :
    Close val fin d .GD53 S (430 * (γ * N / β)) :=
  .of (by simp [Common6]) D.dim hk (h.near_GD53 hu hη hΩ hM D (h.tables D (order_ne hk)) hk hβ (isTable_inc .GD53) hP)

omit hη in
/-- **C76** for GD43. -/
theorem C76_GD43 (hηM : η * (d * M) ≤ u ^ 2) (hΩM : 1 ≤ u * Ω * M)
    (hL : β * (d * M ^ 2) ≤ sInf (Spec.pairValues (real val d S) (Spec.sep (real val d S))))
    (hD : β * (d * M ^ 2) ≤ sSup {r | ∃ c ∈ Spec.labels (real val d S), r = Spec.meanScatter (real val d S) c}) :
    Close val fin d .GD43 S (430 * (γ * N / β)) :=
  .of (by simp [Common6]) D.dim hk
    (h.near_GD43 hu hΩ hM D (h.tables D (order_ne hk)) hk hβ (isTable_inc .GD43) hηM hΩM hL hD)

/-- **C76** for DB. -/
theorem C76_DB (hL : ∀ a ∈ Spec.labels (real val d S), ∀ b ∈ Spec.labels (real val d S), a ≠ b →
      β * (d * M ^ 2) ≤ Spec.sep (real val d S) a b ∧
      2 * (β * (d * M ^ 2)) ≤ Spec.meanScatter (real val d S) a + Spec.meanScatter (real val d S) b) :
    Close val fin d .DB S (450 * (γ * N / β)) :=
  .of (by simp [Common6]) D.dim hk (h.near_DB hu hη hΩ hM D (h.tables D (order_ne hk)) hk hβ
    (fun _ hc => h.spread D (h.tables D (order_ne hk)) hc) isQuotients_inc hL)

end
end Verif.Gen
