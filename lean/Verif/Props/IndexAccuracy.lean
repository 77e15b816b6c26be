import Verif.Props.Degenerate64
import Verif.Gen.RoundingIndex

/-!
# C75: the values of CH, WB and XB are accurate

`real val d S` is the data set that a stream `S` of floats stands for, and `T = n * d * M ^ 2` a bound for the sums of squares of `n` samples
with `d` features of size at most `M`.  If the sums that are divided are at least `β * T`, the returned number has relative error at most
`430 * γ * N / β` with respect to the index of the data set, in every arithmetic that satisfies the standard model.
-/

namespace Verif.Gen
open Py Rounding

variable {F : Type} [Arith F] {d : ℕ} {val : F → ℝ} {fin : F → Prop} {u η Ω M γ β : ℝ} {N : ℕ} {S : Samples F}

/-- The last number that is returned is finite and has relative error at most `err`, and the index it stands for is a positive number. -/
def Close (val : F → ℝ) (fin : F → Prop) (d : ℕ) (I : Index) (S : Samples F) (err : ℝ) : Prop :=
  ∃ vs r y, (feed (mod F I) S (mod F I).fresh).val = .ok (vs ++ [r]) ∧ fin r ∧ Spec.value I (real val d S) = .fin y ∧ 0 < y ∧
    |val r - y| ≤ err * y

theorem Close.of {I : Index} (hI : Common6 I) (hS : S.Dim d) (hk : 2 ≤ Spec.numClusters (real val d S)) {err : ℝ}
    (hA : Accurate val fin d I S err (formula (order S) (stat S) (mu S) Arith.pySum (table I S) (quotients S) S.length I)) :
    Close val fin d I S err := by
  have hne := order_ne hk
  obtain ⟨vs, hv⟩ := run_last (I := I) (by rcases hI with rfl | rfl | rfl | rfl | rfl | rfl <;> simp) hS hne
  rw [numClusters_real] at hk
  rw [← value_formula hI (by omega) (d := d)] at hA
  obtain ⟨h1, y, h2, h3, h4⟩ := hA
  exact ⟨vs, _, y, hv, h1, h2, h3, h4⟩

section
variable (h : Setting F val fin u η Ω M γ N d) (hu : 0 < u) (hη : η ≤ u ^ 2) (hΩ : 1 ≤ u * Ω) (hM : 0 < M) (D : Inputs val fin M N d S)
  (hk : 2 ≤ Spec.numClusters (real val d S)) (hβ : 1000 * (γ * N) ≤ β) (hW : β * (S.length * (d * M ^ 2)) ≤ Spec.WGSS (real val d S))
include h hu hη hΩ hM D hk hβ hW

/-- **C75** for CH. -/
theorem C75_CH (hB : β * (S.length * (d * M ^ 2)) ≤ Spec.BGSS (real val d S)) : Close val fin d .CH S (430 * (γ * N / β)) :=
  .of (by simp [Common6]) D.dim hk
    (h.near_CH hu hη hΩ hM D (h.tables D (order_ne hk)) hk hβ (pySums h.full h.moderate.u0 h.du1.1) hW hB)

/-- **C75** for WB. -/
theorem C75_WB (hB : β * (S.length * (d * M ^ 2)) ≤ Spec.BGSS (real val d S)) : Close val fin d .WB S (430 * (γ * N / β)) :=
  .of (by simp [Common6]) D.dim hk
    (h.near_WB hu hη hΩ hM D (h.tables D (order_ne hk)) hk hβ (pySums h.full h.moderate.u0 h.du1.1) hW hB)

/-- **C75** for XB. -/
theorem C75_XB (hL : β * (d * M ^ 2) ≤ sInf (Spec.pairValues (real val d S) (Spec.sep (real val d S)))) :
    Close val fin d .XB S (430 * (γ * N / β)) :=
  .of (by simp [Common6]) D.dim hk (h.near_XB hu hη hΩ hM D (h.tables D (order_ne hk)) hk hβ (isTable_inc .XB) hW hL)

end
end Verif.Gen
