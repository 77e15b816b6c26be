import Verif.Props.AnyArith
import Verif.Gen.R53

/-!
# C68, C69: the recorded centroids and compactnesses are accurate

In float arithmetic (`Standard`: relative error `u` per operation, absolute error `η` when a product underflows) the running mean of
`n` samples differs from their mean by at most `(n - 1) * (4 * u * M + 3 * η)`, where `M` bounds the features.  Errors do not blow
up however long the stream is.

The compactness differs from the sum of squared distances to the mean by at most `128 * γ * n ^ 2 * d * M ^ 2`: relative to the largest
value it can have, by `128 * γ * n`.
-/

namespace Verif.Gen
open Py

variable {F : Type} [Arith F] {d : ℕ} {val : F → ℝ} {fin : F → Prop} {u η Ω M : ℝ} {N : ℕ}

/-- **C68**: the centroid recorded for a label, after any stream that raised nothing. -/
theorem C68_centroid (hF : Standard F val fin u η Ω N) (hu : 0 ≤ u) (hu1 : u ≤ 1 / 16) (hη : 0 ≤ η) (huN : 4 * u * N ≤ 1)
    (hM : 0 ≤ M) (hΩ : 4 * M + (6 * N + 3) * η ≤ Ω) (I : Index) (hi : I = .rCIP → InvShape F d) (S : Samples F) (hS : S.Dim d)
    (hx : ∀ p ∈ S, ∀ a ∈ p.1, fin a ∧ |val a| ≤ M) {vs : List F} {o : Obj F}
    (h : feed (mod F I) S (mod F I).fresh = .ok vs o) {c : ℤ} (hc : ∃ x, (x, c) ∈ S) (hN : (own S c).length ≤ N) {j : ℕ}
    (hj : j < d) :
    ∃ v a, o.centroid c = some v ∧ v[j]? = some a ∧ fin a ∧
      |val a - ((own S c).map fun x => val (x.getD j 0)).sum / (own S c).length| ≤
        ((own S c).length - 1) * (4 * u * M + 3 * η) := by
  have hne : S ≠ [] := by rintro rfl; obtain ⟨x, hx⟩ := hc; cases hx
  have hc' := (C63_own_samples I hi S hS hne h).1 c hc
  obtain ⟨a, h1, h2, h3⟩ := Rounding.centroid hF hu hu1 hη huN hΩ hM (l := own S c) (d := d)
    (fun e => (own_eq_nil S).mp e ((mem_order S).mpr hc)) (fun x hx => own_length S x hS hx)
    (fun x hx' a ha => by
      simp only [own, List.mem_map, List.mem_filter] at hx'
      obtain ⟨p, ⟨hp, _⟩, rfl⟩ := hx'
      exact hx p hp a ha) hN hj
  exact ⟨_, a, hc'.2.1, h1, h2, h3⟩

/-- **C68** for the mean of all samples that CH, WB, XB, DB, GD43 and GD53 keep. -/
theorem C68_mean (hF : Standard F val fin u η Ω N) (hu : 0 ≤ u) (hu1 : u ≤ 1 / 16) (hη : 0 ≤ η) (huN : 4 * u * N ≤ 1)
    (hM : 0 ≤ M) (hΩ : 4 * M + (6 * N + 3) * η ≤ Ω) (I : Index) (hI : Common6 I) (S : Samples F) (hS : S.Dim d) (hne : S ≠ [])
    (hx : ∀ p ∈ S, ∀ a ∈ p.1, fin a ∧ |val a| ≤ M) (hN : S.length ≤ N) {vs : List F} {o : Obj F}
    (h : feed (mod F I) S (mod F I).fresh = .ok vs o) {j : ℕ} (hj : j < d) :
    ∃ a, o.core.mu[j]? = some a ∧ fin a ∧
      |val a - (S.map fun p => val (p.1.getD j 0)).sum / S.length| ≤ (S.length - 1) * (4 * u * M + 3 * η) := by
  have hi : I = .rCIP → InvShape F d := by rintro rfl; rcases hI with h | h | h | h | h | h <;> cases h
  obtain ⟨-, hR, -⟩ := after hi hS hne h
  obtain ⟨a, h1, h2, h3⟩ := Rounding.centroid hF hu hu1 hη huN hΩ hM (l := S.map Prod.fst) (d := d) (by simpa using hne)
    (fun x hx => by
      obtain ⟨p, hp, rfl⟩ := List.mem_map.mp hx
      exact hS p hp)
    (fun x hx' a ha => by
      obtain ⟨p, hp, rfl⟩ := List.mem_map.mp hx'
      exact hx p hp a ha) (by simpa using hN) hj
  refine ⟨a, ?_, h2, ?_⟩
  · rw [(held_common hI hR).mu, Rounding.mu_eq]; exact h1
  · simpa [Rounding.mean, Function.comp_def] using h3

/-- A million samples of size at most 1 in one cluster, 53 digits: the centroid is accurate to `10 ^ -9`. -/
example (S : Samples R53) (hS : S.Dim 1) (hx : ∀ p ∈ S, ∀ a ∈ p.1, |a.val| ≤ 1) {vs : List R53} {o : Obj R53}
    (h : feed (mod R53 .CH) S (mod R53 .CH).fresh = .ok vs o) (hc : ∃ x, (x, 3) ∈ S) (hN : (own S 3).length = 1000000) :
    ∃ v a, o.centroid 3 = some v ∧ v[0]? = some a ∧
      |a.val - ((own S 3).map fun x => (x.getD 0 0).val).sum / (own S 3).length| ≤ 1 / 10 ^ 9 := by
  obtain ⟨v, a, h1, h2, -, h3⟩ := C68_centroid (R53.standard 4 1000000) (by positivity) (by norm_num) le_rfl (by norm_num)
    (M := 1) (by norm_num) (by norm_num) .CH (by simp) S hS (fun p hp a ha => ⟨trivial, hx p hp a ha⟩) h hc hN.le
    (j := 0) (by norm_num)
  refine ⟨v, a, h1, h2, h3.trans ?_⟩
  rw [hN]
  norm_num

/-- **C69**: the compactness recorded for a label, after any stream that raised nothing, for CH, WB, XB, DB, GD43 and GD53. -/
theorem C69_compactness {γ : ℝ} (hF : StandardDot F val fin u η Ω N γ d) (hP : Rounding.Moderate u η Ω M γ N d) (hd : 1 ≤ d) (I : Index)
    (hI : Common6 I) (S : Samples F) (hS : S.Dim d) (hx : ∀ p ∈ S, ∀ a ∈ p.1, fin a ∧ |val a| ≤ M) {vs : List F} {o : Obj F}
    (h : feed (mod F I) S (mod F I).fresh = .ok vs o) {c : ℤ} (hc : ∃ x, (x, c) ∈ S) (hN : (own S c).length ≤ N) :
    ∃ a, o.compactness c = some a ∧ fin a ∧
      |val a - ∑ j ∈ Finset.range d, ((own S c).map fun x =>
          (val (x.getD j 0) - ((own S c).map fun x => val (x.getD j 0)).sum / (own S c).length) ^ 2).sum| ≤
        128 * γ * (own S c).length ^ 2 * (d * M ^ 2) := by
  have hne : S ≠ [] := by rintro rfl; obtain ⟨x, hx⟩ := hc; cases hx
  have hi : I = .rCIP → InvShape F d := by rintro rfl; rcases hI with h | h | h | h | h | h <;> cases h
  have hc' := (C63_own_samples I hi S hS hne h).1 c hc
  obtain ⟨h1, h2⟩ := Rounding.cp_scatter hF hP (l := own S c)
    (fun e => (own_eq_nil S).mp e ((mem_order S).mpr hc)) (fun x hx => own_length S x hS hx) hd
    (fun x hx' a ha => by
      simp only [own, List.mem_map, List.mem_filter] at hx'
      obtain ⟨p, ⟨hp, _⟩, rfl⟩ := hx'
      exact hx p hp a ha) hN
  refine ⟨_, hc'.2.2.1 hI, h1, ?_⟩
  simpa only [Rounding.scatter, Rounding.column, List.map_map, Function.comp_def] using h2

/-- A thousand samples with two features of size at most 1, 53 digits: the compactness is accurate to `10 ^ -7`. -/
example (S : Samples R53) (hS : S.Dim 2) (hx : ∀ p ∈ S, ∀ a ∈ p.1, |a.val| ≤ 1) {vs : List R53} {o : Obj R53}
    (h : feed (mod R53 .XB) S (mod R53 .XB).fresh = .ok vs o) (hc : ∃ x, (x, 0) ∈ S) (hN : (own S 0).length = 1000) :
    ∃ a, o.compactness 0 = some a ∧
      |a.val - ∑ j ∈ Finset.range 2, ((own S 0).map fun x =>
          ((x.getD j 0).val - ((own S 0).map fun x => (x.getD j 0).val).sum / (own S 0).length) ^ 2).sum| ≤ 1 / 10 ^ 7 := by
  obtain ⟨a, h1, -, h2⟩ := C69_compactness (R53.standardDot 146000 (N := 1000) (by norm_num) 2) (M := 1)
    ⟨by positivity, by norm_num, by norm_num, le_rfl, by positivity, by norm_num, by norm_num, by norm_num, by norm_num, by norm_num⟩
    (by norm_num) .XB (by simp [Common6]) S hS (fun p hp a ha => ⟨trivial, hx p hp a ha⟩) h hc hN.le
  refine ⟨a, h1, h2.trans ?_⟩
  rw [hN]
  norm_num

end Verif.Gen
