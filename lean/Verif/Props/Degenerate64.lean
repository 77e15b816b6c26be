import Verif.Props.Binary64
import Verif.Props.Ranges
import Verif.Gen.B64Plain
import Verif.Gen.B64Sign

/-!
# C74: degenerate partitions in binary64

In exact arithmetic NaN and infinity appear exactly on degenerate partitions (C28).  In binary64 they do not: the running mean of equal
samples is not always that sample, so six equal samples in two clusters have a finite positive CH, WB, XB, DB, GD43 and GD53.  What remains: CH is NaN
while every cluster has one sample.
-/

namespace Verif.Gen
open Py B64 Spec

/-- Six samples `0.1`, five in one cluster and one in the other. -/
def tenths : Samples (F64 .plain) :=
  [([lit 1 10], 0), ([lit 1 10], 1), ([lit 1 10], 0), ([lit 1 10], 0), ([lit 1 10], 0), ([lit 1 10], 0)]

theorem tenths_dim : tenths.Dim 1 := by
  intro p hp
  simp only [tenths, List.mem_cons, List.not_mem_nil, or_false] at hp
  rcases hp with rfl | rfl | rfl | rfl | rfl | rfl <;> rfl

theorem tenths_eq : ∀ p ∈ tenths, p.1 = [lit 1 10] := by
  intro p hp
  simp only [tenths, List.mem_cons, List.not_mem_nil, or_false] at hp
  rcases hp with rfl | rfl | rfl | rfl | rfl | rfl <;> rfl

theorem reals_eq : ∀ p ∈ reals tenths, p.1 = fun _ => val (lit 1 10) := by
  intro p hp
  obtain ⟨q, hq, rfl⟩ := List.mem_map.mp hp
  rw [tenths_eq q hq]
  rfl

theorem reals_labels : labels (reals tenths) = {0, 1} := by
  ext c
  simp only [labels, reals, tenths, List.map_cons, List.map_nil, List.mem_toFinset, List.mem_cons, List.not_mem_nil, or_false,
    Finset.mem_insert, Finset.mem_singleton]
  tauto

/-- The mean of equal points. -/
theorem centroid_equal {d : ℕ} {S : Stream d} {x : Pt d} (h : ∀ p ∈ S, p.1 = x) {c : ℤ} (hc : c ∈ labels S) : centroid S c = x := by
  have hne : cluster S c ≠ [] := by
    simp only [labels, List.mem_toFinset, List.mem_map] at hc
    obtain ⟨p, hp, rfl⟩ := hc
    intro e
    have : p.1 ∈ cluster S p.2 := List.mem_map.mpr ⟨p, List.mem_filter.mpr ⟨hp, by simp⟩, rfl⟩
    rw [e] at this
    cases this
  have hl : ∀ y ∈ cluster S c, y = x := by
    intro y hy
    obtain ⟨p, hp, rfl⟩ := List.mem_map.mp hy
    exact h p (List.mem_filter.mp hp).1
  rw [centroid, List.eq_replicate_of_mem hl]
  funext i
  have hp : ((cluster S c).length : ℝ) ≠ 0 := by exact_mod_cast (List.length_pos_iff.mpr hne).ne'
  simp only [meanOf, List.map_replicate, List.sum_replicate, List.length_replicate, nsmul_eq_mul]
  exact mul_div_cancel_left₀ _ hp

theorem reals_degenerate {I : Index} (hI : Common6 I) : ¬ NonDegenerate I (reals tenths) := by
  have h0 : centroid (reals tenths) 0 = centroid (reals tenths) 1 := by
    rw [centroid_equal reals_eq (by rw [reals_labels]; simp), centroid_equal reals_eq (by rw [reals_labels]; simp)]
  have hx : ¬ ∃ x y c, (x, c) ∈ reals tenths ∧ (y, c) ∈ reals tenths ∧ x ≠ y := by
    rintro ⟨x, y, c, h1, h2, h3⟩
    exact h3 ((reals_eq _ h1).trans (reals_eq _ h2).symm)
  have hd : ¬ CentroidsDistinct (reals tenths) := fun h =>
    h 0 (by rw [reals_labels]; simp) 1 (by rw [reals_labels]; simp) (by norm_num) h0
  have hf : ¬ CentroidsDiffer (reals tenths) := by
    rintro ⟨a, ha, b, hb, h⟩
    exact h ((centroid_equal reals_eq ha).trans (centroid_equal reals_eq hb).symm)
  rcases hI with rfl | rfl | rfl | rfl | rfl | rfl
  all_goals first | exact hx | exact hd | exact hf

/-- A positive finite number. -/
def isPos : B64 → Bool
  | .fin false m => decide (m ≠ 0)
  | _ => false

theorem isPos_spec {a : B64} (h : isPos a = true) : Fin a ∧ 0 < val a := by
  match a, h with
  | .fin false m, h =>
    refine ⟨trivial, ?_⟩
    have : 0 < m := Nat.pos_of_ne_zero (by simpa [isPos] using h)
    rw [val_fin, signed_cast, if_neg (by simp), one_mul]
    exact mul_pos (by exact_mod_cast this) lam_pos

theorem tenths_pos {I : Index} (hI : Common6 I) : isPos (value (F := F64 .plain) 1 I tenths) = true := by
  rcases hI with rfl | rfl | rfl | rfl | rfl | rfl <;> decide +kernel

/-- The values returned end with the one for the whole stream. -/
theorem run_last {F : Type} [Arith F] {d : ℕ} {I : Index} (hI : I ≠ .rCIP) {S : Samples F} (hS : S.Dim d) (hne : S ≠ []) :
    ∃ vs, (feed (mod F I) S (mod F I).fresh).val = .ok (vs ++ [value d I S]) := by
  refine ⟨(S.inits.tail.dropLast).map (value d I), ?_⟩
  have h : S.inits.tail.getLast? = some S := by rw [getLast?_inits_tail, if_neg hne]
  rw [C62_every_arithmetic I hI S hS]
  conv_lhs => rw [← List.dropLast_append_getLast? S h]
  rw [List.map_append]
  rfl

theorem ne_of_common {I : Index} (hI : Common6 I) : I ≠ .rCIP ∧ I ≠ .cSIL ∧ DimOk I 1 := by
  rcases hI with rfl | rfl | rfl | rfl | rfl | rfl <;> simp [DimOk]

theorem tenths_exact {I : Index} (hI : Common6 I) (v : XR) (hv : incLast I (reals tenths) = .ok (some v)) : ¬ v.IsFin := by
  have hk : 2 ≤ numClusters (reals tenths) := by rw [numClusters, reals_labels]; simp
  obtain ⟨-, h1, h2⟩ := ne_of_common hI
  exact fun h => reals_degenerate hI ((C28_finite_inc I h1 h2 _ hk v hv).mp h)

theorem tenths_ne : tenths ≠ [] := List.cons_ne_nil _ _

theorem tenths_run {I : Index} (hI : Common6 I) :
    ∃ vs v, (feed (mod (F64 .plain) I) tenths (mod (F64 .plain) I).fresh).val = .ok (vs ++ [v]) ∧ Fin v ∧ 0 < val v := by
  obtain ⟨vs, h⟩ := run_last (ne_of_common hI).1 tenths_dim tenths_ne
  have hp := isPos_spec (tenths_pos hI)
  generalize value 1 I tenths = v at h hp
  exact ⟨vs, v, h, hp⟩

/-- **C74** is false: equal samples in two clusters are degenerate for these classes, in exact arithmetic no number is returned, and in binary64 a
positive number is. -/
theorem C74_false (I : Index) (hI : Common6 I) :
    ∃ S : Samples (F64 .plain), (∀ p ∈ S, p.1 = [lit 1 10]) ∧ ¬ NonDegenerate I (reals S) ∧
      (∀ v, incLast I (reals S) = .ok (some v) → ¬ v.IsFin) ∧
      ∃ vs v, (feed (mod (F64 .plain) I) S (mod (F64 .plain) I).fresh).val = .ok (vs ++ [v]) ∧ Fin v ∧ 0 < val v := by
  obtain ⟨vs, v, h⟩ := tenths_run hI
  exact ⟨tenths, tenths_eq, reals_degenerate hI, tenths_exact hI, vs, v, h⟩

/-! ## One sample per cluster -/

theorem zeros : ∀ l : List B64, (∀ a ∈ l, a = fin false 0) → l.foldl add (fin false 0) = fin false 0
  | [], _ => rfl
  | a :: l, h => by
    rw [List.foldl_cons, h a (by simp)]
    exact zeros l fun b hb => h b (by simp [hb])

/-- Anything divided by zero and multiplied by zero is NaN. -/
theorem div_zero_mul_zero (a : B64) (s t : Bool) : mul (div a (fin s 0)) (fin t 0) = nan := by
  cases a with
  | fin r m => by_cases h : m = 0 <;> simp [div, mul, h]
  | inf r => simp [div, mul]
  | nan => rfl

/-- **C74**, what holds: in binary64, whatever the library, CH returns NaN while there are two or more clusters and each has one
sample. -/
theorem C74_partial {L : Lib} {d : ℕ} (S : Samples (F64 L)) (hS : S.Dim d) (h2 : 2 ≤ (order S).length)
    (h1 : ∀ c ∈ order S, (own S c).length = 1) :
    ∃ vs, (feed (mod (F64 L) .CH) S (mod (F64 L) .CH).fresh).val = .ok (vs ++ [F64.nan]) := by
  have hne : S ≠ [] := by rintro rfl; simp [order] at h2
  obtain ⟨vs, h⟩ := run_last (I := .CH) (by simp) hS hne
  refine ⟨vs, h.trans ?_⟩
  have hcp : ∀ c ∈ order S, (stat S c).cp = (fin false 0 : B64) := by
    intro c hc
    obtain ⟨x, hx⟩ := List.length_eq_one_iff.mp (h1 c hc)
    rw [stat, hx]
    rfl
  have hlen : S.length = (order S).length := by
    rw [length_eq_sum_own, List.map_congr_left h1, List.map_const', List.sum_replicate, smul_eq_mul, mul_one]
  have hz : (Arith.pySum ((order S).map fun c => (stat S c).cp) : F64 L) = fin false 0 :=
    zeros _ fun a ha => by
      obtain ⟨c, hc, rfl⟩ := List.mem_map.mp ha
      exact hcp c hc
  have hf : (Arith.chFactor S.length (order S).length : F64 L) = fin false 0 := by
    show intDiv ((S.length : ℤ) - (order S).length) ((order S).length - 1) = fin false 0
    have h0 : ((order S).length : ℤ) - 1 ≠ 0 := by omega
    have e2 : (0 : ℤ).natAbs * unit = 0 := Nat.zero_mul unit
    rw [hlen, sub_self, intDiv, if_neg h0, e2, decide_eq_false (by simp)]
    exact ofMag_zero _ (by omega)
  have hv : value d .CH S = (F64.nan : F64 L) := by
    rw [value, if_neg (by omega)]
    show Arith.pySum ((order S).map (separation S)) / Arith.pySum ((order S).map fun c => (stat S c).cp) *
      Arith.chFactor S.length (order S).length = _
    rw [hz, hf]
    exact div_zero_mul_zero _ _ _
  rw [hv]

/-- Two clusters of one sample each. -/
example : (feed (mod (F64 .plain) .CH) [([lit 1 10], 4), ([lit 7 10], -1)] (mod (F64 .plain) .CH).fresh).val.toOption =
    some [0, F64.nan] := by decide +kernel

end Verif.Gen
