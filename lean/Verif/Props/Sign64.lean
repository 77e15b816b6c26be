import Verif.Props.BatchAccuracy
import Verif.Props.Negative64
import Verif.Gen.B64Sign

/-!
# C80: are the indices ever negative in binary64?

CH, WB, XB, DB, GD43 and GD53 are quotients of sums of squares, and in exact arithmetic they are never negative (C27).  In binary64:

* a batch never returns a negative number, whatever the data (NaN, infinite and subnormal features included) and in whatever order numpy adds;
* an incremental run of DB neither;
* an incremental run of the other five does: the compactness is updated with a term that may be negative, and with two features
  the rounded compactness can fall below zero, although nothing overflows or underflows;
* if the data are not too badly conditioned (C77), incremental values are positive.
-/

namespace Verif.Gen
open Py B64 Rounding

/-! ## Batches -/

section
variable {L : Lib} {d : ℕ}

/-- **C80**, batches: for any data with one or more features and labels of at least two values, in binary64, a call with all rows returns a number
that is not less than zero.  Rows `E` beyond the labels are allowed, and features that are NaN, infinite or subnormal. -/
theorem C80_batch_partial (hs : L.Sums) (hb : L.BatchSums d) (hd : 1 ≤ d) (I : Index) (hI : Common6 I) (S : Samples (F64 L))
    (E : List (List (F64 L))) (hS : S.Dim d) (hE : ∀ x ∈ E, x.length = d) (hk : 1 < (order S).length) (o : Obj (F64 L))
    (ho : o.core.isSetup = false) :
    ∃ r s, batchCall d I S E o = .ok r { o with core := s } ∧ lt r (fin false 0) = false := by
  have hI' : I ≠ .rCIP ∧ I ≠ .PS := by rcases hI with rfl | rfl | rfl | rfl | rfl | rfl <;> simp
  obtain ⟨s, h1, -⟩ := C70_batch I hI'.1 S E hS hE hk (fun e => absurd e hI'.2) o ho
  refine ⟨_, s, h1, NotNeg.lt (Plus.notNeg ((F64.batchSigns hs hb).batch hd hI ?_ hk ?_))⟩
  · intro i x hx
    obtain ⟨p, hp, rfl⟩ := List.mem_map.mp hx
    exact hS p (List.mem_filter.mp hp).1
  · rw [allRows, List.length_append, List.length_map]
    have := Inputs.clusters_le (S := S)
    omega

/-- Features that are NaN, infinite and ordinary: the batch value of CH is not less than zero. -/
example : ∃ r s, batchCall 1 .CH [([F64.nan], 0), ([B64.inf true], 1), ([lit 1 10], 0), ([lit 1 3], 5)] [] (mod (F64 .plain) .CH).fresh =
    .ok r { (mod (F64 .plain) .CH).fresh with core := s } ∧ lt r (fin false 0) = false :=
  C80_batch_partial Lib.plain_sums (Lib.plain_batchSums 1) le_rfl .CH (.inl rfl) _ []
    (by intro p hp; simp only [List.mem_cons, List.not_mem_nil, or_false] at hp; rcases hp with rfl | rfl | rfl | rfl <;> rfl)
    (by simp) (by decide) _ rfl

/-- The samples on which incremental runs go below zero: batches do not. -/
theorem beams_batch (I : Index) (hI : Common6 I) :
    ∃ r s, batchCall 2 I (beams I) [] (mod (F64 .plain) I).fresh = .ok r { (mod (F64 .plain) I).fresh with core := s } ∧
      lt r (fin false 0) = false :=
  C80_batch_partial Lib.plain_sums (Lib.plain_batchSums 2) (by norm_num) I hI _ [] (beams_dim I) (by simp)
    (by cases I <;> decide) _ (by cases I <;> rfl)

/-! ## DB, incrementally -/

/-- **C80**, DB: in binary64 no number that an incremental run of DB returns is less than zero, whatever the samples. -/
theorem C80_DB_partial (hs : L.Sums) (S : Samples (F64 L)) (hS : S.Dim d) :
    ∃ vs, (feed (mod (F64 L) .DB) S (mod (F64 L) .DB).fresh).val = .ok vs ∧ ∀ v ∈ vs, lt v (fin false 0) = false := by
  refine ⟨_, C62_every_arithmetic .DB (by simp) S hS, ?_⟩
  exact mem_map_of (p := fun v : F64 L => lt v (fin false 0) = false) fun T => NotNeg.lt ((F64.signs hs).inc_DB T)

/-! ## Well-conditioned data, incrementally -/

/-- **C80**, incremental runs: under the conditions of C77 the last number is finite and positive. -/
theorem C80_separated_partial {M β : ℝ} (hL : L.Dots d) (hs : L.Sums) (hd : 1 ≤ d) (I : Index) (S : Samples (F64 L)) (hS : S.Dim d)
    (hN : d * S.length ≤ 2 ^ 44) (hM0 : (2 : ℝ) ^ (-400 : ℤ) ≤ M) (hM : M ≤ (2 : ℝ) ^ (450 : ℤ))
    (hx : ∀ p ∈ S, ∀ a ∈ p.1, Fin a ∧ |val a| ≤ M) (hk : 2 ≤ Spec.numClusters (real (F := F64 L) val d S))
    (hβ : (2 : ℝ) ^ (-42 : ℤ) * (d * S.length) ≤ β) (hI : Separated β M I (real (F := F64 L) val d S)) :
    ∃ vs v, (feed (mod (F64 L) I) S (mod (F64 L) I).fresh).val = .ok (vs ++ [v]) ∧ Fin v ∧ 0 < val v := by
  obtain ⟨vs, v, y, h1, h2, -, h3, h4⟩ := C77_binary64 hL hs hd I S hS hN hM0 hM hx hk hβ hI
  clear hM0 hM hx hI
  refine ⟨vs, v, h1, h2, ?_⟩
  have hn : 1 ≤ S.length := List.length_pos_iff.mpr (order_ne hk)
  have hdn : 0 < (d : ℝ) * S.length := by
    have hd' : (1 : ℝ) ≤ d := by exact_mod_cast hd
    have hn' : (1 : ℝ) ≤ S.length := by exact_mod_cast hn
    positivity
  have h42 : (2 : ℝ) ^ (-42 : ℤ) = 2 * (2 : ℝ) ^ (-43 : ℤ) := by norm_num
  rw [h42] at hβ
  have hp : 0 < (2 : ℝ) ^ (-43 : ℤ) := by positivity
  generalize (2 : ℝ) ^ (-43 : ℤ) = c at *
  have hβ0 : 0 < β := lt_of_lt_of_le (by positivity) hβ
  have e1 : c * (d * S.length) / β ≤ 1 / 2 := by rw [div_le_iff₀ hβ0]; linarith
  have h5 := mul_le_mul_of_nonneg_right e1 h3.le
  have h6 := (abs_le.mp h4).1
  linarith

end
end Verif.Gen
