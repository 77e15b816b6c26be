import Verif.Props.AnyArithBatch
import Verif.Props.IndexAccuracy64
import Verif.Gen.B64Batch

/-!
# C78, C79: batches are accurate; incremental and batch values agree

As C75 to C77, for one call with all samples.  The labels have to be `0, 1, .., k-1` (C10).
-/

namespace Verif.Gen
open Py Rounding

/-- A batch raises nothing and returns a finite number with relative error at most `err`, and the index it stands for is a positive number. -/
def BatchClose {F : Type} [Arith F] (val : F → ℝ) (fin : F → Prop) (d : ℕ) (I : Index) (S : Samples F) (o : Obj F) (err : ℝ) : Prop :=
  ∃ r s y, batchCall d I S [] o = .ok r { o with core := s } ∧ fin r ∧ Spec.value I (real val d S) = .fin y ∧ 0 < y ∧ |val r - y| ≤ err * y

section
variable {F : Type} [Arith F] {d : ℕ} {val : F → ℝ} {fin : F → Prop} {u η Ω M γ β : ℝ} {N : ℕ} {S : Samples F}

theorem BatchClose.of {I : Index} (hI : Common6 I) (hS : S.Dim d) (hk : 2 ≤ Spec.numClusters (real val d S)) {err : ℝ} {o : Obj F}
    (ho : o.core.isSetup = false)
    (hA : Accurate val fin d I S err (formula (labelRange (order S).length) (fun c => Stat.batch d (own S c))
      (colMeans d (S.map Prod.fst)) Arith.npSum (batchTable d S I) (batchQuotients d S) S.length I)) :
    BatchClose val fin d I S o err := by
  rw [numClusters_real] at hk
  have hI' : I ≠ .rCIP ∧ I ≠ .PS := by rcases hI with rfl | rfl | rfl | rfl | rfl | rfl <;> simp
  obtain ⟨s, h1, -⟩ := C70_batch I hI'.1 S [] hS (by simp) (by omega) (fun e => absurd e hI'.2) o ho
  rw [← batch_formula hI] at hA
  obtain ⟨h2, y, h3, h4, h5⟩ := hA
  have e : allRows S [] = S.map Prod.fst := List.append_nil _
  rw [e] at h1
  exact ⟨_, s, y, h1, h2, h3, h4, h5⟩

/-- **C78**: in every arithmetic that satisfies the standard model, one call with all samples returns the value of the index of the data
set, with relative error at most `450 * γ * N / β`. -/
theorem C78_batch (h : Setting F val fin u η Ω M γ N d) (B : StandardBatch F val fin u Ω N d) (hu : 0 < u) (hη : η ≤ u ^ 2)
    (hΩ : 1 ≤ u * Ω) (hηM : η * (d * M) ≤ u ^ 2) (hΩM : 1 ≤ u * Ω * M) (hM : 0 < M) (D : Inputs val fin M N d S)
    (hk : 2 ≤ Spec.numClusters (real val d S)) (hc : Spec.Consecutive (real val d S)) (hβ : 1000 * (γ * N) ≤ β) (I : Index)
    (hI : Separated β M I (real val d S)) (o : Obj F) (ho : o.core.isSetup = false) :
    BatchClose val fin d I S o (450 * (γ * N / β)) := by
  have T := h.batchTables B D (order_ne hk) hc
  exact .of hI.common D.dim hk ho (h.near hu hη hΩ hM D T hk hβ I h.npSums (fun _ => batch_isTable)
    (h.batchSpread B D (order_ne hk) hc) batch_isQuotients hηM hΩM hI)

end

open B64
variable {L : Lib} {d : ℕ} {M β : ℝ}

/-- **C79**: one call in binary64, in whatever order numpy adds. -/
theorem C79_batch64 (hL : L.Dots d) (hs : L.Sums) (hb : L.BatchSums d) (hd : 1 ≤ d) (I : Index) (S : Samples (F64 L)) (hS : S.Dim d)
    (hN : d * S.length ≤ 2 ^ 44) (hM0 : (2 : ℝ) ^ (-400 : ℤ) ≤ M) (hM : M ≤ (2 : ℝ) ^ (450 : ℤ))
    (hx : ∀ p ∈ S, ∀ a ∈ p.1, Fin a ∧ |val a| ≤ M) (hk : 2 ≤ Spec.numClusters (real (F := F64 L) val d S))
    (hc : Spec.Consecutive (real (F := F64 L) val d S))
    (hβ : (2 : ℝ) ^ (-42 : ℤ) * (d * S.length) ≤ β) (hI : Separated β M I (real (F := F64 L) val d S))
    (o : Obj (F64 L)) (ho : o.core.isSetup = false) :
    BatchClose (F := F64 L) val Fin d I S o ((2 : ℝ) ^ (-43 : ℤ) * (d * S.length) / β) := by
  have hne := order_ne hk
  have hn := List.length_pos_iff.mpr hne
  have h := setting64 hL hs hd hn hN hM0 hM
  have B : StandardBatch (F64 L) val Fin u Ω S.length d := F64.standardBatch hb
    (by have := (Nat.le_mul_of_pos_left S.length hd).trans hN; omega) (by omega)
  have D : Inputs val Fin M S.length d S := ⟨hS, hx, le_rfl⟩
  have T := h.batchTables B D hne hc
  exact .of hI.common hS hk ho (near64 hL hs hd I S hS hN hM0 hM hx hk hβ hI T h.npSums
    (fun _ => batch_isTable) (h.batchSpread B D hne hc) batch_isQuotients)

/-- **C79**: in binary64 the last number of an incremental run and the number of one call with the same samples differ by at most
`2 ^ -41 * d * n / β` of the latter. -/
theorem C79_agree (hL : L.Dots d) (hs : L.Sums) (hb : L.BatchSums d) (hd : 1 ≤ d) (I : Index) (S : Samples (F64 L)) (hS : S.Dim d)
    (hN : d * S.length ≤ 2 ^ 44) (hM0 : (2 : ℝ) ^ (-400 : ℤ) ≤ M) (hM : M ≤ (2 : ℝ) ^ (450 : ℤ))
    (hx : ∀ p ∈ S, ∀ a ∈ p.1, Fin a ∧ |val a| ≤ M) (hk : 2 ≤ Spec.numClusters (real (F := F64 L) val d S))
    (hc : Spec.Consecutive (real (F := F64 L) val d S))
    (hβ : (2 : ℝ) ^ (-42 : ℤ) * (d * S.length) ≤ β) (hI : Separated β M I (real (F := F64 L) val d S))
    (o : Obj (F64 L)) (ho : o.core.isSetup = false) :
    ∃ vs a b s, (feed (mod (F64 L) I) S (mod (F64 L) I).fresh).val = .ok (vs ++ [a]) ∧
      batchCall d I S [] o = .ok b { o with core := s } ∧ 0 < val b ∧
      |val a - val b| ≤ (2 : ℝ) ^ (-41 : ℤ) * (d * S.length) / β * val b := by
  obtain ⟨vs, a, y, a1, -, a2, a3, a4⟩ := C77_binary64 hL hs hd I S hS hN hM0 hM hx hk hβ hI
  obtain ⟨b, s, z, b1, -, b2, b3, b4⟩ := C79_batch64 hL hs hb hd I S hS hN hM0 hM hx hk hc hβ hI o ho
  clear hM0 hM hx hI
  obtain rfl : y = z := by rw [a2] at b2; exact XR.fin.inj b2
  have hn : 1 ≤ S.length := List.length_pos_iff.mpr (order_ne hk)
  have hdn : 0 < (d : ℝ) * S.length := by
    have hd' : (1 : ℝ) ≤ d := by exact_mod_cast hd
    have hn' : (1 : ℝ) ≤ S.length := by exact_mod_cast hn
    positivity
  have h42 : (2 : ℝ) ^ (-42 : ℤ) = 2 * (2 : ℝ) ^ (-43 : ℤ) := by norm_num
  have h41 : (2 : ℝ) ^ (-41 : ℤ) = 4 * (2 : ℝ) ^ (-43 : ℤ) := by norm_num
  rw [h42] at hβ
  rw [h41]
  have hp : 0 < (2 : ℝ) ^ (-43 : ℤ) := by positivity
  generalize (2 : ℝ) ^ (-43 : ℤ) = c at *
  have hβ0 : 0 < β := lt_of_lt_of_le (by positivity) hβ
  obtain ⟨e, he⟩ : ∃ e, e = c * (d * S.length) / β := ⟨_, rfl⟩
  have e0 : 0 < e := by rw [he]; positivity
  have e1 : 2 * e ≤ 1 := by rw [he, mul_div_assoc', div_le_one hβ0]; linarith
  rw [show 4 * c * (d * S.length) / β = 4 * e by rw [he]; ring]
  rw [← he] at a4 b4
  have hy := mul_le_mul_of_nonneg_right e1 a3.le
  have hb2 : y ≤ 2 * val b := by linarith [(abs_le.mp b4).1]
  refine ⟨vs, a, b, s, a1, b1, by linarith, ?_⟩
  have h1 := abs_sub (val a - y) (val b - y)
  rw [sub_sub_sub_cancel_right] at h1
  have h2 := mul_le_mul_of_nonneg_left hb2 e0.le
  linarith

/-! ## An example -/

/-- The six indices of the four points `0, 1` and `3, 4`: incremental and batch values differ by at most `2 ^ -33`, relatively. -/
theorem quads_agree {I : Index} (hI : Common6 I) :
    ∃ vs a b s, (feed (mod (F64 .plain) I) quads (mod (F64 .plain) I).fresh).val = .ok (vs ++ [a]) ∧
      batchCall 1 I quads [] (mod (F64 .plain) I).fresh = .ok b { (mod (F64 .plain) I).fresh with core := s } ∧ 0 < val b ∧
      |val a - val b| ≤ (2 : ℝ) ^ (-33 : ℤ) * val b := by
  have hk : 2 ≤ Spec.numClusters (real (F := F64 .plain) val 1 quads) := by rw [quads_real, Spec.numClusters, quadPts_labels]; simp
  have hl : quads.length = 4 := rfl
  have hc : Spec.Consecutive (real (F := F64 .plain) val 1 quads) := by
    rw [quads_real]
    intro c
    rw [Spec.numClusters, quadPts_labels, Finset.card_pair (by norm_num)]
    simp only [Finset.mem_insert, Finset.mem_singleton]
    push_cast
    omega
  obtain ⟨vs, a, b, s, h1, h2, h3, h4⟩ := C79_agree (M := 4) (β := 1 / 64) (Lib.plain_dots 1) Lib.plain_sums (Lib.plain_batchSums 1) le_rfl I
    quads quads_dim (by rw [hl]; norm_num) (le_trans (zpow_le_one_of_nonpos₀ (by norm_num) (by norm_num)) (by norm_num))
    (by
      have : (2 : ℝ) ^ (2 : ℤ) ≤ (2 : ℝ) ^ (450 : ℤ) := two_zpow_le (by norm_num)
      exact le_trans (by norm_num) this) quads_le hk hc (by rw [hl]; norm_num) (quads_real ▸ quadPts_separated hI)
    (mod (F64 .plain) I).fresh (by cases I <;> rfl)
  have h5 : (2 : ℝ) ^ (-41 : ℤ) * (((1 : ℕ) : ℝ) * (quads.length : ℝ)) / (1 / 64) ≤ (2 : ℝ) ^ (-33 : ℤ) := by rw [hl]; norm_num
  have h6 := mul_le_mul_of_nonneg_right h5 h3.le
  refine ⟨vs, a, b, s, h1, h2, h3, ?_⟩
  exact h4.trans h6

end Verif.Gen
