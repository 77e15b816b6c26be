import Verif.Props.SilAccuracy
import Verif.Gen.RoundingSilInc

/-!
# C88: what cSIL returns in incremental mode, in floats

In exact arithmetic an incremental cSIL object returns `CSIL.actual` (C19), which is not the index.  If for every cluster the larger of
the two numbers of its coefficient in exact arithmetic is at least `β * d * M ^ 2`, the value in floats is `CSIL.actual` up to
`3500 * γ * N / β ^ 2`; in every arithmetic that satisfies the standard model, and in binary64.  The square of `β` is there because the two
numbers may be negative, so that the coefficient is not between -1 and 1.

So the rounding errors do not make up for the error of the formulas: on four points the value in binary64 differs from the index by more
than 0.003.
-/

namespace Verif.Gen
open Py Rounding

section
variable {F : Type} [Arith F] {d : ℕ} {val : F → ℝ} {fin : F → Prop} {u η Ω M γ β : ℝ} {N : ℕ} {S : Samples F}

/-- The last number that an incremental cSIL object returns is finite, and differs by at most `err` from what it returns in exact
arithmetic. -/
def WithinActual (val : F → ℝ) (fin : F → Prop) (d : ℕ) (S : Samples F) (err : ℝ) : Prop :=
  ∃ vs r y, (feed (mod F .cSIL) S (mod F .cSIL).fresh).val = .ok (vs ++ [r]) ∧ fin r ∧ CSIL.actual (real val d S) = .fin y ∧ |val r - y| ≤ err

/-- **C88** in the standard model. -/
theorem C88_cSIL (h : Setting F val fin u η Ω M γ N d) (E : StandardSil F val fin u Ω d) (hu : 0 < u) (hη : η ≤ u ^ 2) (hΩ : 1 ≤ u * Ω)
    (hM : 0 < M) (D : Inputs val fin M N d S) (hk : 2 ≤ Spec.numClusters (real val d S)) (hβ : 1000 * (γ * N) ≤ β)
    (hm : SilApartInc (real val d S) (β * (d * M ^ 2))) : WithinActual val fin d S (3500 * (γ * N / β ^ 2)) := by
  have hne := order_ne hk
  obtain ⟨vs, hv⟩ := run_last (I := .cSIL) (by simp) D.dim hne
  rw [numClusters_real] at hk
  obtain ⟨f, y, h1, h2⟩ := h.near_cSIL_inc E D (by omega) hu hη hΩ hM hβ hm
  exact ⟨vs, _, y, hv, f, h1, h2⟩

end

open B64
variable {L : Lib} {d : ℕ} {M β : ℝ}

/-- **C88** in binary64, in whatever order numpy adds: the error is at most `2 ^ -40 * d * n / β ^ 2`. -/
theorem C88_cSIL64 (hL : L.Dots d) (hs : L.Sums) (hr : L.RowSums) (hd : 1 ≤ d) (S : Samples (F64 L))
    (hS : S.Dim d) (hN : d * S.length ≤ 2 ^ 44) (hM0 : (2 : ℝ) ^ (-400 : ℤ) ≤ M) (hM : M ≤ (2 : ℝ) ^ (450 : ℤ))
    (hx : ∀ p ∈ S, ∀ a ∈ p.1, Fin a ∧ |val a| ≤ M) (hk : 2 ≤ Spec.numClusters (real (F := F64 L) val d S))
    (hβ : (2 : ℝ) ^ (-42 : ℤ) * (d * S.length) ≤ β) (hm : SilApartInc (real (F := F64 L) val d S) (β * (d * M ^ 2))) :
    WithinActual (F := F64 L) val Fin d S ((2 : ℝ) ^ (-40 : ℤ) * (d * S.length) / β ^ 2) := by
  have hn := List.length_pos_iff.mpr (order_ne hk)
  have h := setting64 hL hs hd hn hN hM0 hM
  have hd50 : d ≤ 2 ^ 50 := by have := (Nat.le_mul_of_pos_right d hn).trans hN; omega
  have D : Inputs val Fin M S.length d S := ⟨hS, hx, le_rfl⟩
  obtain ⟨c1, c2, c3, c4, -⟩ := consts64 hd hn hN hβ
  obtain ⟨vs, r, y, h1, h2, h3, h4⟩ := C88_cSIL h (F64.standardSil hr hd50) u_pos c1 c2 (lt_of_lt_of_le (by positivity) hM0) D hk c4 hm
  refine ⟨vs, r, y, h1, h2, h3, h4.trans ?_⟩
  have hd' : (1 : ℝ) ≤ d := by exact_mod_cast hd
  have hn' : (1 : ℝ) ≤ S.length := by exact_mod_cast hn
  have hdn : 0 < (d : ℝ) * S.length := by positivity
  have hβ0 : 0 < β := lt_of_lt_of_le (by positivity) hβ
  have h40 : (2 : ℝ) ^ (-40 : ℤ) = 8192 * u := by unfold u; norm_num
  rw [h40, mul_div_assoc']
  refine div_le_div_of_nonneg_right ?_ (by positivity)
  have := mul_pos u_pos hdn
  linarith

/-! ## An example -/

theorem quadPts_entry : CSIL.entry quadPts 0 0 = 1 / 4 ∧ CSIL.entry quadPts 1 1 = 1 / 4 ∧
    CSIL.entry quadPts 1 0 = 29 / 4 ∧ CSIL.entry quadPts 0 1 = 37 / 4 := by
  have hl : CSIL.lastOf quadPts 1 0 = some (fun _ => 4, 1) ∧ CSIL.lastOf quadPts 0 1 = some (fun _ => 4, 1) := by
    constructor <;> simp [CSIL.lastOf, quadPts, quadNats]
  refine ⟨?_, ?_, ?_, ?_⟩
  · rw [CSIL.entry, CSIL.csilErr, if_pos rfl, add_zero, quadPts_cross.1]
  · rw [CSIL.entry, CSIL.csilErr, if_pos rfl, add_zero, quadPts_cross.2.1]
  · rw [CSIL.entry, CSIL.csilErr, if_neg (by norm_num), hl.1, quadPts_cross.2.2.1]
    norm_num [quadPts_size.1, quadPts_size.2, CSIL.dot, quadPts_centroid.1]
  · rw [CSIL.entry, CSIL.csilErr, if_neg (by norm_num), hl.2, quadPts_cross.2.2.2]
    norm_num

theorem quadPts_otherInc : sInf (Spec.otherValues quadPts 0 fun b => CSIL.entry quadPts b 0) = 29 / 4 ∧
    sInf (Spec.otherValues quadPts 1 fun b => CSIL.entry quadPts b 1) = 37 / 4 := by
  have h0 : Spec.otherValues quadPts 0 (fun b => CSIL.entry quadPts b 0) = {29 / 4} := by
    ext r
    simp only [Spec.otherValues, quadPts_labels, Finset.mem_insert, Finset.mem_singleton, Set.mem_ofPred_eq, Set.mem_singleton_iff]
    constructor
    · rintro ⟨b, rfl | rfl, hb, rfl⟩
      · exact absurd rfl hb
      · exact quadPts_entry.2.2.1
    · rintro rfl
      exact ⟨1, by simp, by simp, quadPts_entry.2.2.1.symm⟩
  have h1 : Spec.otherValues quadPts 1 (fun b => CSIL.entry quadPts b 1) = {37 / 4} := by
    ext r
    simp only [Spec.otherValues, quadPts_labels, Finset.mem_insert, Finset.mem_singleton, Set.mem_ofPred_eq, Set.mem_singleton_iff]
    constructor
    · rintro ⟨b, rfl | rfl, hb, rfl⟩
      · exact quadPts_entry.2.2.2
      · exact absurd rfl hb
    · rintro rfl
      exact ⟨0, by simp, by simp, quadPts_entry.2.2.2.symm⟩
  rw [h0, h1]
  exact ⟨csInf_singleton _, csInf_singleton _⟩

theorem quadPts_actual : CSIL.actual quadPts = .fin (1040 / 1073) := by
  have hn : Spec.numClusters quadPts = 2 := by rw [Spec.numClusters, quadPts_labels, Finset.card_pair (by norm_num)]
  have n1 : ¬ ∀ a ∈ Spec.labels quadPts, ∀ b ∈ Spec.labels quadPts, CSIL.entry quadPts a b = 0 := by
    intro h
    have h0 : (0 : ℤ) ∈ Spec.labels quadPts := by rw [quadPts_labels]; simp
    have := h 0 h0 0 h0
    rw [quadPts_entry.1] at this
    norm_num at this
  rw [CSIL.actual, CSIL.silValue, if_neg (by omega), if_neg n1, hn, quadPts_labels, Finset.sum_pair (by norm_num), quadPts_entry.1,
    quadPts_entry.2.1, quadPts_otherInc.1, quadPts_otherInc.2, XR.fin_div_of_ne _ (by norm_num), XR.fin_div_of_ne _ (by norm_num),
    XR.fin_add, XR.fin_div_of_ne _ (by norm_num)]
  norm_num

/-- The hypothesis of C88 holds with `β = 1 / 4`. -/
theorem quads_apartInc : SilApartInc (real (F := F64 .plain) val 1 quads) (1 / 4 * (((1 : ℕ) : ℝ) * 4 ^ 2)) := by
  rw [quads_real]
  intro c hc
  rw [quadPts_labels, Finset.mem_insert, Finset.mem_singleton] at hc
  rcases hc with rfl | rfl
  · rw [quadPts_otherInc.1]
    exact le_max_of_le_right (by norm_num)
  · rw [quadPts_otherInc.2]
    exact le_max_of_le_right (by norm_num)

/-- The incremental object returns `1040 / 1073` up to `2 ^ -30`. -/
theorem quads_cSIL_inc : ∃ vs r, (feed (mod (F64 .plain) .cSIL) quads (mod (F64 .plain) .cSIL).fresh).val = .ok (vs ++ [r]) ∧
    B64.Fin r ∧ |val r - 1040 / 1073| ≤ (2 : ℝ) ^ (-30 : ℤ) := by
  have hl : quads.length = 4 := rfl
  have hk : 2 ≤ Spec.numClusters (real (F := F64 .plain) val 1 quads) := by rw [quads_real, Spec.numClusters, quadPts_labels]; simp
  have hM0 : (2 : ℝ) ^ (-400 : ℤ) ≤ 4 := le_trans (zpow_le_one_of_nonpos₀ (by norm_num) (by norm_num)) (by norm_num)
  have hM : (4 : ℝ) ≤ (2 : ℝ) ^ (450 : ℤ) := by
    have : (2 : ℝ) ^ (2 : ℤ) ≤ (2 : ℝ) ^ (450 : ℤ) := two_zpow_le (by norm_num)
    exact le_trans (by norm_num) this
  have hβ : (2 : ℝ) ^ (-42 : ℤ) * (((1 : ℕ) : ℝ) * (quads.length : ℝ)) ≤ 1 / 4 := by rw [hl]; norm_num
  obtain ⟨vs, r, y, h1, h2, h3, h4⟩ := C88_cSIL64 (Lib.plain_dots 1) Lib.plain_sums Lib.plain_sums le_rfl quads quads_dim
    (by rw [hl]; norm_num) hM0 hM quads_le hk hβ quads_apartInc
  rw [quads_real, quadPts_actual] at h3
  obtain rfl := XR.fin.inj h3
  rw [hl] at h4
  clear hM0 hM
  refine ⟨vs, r, h1, h2, h4.trans ?_⟩
  norm_num

/-- **C88** (why not the index): in binary64 the last value of an incremental cSIL object differs from the index by more than 0.003. -/
theorem C88_differs : ∃ vs r y, (feed (mod (F64 .plain) .cSIL) quads (mod (F64 .plain) .cSIL).fresh).val = .ok (vs ++ [r]) ∧
    B64.Fin r ∧ Spec.value .cSIL (real (F := F64 .plain) val 1 quads) = .fin y ∧ 3 / 1000 < |val r - y| := by
  obtain ⟨vs, r, h1, h2, h3⟩ := quads_cSIL_inc
  refine ⟨vs, r, 36 / 37, h1, h2, by rw [quads_real]; exact quadPts_cSIL, ?_⟩
  have h4 : (2 : ℝ) ^ (-30 : ℤ) ≤ 1 / 10000 := by norm_num
  have h5 := abs_sub_abs_le_abs_sub (36 / 37 - 1040 / 1073 : ℝ) (val r - 1040 / 1073)
  rw [show (36 / 37 - 1040 / 1073 : ℝ) - (val r - 1040 / 1073) = 36 / 37 - val r by ring, abs_sub_comm (36 / 37) (val r)] at h5
  have h6 : |(36 / 37 - 1040 / 1073 : ℝ)| = 4 / 1073 := by norm_num
  linarith

end Verif.Gen
