import Verif.Props.PSAccuracy
import Verif.Gen.RoundingSil

/-!
# C83: the value of cSIL in batch mode is accurate

In incremental mode cSIL does not compute the index (C19).  In batch mode it does: if for every cluster the larger of the two mean squared
distances in its coefficient is at least `β * d * M ^ 2`, the absolute error of the value is at most `470 * γ * N / β`; in every arithmetic
that satisfies the standard model, and in binary64.
-/

namespace Verif.Gen
open Py Rounding

/-- For every cluster the larger of the two mean squared distances is at least `c`. -/
def SilApart {n : ℕ} (S : Spec.Stream n) (c : ℝ) : Prop :=
  ∀ a ∈ Spec.labels S, c ≤ max (Spec.crossScatter S a a) (Spec.silOther S a)

section
variable {F : Type} [Arith F] {d : ℕ} {val : F → ℝ} {fin : F → Prop} {u η Ω M γ β : ℝ} {N : ℕ} {S : Samples F}

/-- **C83** in the standard model. -/
theorem C83_cSIL_batch (h : Setting F val fin u η Ω M γ N d) (B : StandardBatch F val fin u Ω N d) (E : StandardSil F val fin u Ω d)
    (hu : 0 < u) (hη : η ≤ u ^ 2) (hΩ5 : 5 * N ≤ Ω) (hM : 0 < M) (D : Inputs val fin M N d S)
    (hk : 2 ≤ Spec.numClusters (real val d S)) (hc : Spec.Consecutive (real val d S)) (hβ : 1000 * (γ * N) ≤ β)
    (hm : SilApart (real val d S) (β * (d * M ^ 2))) (o : Obj F) (ho : o.core.isSetup = false) :
    BatchWithin val fin d .cSIL S o (470 * (γ * N / β)) := by
  rw [numClusters_real] at hk
  obtain ⟨s, h3, -⟩ := C70_batch .cSIL (by simp) S [] D.dim (by simp) (by omega) (by simp) o ho
  obtain ⟨f, y, h1, h2⟩ := h.near_cSIL B E D hc (by omega) hu hη hΩ5 hM hβ hm (allRows S [])
  exact ⟨_, s, y, h3, f, h1, h2⟩

end

open B64
variable {L : Lib} {d : ℕ} {M β : ℝ}

/-- `np.sum(.., axis=1)` adds each row in some order. -/
def Lib.RowSums (L : Lib) : Prop := ∀ l : List B64, SumOf l (L.rowSum l)

theorem F64.standardSil (hr : L.RowSums) (hd : d ≤ 2 ^ 50) : StandardSil (F64 L) val Fin u Ω d where
  rowSum l hl hf hΩ := (hr l).near (hl.trans hd) hf hΩ
  max2 a b ha hb := by
    obtain ⟨h1, h2, h3⟩ := max2_spec ha hb
    rcases h1 with e | e
    · refine ⟨(congrArg B64.Fin e).mpr ha, ?_⟩
      rw [e] at h3
      exact (congrArg val e).trans (max_eq_left h3).symm
    · refine ⟨(congrArg B64.Fin e).mpr hb, ?_⟩
      rw [e] at h2
      exact (congrArg val e).trans (max_eq_right h2).symm
  truthy a _ hv := by
    cases a with
    | fin s m =>
      refine decide_eq_true fun hm => hv ?_
      subst hm
      cases s <;> simp [val, signed]
    | inf s => rfl
    | nan => rfl

/-- **C83** in binary64, in whatever order numpy adds: the error is at most `2 ^ -43 * d * n / β`. -/
theorem C83_cSIL64_batch (hL : L.Dots d) (hs : L.Sums) (hb : L.BatchSums d) (hr : L.RowSums) (hd : 1 ≤ d) (S : Samples (F64 L))
    (hS : S.Dim d) (hN : d * S.length ≤ 2 ^ 44) (hM0 : (2 : ℝ) ^ (-400 : ℤ) ≤ M) (hM : M ≤ (2 : ℝ) ^ (450 : ℤ))
    (hx : ∀ p ∈ S, ∀ a ∈ p.1, Fin a ∧ |val a| ≤ M) (hk : 2 ≤ Spec.numClusters (real (F := F64 L) val d S))
    (hc : Spec.Consecutive (real (F := F64 L) val d S)) (hβ : (2 : ℝ) ^ (-42 : ℤ) * (d * S.length) ≤ β)
    (hm : SilApart (real (F := F64 L) val d S) (β * (d * M ^ 2))) (o : Obj (F64 L)) (ho : o.core.isSetup = false) :
    BatchWithin (F := F64 L) val Fin d .cSIL S o ((2 : ℝ) ^ (-43 : ℤ) * (d * S.length) / β) := by
  have hn := List.length_pos_iff.mpr (order_ne hk)
  have h := setting64 hL hs hd hn hN hM0 hM
  have hn50 : S.length ≤ 2 ^ 50 := by have := (Nat.le_mul_of_pos_left S.length hd).trans hN; omega
  have hd50 : d ≤ 2 ^ 50 := by have := (Nat.le_mul_of_pos_right d hn).trans hN; omega
  have B : StandardBatch (F64 L) val Fin u Ω S.length d := F64.standardBatch hb hn50 (by omega)
  have D : Inputs val Fin M S.length d S := ⟨hS, hx, le_rfl⟩
  obtain ⟨c1, c2, c3, c4, -⟩ := consts64 hd hn hN hβ
  obtain ⟨r, s, y, h1, h2, h3, h4⟩ := C83_cSIL_batch h B (F64.standardSil hr hd50) u_pos c1 c3 (lt_of_lt_of_le (by positivity) hM0) D hk
    hc c4 hm o ho
  refine ⟨r, s, y, h1, h2, h3, h4.trans ?_⟩
  have hd' : (1 : ℝ) ≤ d := by exact_mod_cast hd
  have hn' : (1 : ℝ) ≤ S.length := by exact_mod_cast hn
  have hdn : 0 < (d : ℝ) * S.length := by positivity
  have hβ0 : 0 < β := lt_of_lt_of_le (by positivity) hβ
  have h43 : (2 : ℝ) ^ (-43 : ℤ) = 1024 * u := by unfold u; norm_num
  rw [h43, mul_div_assoc']
  refine div_le_div_of_nonneg_right ?_ hβ0.le
  have := mul_pos u_pos hdn
  linarith

/-! ## An example -/

theorem quadPts_cross : Spec.crossScatter quadPts 0 0 = 1 / 4 ∧ Spec.crossScatter quadPts 1 1 = 1 / 4 ∧
    Spec.crossScatter quadPts 1 0 = 37 / 4 ∧ Spec.crossScatter quadPts 0 1 = 37 / 4 := by
  refine ⟨?_, ?_, ?_, ?_⟩ <;>
    norm_num [Spec.crossScatter, quadPts_size.1, quadPts_size.2, quadPts_cluster.1, quadPts_cluster.2, quadPts_centroid.1,
      quadPts_centroid.2, Spec.dist2]

theorem quadPts_other : Spec.silOther quadPts 0 = 37 / 4 ∧ Spec.silOther quadPts 1 = 37 / 4 := by
  have h0 : Spec.otherValues quadPts 0 (fun b => Spec.crossScatter quadPts b 0) = {37 / 4} := by
    ext r
    simp only [Spec.otherValues, quadPts_labels, Finset.mem_insert, Finset.mem_singleton, Set.mem_ofPred_eq, Set.mem_singleton_iff]
    constructor
    · rintro ⟨b, rfl | rfl, hb, rfl⟩
      · exact absurd rfl hb
      · exact quadPts_cross.2.2.1
    · rintro rfl
      exact ⟨1, by simp, by simp, quadPts_cross.2.2.1.symm⟩
  have h1 : Spec.otherValues quadPts 1 (fun b => Spec.crossScatter quadPts b 1) = {37 / 4} := by
    ext r
    simp only [Spec.otherValues, quadPts_labels, Finset.mem_insert, Finset.mem_singleton, Set.mem_ofPred_eq, Set.mem_singleton_iff]
    constructor
    · rintro ⟨b, rfl | rfl, hb, rfl⟩
      · exact quadPts_cross.2.2.2
      · exact absurd rfl hb
    · rintro rfl
      exact ⟨0, by simp, by simp, quadPts_cross.2.2.2.symm⟩
  rw [Spec.silOther, Spec.silOther, h0, h1]
  exact ⟨csInf_singleton _, csInf_singleton _⟩

/-- cSIL of these four points is `36 / 37`. -/
theorem quadPts_cSIL : Spec.value .cSIL quadPts = .fin (36 / 37) := by
  have hn : Spec.numClusters quadPts = 2 := by rw [Spec.numClusters, quadPts_labels, Finset.card_pair (by norm_num)]
  have n1 : ¬ ∀ a ∈ Spec.labels quadPts, ∀ b ∈ Spec.labels quadPts, Spec.crossScatter quadPts a b = 0 := by
    intro h
    have h0 : (0 : ℤ) ∈ Spec.labels quadPts := by rw [quadPts_labels]; simp
    have := h 0 h0 0 h0
    rw [quadPts_cross.1] at this
    norm_num at this
  have n2 : ¬ ∃ c ∈ Spec.labels quadPts, Spec.crossScatter quadPts c c = 0 ∧ Spec.silOther quadPts c = 0 := by
    rintro ⟨c, hc, h, -⟩
    rw [quadPts_labels, Finset.mem_insert, Finset.mem_singleton] at hc
    rcases hc with rfl | rfl
    · rw [quadPts_cross.1] at h
      norm_num at h
    · rw [quadPts_cross.2.1] at h
      norm_num at h
  rw [Spec.value, Spec.cSIL, if_neg (by omega), if_neg n1, if_neg n2, hn, quadPts_labels, Finset.sum_pair (by norm_num), quadPts_cross.1,
    quadPts_cross.2.1, quadPts_other.1, quadPts_other.2]
  norm_num

/-- In binary64, batch mode returns `36 / 37` up to `2 ^ -40`. -/
theorem quads_cSIL : ∃ r s, batchCall 1 .cSIL quads [] (mod (F64 .plain) .cSIL).fresh =
    .ok r { (mod (F64 .plain) .cSIL).fresh with core := s } ∧ |val r - 36 / 37| ≤ (2 : ℝ) ^ (-40 : ℤ) := by
  have hn : Spec.numClusters (real (F := F64 .plain) val 1 quads) = 2 := by
    rw [quads_real, Spec.numClusters, quadPts_labels, Finset.card_pair (by norm_num)]
  have hl : quads.length = 4 := rfl
  have hc : Spec.Consecutive (real (F := F64 .plain) val 1 quads) := by
    rw [quads_real]
    intro c
    rw [Spec.numClusters, quadPts_labels, Finset.card_pair (by norm_num)]
    simp only [Finset.mem_insert, Finset.mem_singleton]
    push_cast
    omega
  have hM0 : (2 : ℝ) ^ (-400 : ℤ) ≤ 4 := le_trans (zpow_le_one_of_nonpos₀ (by norm_num) (by norm_num)) (by norm_num)
  have hM : (4 : ℝ) ≤ (2 : ℝ) ^ (450 : ℤ) := by
    have : (2 : ℝ) ^ (2 : ℤ) ≤ (2 : ℝ) ^ (450 : ℤ) := two_zpow_le (by norm_num)
    exact le_trans (by norm_num) this
  have hβ : (2 : ℝ) ^ (-42 : ℤ) * (((1 : ℕ) : ℝ) * (quads.length : ℝ)) ≤ 1 / 2 := by rw [hl]; norm_num
  have hI : SilApart (real (F := F64 .plain) val 1 quads) (1 / 2 * (((1 : ℕ) : ℝ) * 4 ^ 2)) := by
    rw [quads_real]
    intro c hc
    rw [quadPts_labels, Finset.mem_insert, Finset.mem_singleton] at hc
    rcases hc with rfl | rfl
    · rw [quadPts_other.1]
      exact le_max_of_le_right (by norm_num)
    · rw [quadPts_other.2]
      exact le_max_of_le_right (by norm_num)
  obtain ⟨r, s, y, h1, -, h3, h4⟩ := C83_cSIL64_batch (Lib.plain_dots 1) Lib.plain_sums (Lib.plain_batchSums 1) Lib.plain_sums le_rfl quads
    quads_dim (by rw [hl]; norm_num) hM0 hM quads_le hn.ge hc hβ hI (mod (F64 .plain) .cSIL).fresh rfl
  rw [quads_real, quadPts_cSIL] at h3
  obtain rfl := XR.fin.inj h3
  rw [hl] at h4
  clear hM0 hM
  refine ⟨r, s, h1, h4.trans ?_⟩
  norm_num

end Verif.Gen
