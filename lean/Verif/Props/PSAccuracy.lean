import Verif.Props.BatchAccuracy
import Verif.Gen.B64Exp

/-!
# C81, C82: the value of PS is accurate

The contributions of the clusters to PS may cancel, so there is no bound for the relative error.  If the mean squared distance of the
centroids to their mean is at least `β * d * M ^ 2`, the absolute error per cluster is at most `750 * γ * N / β` plus the error `κ` of
`np.exp`; in incremental mode and in batch mode; in every arithmetic that satisfies the standard model, and in binary64.
-/

namespace Verif.Gen
open Py Rounding

section
variable {F : Type} [Arith F] {d : ℕ} {val : F → ℝ} {fin : F → Prop} {u η Ω M γ β κ : ℝ} {N : ℕ} {S : Samples F}

/-- The last number that PS returns is finite and has absolute error at most `err`. -/
def Within (val : F → ℝ) (fin : F → Prop) (d : ℕ) (I : Index) (S : Samples F) (err : ℝ) : Prop :=
  ∃ vs r y, (feed (mod F I) S (mod F I).fresh).val = .ok (vs ++ [r]) ∧ fin r ∧ Spec.value I (real val d S) = .fin y ∧ |val r - y| ≤ err

/-- The same for one call with all samples. -/
def BatchWithin (val : F → ℝ) (fin : F → Prop) (d : ℕ) (I : Index) (S : Samples F) (o : Obj F) (err : ℝ) : Prop :=
  ∃ r s y, batchCall d I S [] o = .ok r { o with core := s } ∧ fin r ∧ Spec.value I (real val d S) = .fin y ∧ |val r - y| ≤ err

variable (h : Setting F val fin u η Ω M γ N d) (B : StandardBatch F val fin u Ω N d) (E : StandardExp F val fin u κ N)
  (hu : 0 < u) (hη : η ≤ u ^ 2) (hΩ : 1 ≤ u * Ω) (hΩ5 : 5 * N ≤ Ω) (hκ : 2 * κ ≤ 1) (hM : 0 < M) (D : Inputs val fin M N d S)
  (hk : 2 ≤ Spec.numClusters (real val d S)) (hβ : 1000 * (γ * N) ≤ β) (hS : β * (d * M ^ 2) ≤ Spec.beta (real val d S))
include h B E hu hη hΩ hΩ5 hκ hM D hk hβ hS

/-- **C81**: in incremental mode. -/
theorem C81_PS : Within val fin d .PS S (Spec.numClusters (real val d S) * (750 * (γ * N / β) + κ)) := by
  have hne := order_ne hk
  obtain ⟨vs, hv⟩ := run_last (I := .PS) (by simp) D.dim hne
  rw [numClusters_real] at hk ⊢
  have T := h.tables D hne
  obtain ⟨f, y, h1, h2⟩ := h.near_PS B D T E hu hη hΩ hΩ5 hκ hM hβ hS isTable2_inc (by omega)
  rw [← value_PS (d := d) (by omega)] at f h2
  exact ⟨vs, _, y, hv, f, h1, h2⟩

/-- **C81**: one call with all samples.  The labels have to be `0, 1, .., k-1` (C10). -/
theorem C81_PS_batch (hc : Spec.Consecutive (real val d S)) (o : Obj F) (ho : o.core.isSetup = false) :
    BatchWithin val fin d .PS S o (Spec.numClusters (real val d S) * (750 * (γ * N / β) + κ)) := by
  have hne := order_ne hk
  rw [numClusters_real] at hk ⊢
  have T := h.batchTables B D hne hc
  have hl : (labelRange (order S).length).length = (order S).length := by simp [labelRange]
  have h0 : (0 : ℤ) ∈ order S := by
    rw [← T.mem, labelRange, List.mem_map]
    exact ⟨0, List.mem_range.mpr (by omega), rfl⟩
  obtain ⟨x, hx⟩ := (mem_order S).mp h0
  obtain ⟨s, h3, -⟩ := C70_batch .PS (by simp) S [] D.dim (by simp) (by omega) (fun _ => ⟨0, by omega, x, hx⟩) o ho
  have e : allRows S [] = S.map Prod.fst := List.append_nil _
  rw [e] at h3
  obtain ⟨f, y, h1, h2⟩ := h.near_PS B D T E hu hη hΩ hΩ5 hκ hM hβ hS batch_isTable2 (by omega)
  rw [← batch_PS (S.map Prod.fst)] at f h2
  rw [hl] at h2
  exact ⟨_, s, y, h3, f, h1, h2⟩

end

open B64
variable {L : Lib} {d : ℕ} {M β κ : ℝ}

/-- What the two theorems for binary64 have in common. -/
theorem consts64 {n : ℕ} (hd : 1 ≤ d) (hn : 1 ≤ n) (hN : d * n ≤ 2 ^ 44) (hβ : (2 : ℝ) ^ (-42 : ℤ) * (d * n) ≤ β) :
    η ≤ u ^ 2 ∧ 1 ≤ u * Ω ∧ 5 * (n : ℝ) ≤ Ω ∧ 1000 * (2 * d * u * n) ≤ β ∧
      750 * (2 * d * u * n / β) ≤ (2 : ℝ) ^ (-42 : ℤ) * (d * n) / β := by
  have hu := u_pos
  have hd' : (1 : ℝ) ≤ d := by exact_mod_cast hd
  have hn' : (1 : ℝ) ≤ n := by exact_mod_cast hn
  have hdn : 0 < (d : ℝ) * n := by positivity
  have hβ0 : 0 < β := lt_of_lt_of_le (by positivity) hβ
  have h42 : (2 : ℝ) ^ (-42 : ℤ) = 2048 * u := by unfold u; norm_num
  refine ⟨?_, ?_, ?_, ?_, ?_⟩
  · rw [η_eq, sq]
    unfold u
    rw [two_zpow_mul]
    exact two_zpow_le (by norm_num)
  · have h1 := mul_le_mul_of_nonneg_left (le_Ω (e := 53) (by norm_num)) hu.le
    refine le_trans (le_of_eq ?_) h1
    unfold u; norm_num
  · have h1 : (n : ℝ) ≤ 2 ^ 44 := by exact_mod_cast (Nat.le_mul_of_pos_left n hd).trans hN
    have h2 := le_Ω (e := 47) (by norm_num)
    have h3 : (2 : ℝ) ^ (47 : ℤ) = 8 * 2 ^ 44 := by norm_num
    linarith
  · rw [h42] at hβ
    have := mul_pos hu hdn
    linarith
  · rw [h42, mul_div_assoc']
    refine div_le_div_of_nonneg_right ?_ hβ0.le
    have := mul_pos hu hdn
    linarith

/-- **C82**: PS in binary64, in whatever order numpy adds, if `np.exp` has error at most `κ`: the error per cluster is at most
`2 ^ -42 * d * n / β + κ`. -/
theorem C82_PS64 (hL : L.Dots d) (hs : L.Sums) (hb : L.BatchSums d) (he : L.ExpNear κ) (hκ : 2 * κ ≤ 1) (hd : 1 ≤ d) (S : Samples (F64 L))
    (hS : S.Dim d) (hN : d * S.length ≤ 2 ^ 44) (hM0 : (2 : ℝ) ^ (-400 : ℤ) ≤ M) (hM : M ≤ (2 : ℝ) ^ (450 : ℤ))
    (hx : ∀ p ∈ S, ∀ a ∈ p.1, Fin a ∧ |val a| ≤ M) (hk : 2 ≤ Spec.numClusters (real (F := F64 L) val d S))
    (hβ : (2 : ℝ) ^ (-42 : ℤ) * (d * S.length) ≤ β) (hI : β * (d * M ^ 2) ≤ Spec.beta (real (F := F64 L) val d S)) :
    Within (F := F64 L) val Fin d .PS S
      (Spec.numClusters (real (F := F64 L) val d S) * ((2 : ℝ) ^ (-42 : ℤ) * (d * S.length) / β + κ)) := by
  have hn := List.length_pos_iff.mpr (order_ne hk)
  have h := setting64 hL hs hd hn hN hM0 hM
  have hn50 : S.length ≤ 2 ^ 50 := by have := (Nat.le_mul_of_pos_left S.length hd).trans hN; omega
  have B : StandardBatch (F64 L) val Fin u Ω S.length d := F64.standardBatch hb hn50 (by omega)
  have D : Inputs val Fin M S.length d S := ⟨hS, hx, le_rfl⟩
  obtain ⟨c1, c2, c3, c4, c5⟩ := consts64 hd hn hN hβ
  obtain ⟨vs, r, y, h1, h2, h3, h4⟩ := C81_PS h B (F64.standardExp he hn50) u_pos c1 c2 c3 hκ (lt_of_lt_of_le (by positivity) hM0) D hk c4 hI
  exact ⟨vs, r, y, h1, h2, h3, h4.trans (mul_le_mul_of_nonneg_left (by linarith) (Nat.cast_nonneg _))⟩

/-- **C82**: one call in binary64. -/
theorem C82_PS64_batch (hL : L.Dots d) (hs : L.Sums) (hb : L.BatchSums d) (he : L.ExpNear κ) (hκ : 2 * κ ≤ 1) (hd : 1 ≤ d)
    (S : Samples (F64 L)) (hS : S.Dim d) (hN : d * S.length ≤ 2 ^ 44) (hM0 : (2 : ℝ) ^ (-400 : ℤ) ≤ M) (hM : M ≤ (2 : ℝ) ^ (450 : ℤ))
    (hx : ∀ p ∈ S, ∀ a ∈ p.1, Fin a ∧ |val a| ≤ M) (hk : 2 ≤ Spec.numClusters (real (F := F64 L) val d S))
    (hc : Spec.Consecutive (real (F := F64 L) val d S))
    (hβ : (2 : ℝ) ^ (-42 : ℤ) * (d * S.length) ≤ β) (hI : β * (d * M ^ 2) ≤ Spec.beta (real (F := F64 L) val d S))
    (o : Obj (F64 L)) (ho : o.core.isSetup = false) :
    BatchWithin (F := F64 L) val Fin d .PS S o
      (Spec.numClusters (real (F := F64 L) val d S) * ((2 : ℝ) ^ (-42 : ℤ) * (d * S.length) / β + κ)) := by
  have hn := List.length_pos_iff.mpr (order_ne hk)
  have h := setting64 hL hs hd hn hN hM0 hM
  have hn50 : S.length ≤ 2 ^ 50 := by have := (Nat.le_mul_of_pos_left S.length hd).trans hN; omega
  have B : StandardBatch (F64 L) val Fin u Ω S.length d := F64.standardBatch hb hn50 (by omega)
  have D : Inputs val Fin M S.length d S := ⟨hS, hx, le_rfl⟩
  obtain ⟨c1, c2, c3, c4, c5⟩ := consts64 hd hn hN hβ
  obtain ⟨r, s, y, h1, h2, h3, h4⟩ := C81_PS_batch h B (F64.standardExp he hn50) u_pos c1 c2 c3 hκ
    (lt_of_lt_of_le (by positivity) hM0) D hk c4 hI hc o ho
  exact ⟨r, s, y, h1, h2, h3, h4.trans (mul_le_mul_of_nonneg_left (by linarith) (Nat.cast_nonneg _))⟩

/-- **C82**: incremental and batch values of PS agree up to twice the error. -/
theorem C82_PS64_agree (hL : L.Dots d) (hs : L.Sums) (hb : L.BatchSums d) (he : L.ExpNear κ) (hκ : 2 * κ ≤ 1) (hd : 1 ≤ d)
    (S : Samples (F64 L)) (hS : S.Dim d) (hN : d * S.length ≤ 2 ^ 44) (hM0 : (2 : ℝ) ^ (-400 : ℤ) ≤ M) (hM : M ≤ (2 : ℝ) ^ (450 : ℤ))
    (hx : ∀ p ∈ S, ∀ a ∈ p.1, Fin a ∧ |val a| ≤ M) (hk : 2 ≤ Spec.numClusters (real (F := F64 L) val d S))
    (hc : Spec.Consecutive (real (F := F64 L) val d S))
    (hβ : (2 : ℝ) ^ (-42 : ℤ) * (d * S.length) ≤ β) (hI : β * (d * M ^ 2) ≤ Spec.beta (real (F := F64 L) val d S))
    (o : Obj (F64 L)) (ho : o.core.isSetup = false) :
    ∃ vs a b s, (feed (mod (F64 L) .PS) S (mod (F64 L) .PS).fresh).val = .ok (vs ++ [a]) ∧
      batchCall d .PS S [] o = .ok b { o with core := s } ∧ Fin a ∧ Fin b ∧
      |val a - val b| ≤ 2 * (Spec.numClusters (real (F := F64 L) val d S) * ((2 : ℝ) ^ (-42 : ℤ) * (d * S.length) / β + κ)) := by
  obtain ⟨vs, a, y, a1, a2, a3, a4⟩ := C82_PS64 hL hs hb he hκ hd S hS hN hM0 hM hx hk hβ hI
  obtain ⟨b, s, z, b1, b2, b3, b4⟩ := C82_PS64_batch hL hs hb he hκ hd S hS hN hM0 hM hx hk hc hβ hI o ho
  obtain rfl : y = z := by rw [a3] at b3; exact XR.fin.inj b3
  refine ⟨vs, a, b, s, a1, b1, a2, b2, ?_⟩
  have h1 := abs_sub (val a - y) (val b - y)
  rw [sub_sub_sub_cancel_right] at h1
  linarith

/-! ## An example -/

/-- The four points of `quads`, with a library that has an accurate `exp`. -/
def quadsOf (L : Lib) : Samples (F64 L) := quadNats.map fun p => ([B64.ofNat p.1], p.2)

theorem quadsOf_real : real (F := F64 L) val 1 (quadsOf L) = quadPts := by
  refine (List.map_map (l := quadNats)).trans (List.map_congr_left fun p hp => ?_)
  have h := quadNats_le p hp
  refine Prod.ext (funext fun i => ?_) rfl
  exact (congrArg val (getD_one _ _ i)).trans (ofNat_val (n := p.1) (by omega)).2

theorem quadsOf_dim : (quadsOf L).Dim 1 := by
  intro p hp
  obtain ⟨q, -, rfl⟩ := List.mem_map.mp hp
  rfl

theorem quadsOf_le : ∀ p ∈ quadsOf L, ∀ a ∈ p.1, Fin a ∧ |val a| ≤ 4 := by
  intro p hp a ha
  obtain ⟨q, hq, rfl⟩ := List.mem_map.mp hp
  have h4 := quadNats_le q hq
  have h := ofNat_val (n := q.1) (by omega)
  rw [List.mem_singleton.mp ha]
  refine ⟨h.1.isFin, ?_⟩
  rw [h.2, Nat.abs_cast]
  exact_mod_cast h4

theorem quadPts_beta : Spec.beta quadPts = 9 / 4 := by
  have hm : Spec.centroidMean quadPts = fun _ => 2 := by
    funext i
    rw [Spec.centroidMean, Spec.numClusters, quadPts_labels, Finset.sum_pair (by norm_num), quadPts_centroid.1, quadPts_centroid.2]
    norm_num
  rw [Spec.beta, Spec.numClusters, quadPts_labels, Finset.sum_pair (by norm_num), hm, quadPts_centroid.1, quadPts_centroid.2]
  norm_num [Spec.dist2]

/-- PS of these four points is `2 - 2 * exp (-4)`. -/
theorem quadPts_PS : Spec.value .PS quadPts = .fin (2 - 2 * Real.exp (-4)) := by
  have hn : Spec.numClusters quadPts = 2 := by rw [Spec.numClusters, quadPts_labels, Finset.card_pair (by norm_num)]
  have ho : ∀ a b : ℤ, (a = 0 ∧ b = 1 ∨ a = 1 ∧ b = 0) → Spec.otherValues quadPts a (fun b => Spec.sep quadPts a b) = {9} := by
    intro a b hab
    ext r
    simp only [Spec.otherValues, quadPts_labels, Finset.mem_insert, Finset.mem_singleton, Set.mem_ofPred_eq, Set.mem_singleton_iff]
    rcases hab with ⟨rfl, rfl⟩ | ⟨rfl, rfl⟩
    · constructor
      · rintro ⟨b, rfl | rfl, hb, rfl⟩
        · exact absurd rfl hb
        · exact quadPts_sep.1
      · rintro rfl
        exact ⟨1, by simp, by simp, quadPts_sep.1.symm⟩
    · constructor
      · rintro ⟨b, rfl | rfl, hb, rfl⟩
        · exact quadPts_sep.2
        · exact absurd rfl hb
      · rintro rfl
        exact ⟨0, by simp, by simp, quadPts_sep.2.symm⟩
  have hmax : Spec.maxSize quadPts = 2 := by
    rw [Spec.maxSize, quadPts_labels, Finset.sup_insert, Finset.sup_singleton, quadPts_size.1, quadPts_size.2]
    rfl
  rw [Spec.value, Spec.PS, if_neg (by omega), quadPts_beta, if_neg (by norm_num), quadPts_labels, Finset.sum_pair (by norm_num),
    ho 0 1 (by simp), ho 1 0 (by simp), csInf_singleton, hmax, quadPts_size.1, quadPts_size.2]
  norm_num
  ring

/-- In binary64, incremental mode and batch mode both return `2 - 2 * exp (-4)` up to `2 ^ -34`. -/
theorem quads_PS : ∃ vs a b s, (feed (mod (F64 .withExp) .PS) (quadsOf .withExp) (mod (F64 .withExp) .PS).fresh).val = .ok (vs ++ [a]) ∧
    batchCall 1 .PS (quadsOf .withExp) [] (mod (F64 .withExp) .PS).fresh = .ok b { (mod (F64 .withExp) .PS).fresh with core := s } ∧
    |val a - (2 - 2 * Real.exp (-4))| ≤ (2 : ℝ) ^ (-34 : ℤ) ∧ |val b - (2 - 2 * Real.exp (-4))| ≤ (2 : ℝ) ^ (-34 : ℤ) := by
  have hn : Spec.numClusters (real (F := F64 .withExp) val 1 (quadsOf .withExp)) = 2 := by
    rw [quadsOf_real, Spec.numClusters, quadPts_labels, Finset.card_pair (by norm_num)]
  have hl : (quadsOf .withExp).length = 4 := rfl
  have hc : Spec.Consecutive (real (F := F64 .withExp) val 1 (quadsOf .withExp)) := by
    rw [quadsOf_real]
    intro c
    rw [Spec.numClusters, quadPts_labels, Finset.card_pair (by norm_num)]
    simp only [Finset.mem_insert, Finset.mem_singleton]
    push_cast
    omega
  have hM0 : (2 : ℝ) ^ (-400 : ℤ) ≤ 4 := le_trans (zpow_le_one_of_nonpos₀ (by norm_num) (by norm_num)) (by norm_num)
  have hM : (4 : ℝ) ≤ (2 : ℝ) ^ (450 : ℤ) := by
    have : (2 : ℝ) ^ (2 : ℤ) ≤ (2 : ℝ) ^ (450 : ℤ) := two_zpow_le (by norm_num)
    exact le_trans (by norm_num) this
  have hβ : (2 : ℝ) ^ (-42 : ℤ) * (((1 : ℕ) : ℝ) * ((quadsOf .withExp).length : ℝ)) ≤ 1 / 8 := by rw [hl]; norm_num
  have hI : 1 / 8 * (((1 : ℕ) : ℝ) * 4 ^ 2) ≤ Spec.beta (real (F := F64 .withExp) val 1 (quadsOf .withExp)) := by
    rw [quadsOf_real, quadPts_beta]; norm_num
  have hκ : 2 * (2 : ℝ) ^ (-51 : ℤ) ≤ 1 := by norm_num
  obtain ⟨vs, a, y, a1, -, a3, a4⟩ := C82_PS64 (Lib.withExp_dots 1) Lib.withExp_sums (Lib.withExp_batchSums 1) Lib.withExp_near hκ le_rfl
    (quadsOf .withExp) quadsOf_dim (by rw [hl]; norm_num) hM0 hM quadsOf_le hn.ge hβ hI
  obtain ⟨b, s, z, b1, -, b3, b4⟩ := C82_PS64_batch (Lib.withExp_dots 1) Lib.withExp_sums (Lib.withExp_batchSums 1) Lib.withExp_near hκ le_rfl
    (quadsOf .withExp) quadsOf_dim (by rw [hl]; norm_num) hM0 hM quadsOf_le hn.ge hc hβ hI (mod (F64 .withExp) .PS).fresh rfl
  rw [quadsOf_real, quadPts_PS] at a3 b3
  obtain rfl := XR.fin.inj a3
  obtain rfl := XR.fin.inj b3
  rw [hn, hl] at a4 b4
  clear hM0 hM
  have h5 : ((2 : ℕ) : ℝ) * ((2 : ℝ) ^ (-42 : ℤ) * (((1 : ℕ) : ℝ) * ((4 : ℕ) : ℝ)) / (1 / 8) + (2 : ℝ) ^ (-51 : ℤ)) ≤ (2 : ℝ) ^ (-34 : ℤ) := by
    norm_num
  exact ⟨vs, a, b, s, a1, b1, a4.trans h5, b4.trans h5⟩

end Verif.Gen
