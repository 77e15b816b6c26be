import Verif.Props.DunnAccuracy
import Verif.Gen.B64Full
import Verif.Gen.B64Moderate

/-!
# C77: the six common indices in binary64

`Separated β M I X` says that the quantities that `I` divides are at least `β` times the largest that features of size `M` allow.
Then the number that is returned has relative error at most `2 ^ -43 * d * n / β`, in whatever order numpy adds.
-/

namespace Verif.Gen
open Py B64 Rounding

theorem Close.mono {F : Type} [Arith F] {val : F → ℝ} {fin : F → Prop} {d : ℕ} {I : Index} {S : Samples F} {e e' : ℝ}
    (h : Close val fin d I S e) (he : e ≤ e') : Close val fin d I S e' := by
  obtain ⟨vs, r, y, h1, h2, h3, h4, h5⟩ := h
  exact ⟨vs, r, y, h1, h2, h3, h4, h5.trans (mul_le_mul_of_nonneg_right he h4.le)⟩

variable {L : Lib} {d : ℕ} {M β : ℝ} {S : Samples (F64 L)}

theorem setting64 (hL : L.Dots d) (hs : L.Sums) (hd : 1 ≤ d) {n : ℕ} (hn : 1 ≤ n) (hN : d * n ≤ 2 ^ 44)
    (hM0 : (2 : ℝ) ^ (-400 : ℤ) ≤ M) (hM : M ≤ (2 : ℝ) ^ (450 : ℤ)) : Setting (F64 L) val Fin u η Ω M (2 * d * u) n d where
  full := F64.standardFull hL hs (by have := (Nat.le_mul_of_pos_left n hd).trans hN; omega)
    (by have := (Nat.le_mul_of_pos_right d hn).trans hN; omega)
  moderate := moderate hd hn hN hM0 hM
  d1 := hd
  N1 := hn
  du := by have := mul_nonneg (Nat.cast_nonneg d) u_pos.le; linarith

/-- The value of an index, computed from accurate statistics in binary64. -/
theorem near64 (hL : L.Dots d) (hs : L.Sums) (hd : 1 ≤ d) (I : Index) (S : Samples (F64 L)) (hS : S.Dim d)
    (hN : d * S.length ≤ 2 ^ 44) (hM0 : (2 : ℝ) ^ (-400 : ℤ) ≤ M) (hM : M ≤ (2 : ℝ) ^ (450 : ℤ))
    (hx : ∀ p ∈ S, ∀ a ∈ p.1, Fin a ∧ |val a| ≤ M) (hk : 2 ≤ Spec.numClusters (real (F := F64 L) val d S))
    (hβ : (2 : ℝ) ^ (-42 : ℤ) * (d * S.length) ≤ β) (hI : Separated β M I (real (F := F64 L) val d S))
    {ks : List ℤ} {st : ℤ → Stat (F64 L)} {w : List (F64 L)} {sum : List (F64 L) → F64 L} {t q : ℤ → ℤ → F64 L} {sp : ℤ → F64 L}
    (T : Tables (F := F64 L) val Fin M (2 * d * u * S.length) d S ks st w) (hsum : Sums (F := F64 L) val Fin u Ω d sum)
    (ht : I ≠ .DB → IsTable I ks st t)
    (hsp : ∀ c ∈ ks, Fin (sp c) ∧
      |val (sp c) - Spec.meanScatter (real (F := F64 L) val d S) c| ≤ 134 * (2 * d * u * S.length * (d * M ^ 2)))
    (hq : IsQuotients ks st sp q) :
    Accurate (F := F64 L) val Fin d I S ((2 : ℝ) ^ (-43 : ℤ) * (d * S.length) / β) (formula ks st w sum t q S.length I) := by
  have hn : 1 ≤ S.length := List.length_pos_iff.mpr (order_ne hk)
  have h := setting64 hL hs hd hn hN hM0 hM
  have D : Inputs val Fin M S.length d S := ⟨hS, hx, le_rfl⟩
  have hMp : 0 < M := lt_of_lt_of_le (by positivity) hM0
  have hu := u_pos
  have hd' : (1 : ℝ) ≤ d := by exact_mod_cast hd
  have hn' : (1 : ℝ) ≤ S.length := by exact_mod_cast hn
  have hdn : 0 < (d : ℝ) * S.length := by positivity
  have hβ0 : 0 < β := lt_of_lt_of_le (by positivity) hβ
  have hdl : (d : ℝ) ≤ 2 ^ 44 := by exact_mod_cast (Nat.le_mul_of_pos_right d hn).trans hN
  have h42 : (2 : ℝ) ^ (-42 : ℤ) = 2048 * u := by unfold u; norm_num
  have h43 : (2 : ℝ) ^ (-43 : ℤ) = 1024 * u := by unfold u; norm_num
  rw [h42] at hβ
  rw [h43]
  have hβ' : 1000 * (2 * d * u * S.length) ≤ β := by
    have := mul_pos hu hdn
    linarith
  have he : 450 * (2 * d * u * S.length / β) ≤ 1024 * u * (d * S.length) / β := by
    rw [mul_div_assoc']
    refine div_le_div_of_nonneg_right ?_ hβ0.le
    have := mul_pos hu hdn
    linarith
  have hη : η ≤ u ^ 2 := by
    rw [η_eq, sq]
    unfold u
    rw [two_zpow_mul]
    exact two_zpow_le (by norm_num)
  have hΩ : 1 ≤ u * Ω := by
    have h1 := mul_le_mul_of_nonneg_left (le_Ω (e := 53) (by norm_num)) hu.le
    refine le_trans (le_of_eq ?_) h1
    unfold u; norm_num
  have hηM : η * (d * M) ≤ u ^ 2 := by
    have h1 : (d : ℝ) * M ≤ (2 : ℝ) ^ (44 : ℤ) * (2 : ℝ) ^ (450 : ℤ) := mul_le_mul (by exact_mod_cast hdl) hM hMp.le (by positivity)
    refine (mul_le_mul_of_nonneg_left h1 η_pos.le).trans ?_
    rw [η_eq, sq, two_zpow_mul, two_zpow_mul]
    unfold u
    rw [two_zpow_mul]
    exact two_zpow_le (by norm_num)
  have hΩM : 1 ≤ u * Ω * M := by
    have h1 : (2 : ℝ) ^ (-53 : ℤ) * (2 : ℝ) ^ (1000 : ℤ) ≤ u * Ω := mul_le_mul_of_nonneg_left (le_Ω (by norm_num)) hu.le
    have h2 := mul_le_mul h1 hM0 (by positivity) ((mul_nonneg hu.le (zero_le_two.trans one_le_Ω)))
    refine le_trans ?_ h2
    rw [two_zpow_mul, two_zpow_mul]
    exact one_le_zpow₀ (by norm_num) (by norm_num)
  exact (h.near hu hη hΩ hMp D T hk hβ' I hsum ht hsp hq hηM hΩM hI).mono he

theorem Separated.common {X : Spec.Stream d} {I : Index} (h : Separated β M I X) : Common6 I := by
  cases I <;> first | exact h.elim | simp [Common6]

/-- **C77**: the six common indices in binary64.  For features up to `M`, between `2 ^ -400` and `2 ^ 450`, and up to `2 ^ 44` numbers in all,
with two or more clusters, the returned number has relative error at most `2 ^ -43 * d * n / β`. -/
theorem C77_binary64 (hL : L.Dots d) (hs : L.Sums) (hd : 1 ≤ d) (I : Index) (S : Samples (F64 L)) (hS : S.Dim d)
    (hN : d * S.length ≤ 2 ^ 44) (hM0 : (2 : ℝ) ^ (-400 : ℤ) ≤ M) (hM : M ≤ (2 : ℝ) ^ (450 : ℤ))
    (hx : ∀ p ∈ S, ∀ a ∈ p.1, Fin a ∧ |val a| ≤ M) (hk : 2 ≤ Spec.numClusters (real (F := F64 L) val d S))
    (hβ : (2 : ℝ) ^ (-42 : ℤ) * (d * S.length) ≤ β) (hI : Separated β M I (real (F := F64 L) val d S)) :
    Close (F := F64 L) val Fin d I S ((2 : ℝ) ^ (-43 : ℤ) * (d * S.length) / β) := by
  have hne := order_ne hk
  have h := setting64 hL hs hd (List.length_pos_iff.mpr hne) hN hM0 hM
  have D : Inputs val Fin M S.length d S := ⟨hS, hx, le_rfl⟩
  have T := h.tables D hne
  exact .of hI.common hS hk (near64 hL hs hd I S hS hN hM0 hM hx hk hβ hI T (pySums h.full h.moderate.u0 h.du1.1)
    (fun _ => isTable_inc I) (fun _ hc => h.spread D T hc) isQuotients_inc)

/-! ## An example -/

/-- Two clusters, `{0, 1}` and `{3, 4}`. -/
def quadNats : List (ℕ × ℤ) := [(0, 0), (3, 1), (1, 0), (4, 1)]

/-- As floats. -/
def quads : Samples (F64 .plain) := quadNats.map fun p => ([B64.ofNat p.1], p.2)

/-- As real numbers. -/
def quadPts : Spec.Stream 1 := quadNats.map fun p => (fun _ => (p.1 : ℝ), p.2)

theorem quadNats_le : ∀ p ∈ quadNats, p.1 ≤ 4 := by decide

theorem getD_one (a z : B64) (i : _root_.Fin 1) : [a].getD i z = a := by
  rw [Subsingleton.elim i 0]; rfl

theorem quads_real : real (F := F64 .plain) val 1 quads = quadPts := by
  refine (List.map_map (l := quadNats)).trans (List.map_congr_left fun p hp => ?_)
  have h := quadNats_le p hp
  refine Prod.ext (funext fun i => ?_) rfl
  exact (congrArg val (getD_one _ _ i)).trans (ofNat_val (n := p.1) (by omega)).2

theorem quads_dim : quads.Dim 1 := by
  intro p hp
  obtain ⟨q, -, rfl⟩ := List.mem_map.mp hp
  rfl

theorem quads_le : ∀ p ∈ quads, ∀ a ∈ p.1, Fin a ∧ |val a| ≤ 4 := by
  intro p hp a ha
  obtain ⟨q, hq, rfl⟩ := List.mem_map.mp hp
  have h4 := quadNats_le q hq
  have h := ofNat_val (n := q.1) (by omega)
  rw [List.mem_singleton.mp ha]
  refine ⟨h.1.isFin, ?_⟩
  rw [h.2, Nat.abs_cast]
  exact_mod_cast h4

theorem quadPts_labels : Spec.labels quadPts = {0, 1} := by simp [Spec.labels, quadPts, quadNats]

theorem quadPts_cluster : Spec.cluster quadPts 0 = [fun _ => 0, fun _ => 1] ∧ Spec.cluster quadPts 1 = [fun _ => 3, fun _ => 4] := by
  constructor <;> simp [Spec.cluster, quadPts, quadNats]

theorem quadPts_centroid : Spec.centroid quadPts 0 = (fun _ => 1 / 2) ∧ Spec.centroid quadPts 1 = (fun _ => 7 / 2) := by
  constructor <;> funext i <;> norm_num [Spec.centroid, Spec.meanOf, quadPts_cluster]

theorem quadPts_mean : Spec.mean quadPts = fun _ => 2 := by funext i; norm_num [Spec.mean, Spec.meanOf, quadPts, quadNats]

theorem quadPts_size : Spec.size quadPts 0 = 2 ∧ Spec.size quadPts 1 = 2 := by
  constructor <;> simp [Spec.size, quadPts_cluster]

theorem quadPts_scatter : Spec.scatter quadPts 0 = 1 / 2 ∧ Spec.scatter quadPts 1 = 1 / 2 := by
  constructor <;> norm_num [Spec.scatter, quadPts_cluster, quadPts_centroid, Spec.dist2]

theorem quadPts_sep : Spec.sep quadPts 0 1 = 9 ∧ Spec.sep quadPts 1 0 = 9 := by
  constructor <;> norm_num [Spec.sep, quadPts_centroid, Spec.dist2]

theorem quadPts_separated {I : Index} (hI : Common6 I) : Separated (1 / 64) 4 I quadPts := by
  have hl : quadPts.length = 4 := rfl
  have hW : Spec.WGSS quadPts = 1 := by
    rw [Spec.WGSS, quadPts_labels, Finset.sum_pair (by norm_num), quadPts_scatter.1, quadPts_scatter.2]; norm_num
  have hB : Spec.BGSS quadPts = 9 := by
    rw [Spec.BGSS, quadPts_labels, Finset.sum_pair (by norm_num), quadPts_size.1, quadPts_size.2, quadPts_mean, quadPts_centroid.1,
      quadPts_centroid.2]
    norm_num [Spec.dist2]
  have hm : ∀ c ∈ Spec.labels quadPts, Spec.meanScatter quadPts c = 1 / 4 := by
    intro c hc
    rw [quadPts_labels, Finset.mem_insert, Finset.mem_singleton] at hc
    rcases hc with rfl | rfl <;> norm_num [Spec.meanScatter, quadPts_scatter, quadPts_size]
  have hs : ∀ a ∈ Spec.labels quadPts, ∀ b ∈ Spec.labels quadPts, a ≠ b → Spec.sep quadPts a b = 9 ∧
      (Spec.scatter quadPts a + Spec.scatter quadPts b) / ((Spec.size quadPts a : ℝ) + Spec.size quadPts b) = 1 / 4 := by
    intro a ha b hb hab
    rw [quadPts_labels, Finset.mem_insert, Finset.mem_singleton] at ha hb
    rcases ha with rfl | rfl <;> rcases hb with rfl | rfl <;>
      first
        | exact absurd rfl hab
        | norm_num [quadPts_sep, quadPts_scatter, quadPts_size]
  have hi : sInf (Spec.pairValues quadPts (Spec.sep quadPts)) = 9 := by
    have : Spec.pairValues quadPts (Spec.sep quadPts) = {9} := by
      ext r
      simp only [Spec.pairValues, Set.mem_ofPred_eq, Set.mem_singleton_iff]
      constructor
      · rintro ⟨a, ha, b, hb, hab, rfl⟩
        exact (hs a ha b hb hab).1
      · rintro rfl
        exact ⟨0, by simp [quadPts_labels], 1, by simp [quadPts_labels], by norm_num, quadPts_sep.1.symm⟩
    rw [this, csInf_singleton]
  have hM : sSup {r | ∃ c ∈ Spec.labels quadPts, r = Spec.meanScatter quadPts c} = 1 / 4 := by
    have : {r | ∃ c ∈ Spec.labels quadPts, r = Spec.meanScatter quadPts c} = {1 / 4} := by
      ext r
      simp only [Set.mem_ofPred_eq, Set.mem_singleton_iff]
      constructor
      · rintro ⟨c, hc, rfl⟩
        exact hm c hc
      · rintro rfl
        exact ⟨0, by simp [quadPts_labels], (hm 0 (by simp [quadPts_labels])).symm⟩
    rw [this, csSup_singleton]
  rcases hI with rfl | rfl | rfl | rfl | rfl | rfl
  · simp only [Separated, hl, hW, hB]; norm_num
  · simp only [Separated, hl, hW, hB]; norm_num
  · simp only [Separated, hl, hW, hi]; norm_num
  · intro a ha b hb hab
    rw [(hs a ha b hb hab).1, hm a ha, hm b hb]
    norm_num
  · simp only [Separated, hi, hM]; norm_num
  · intro a ha b hb hab
    rw [(hs a ha b hb hab).2]
    norm_num

/-- All six indices of these four points are within `2 ^ -35` of the exact ones. -/
theorem quads_close {I : Index} (hI : Common6 I) : Close (F := F64 .plain) val Fin 1 I quads ((2 : ℝ) ^ (-35 : ℤ)) := by
  have hk : 2 ≤ Spec.numClusters (real (F := F64 .plain) val 1 quads) := by rw [quads_real, Spec.numClusters, quadPts_labels]; simp
  have hl : quads.length = 4 := rfl
  refine (C77_binary64 (M := 4) (β := 1 / 64) (Lib.plain_dots 1) Lib.plain_sums le_rfl I quads quads_dim (by rw [hl]; norm_num) ?_ ?_ quads_le hk
    ?_ (quads_real ▸ quadPts_separated hI)).mono ?_
  · exact le_trans (zpow_le_one_of_nonpos₀ (by norm_num) (by norm_num)) (by norm_num)
  · have : (2 : ℝ) ^ (2 : ℤ) ≤ (2 : ℝ) ^ (450 : ℤ) := two_zpow_le (by norm_num)
    exact le_trans (by norm_num) this
  · rw [hl]; norm_num
  · rw [hl]; norm_num

end Verif.Gen
