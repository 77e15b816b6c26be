import Verif.Gen.RoundingIndex
import Verif.Gen.SpecBatch

/-!
# Error of the statistics of a batch

`np.mean` of a column divides a sum, in any order, by the number of rows; the compactness is a sum, in any order, over all entries of the
array of squared differences.  Both are accurate, as the statistics that are kept in incremental mode (`Setting.tables`).
-/

set_option linter.unusedSectionVars false

namespace Verif.Gen

/-- The standard model for the means and the sums of a batch. -/
structure StandardBatch (F : Type) [Arith F] (val : F → ℝ) (fin : F → Prop) (u Ω : ℝ) (N d : ℕ) : Prop where
  one : fin (Arith.one : F) ∧ val (Arith.one : F) = 1
  colMean : ∃ sum : List F → F, Sums val fin u Ω N sum ∧ ∀ l : List F, Arith.colMean l = sum l / Arith.ofNat l.length
  sum2 : ∀ rows : List (List F), rows.length ≤ N → (∀ r ∈ rows, r.length = d) → SumsTo val fin u Ω rows.flatten (Arith.sum2 rows)

namespace Rounding

variable {F : Type} [Arith F] {val : F → ℝ} {fin : F → Prop} {u η Ω M γ : ℝ} {N d : ℕ}

theorem getD_mem {x : List F} {j : ℕ} (hj : j < x.length) : x.getD j 0 ∈ x := by
  rw [List.getD_eq_getElem?_getD, List.getElem?_eq_getElem hj]
  exact List.getElem_mem hj

theorem colMeans_getD {l : List (List F)} {j : ℕ} (hj : j < d) :
    (colMeans d l).getD j 0 = Arith.colMean (l.map fun x => x.getD j 0) := by
  simp [colMeans, List.getD_eq_getElem?_getD, hj]

theorem map_sum_const {ι : Type} (l : List ι) (K : ℝ) : (l.map fun _ => K).sum = l.length * K := by simp

omit [Arith F] in
/-- A sum over all entries is a sum over columns. -/
theorem sum_cells (g : List F → ℕ → ℝ) (l : List (List F)) :
    ((l.flatMap fun x => (List.range d).map fun j => (x, j)).map fun i => g i.1 i.2).sum = ∑ j ∈ Finset.range d, (l.map fun x => g x j).sum := by
  induction l with
  | nil => simp
  | cons x l ih =>
    rw [List.flatMap_cons, List.map_append, List.sum_append, ih]
    simp only [List.map_cons, List.sum_cons, Finset.sum_add_distrib, List.map_map]
    congr 1

variable (h : Setting F val fin u η Ω M γ N d) (B : StandardBatch F val fin u Ω N d)
include h B

/-- `np.mean` of a column, and the same times one. -/
theorem Setting.colMean {l : List (List F)} (hl : l ≠ []) (hd : ∀ x ∈ l, x.length = d)
    (hx : ∀ x ∈ l, ∀ a ∈ x, fin a ∧ |val a| ≤ M) (hN : l.length ≤ N) {j : ℕ} (hj : j < d) :
    fin ((colMeans d l).getD j 0) ∧ |val ((colMeans d l).getD j 0) - mean val l j| ≤ 9 / 2 * (γ * N * M) ∧ |mean val l j| ≤ M ∧
    fin ((colMeans d l).getD j 0 * Arith.one) ∧ |val ((colMeans d l).getD j 0 * Arith.one) - mean val l j| ≤ 7 * (γ * N * M) := by
  obtain ⟨u0, uγ, γN, η0, ηu, ηγ, ηM, M0, Ω1, Ω2⟩ := h.moderate
  obtain ⟨e1, e2, e3, e4, -⟩ := h.eps
  have hN1 : (1 : ℝ) ≤ N := by exact_mod_cast h.N1
  have hlN : (l.length : ℝ) ≤ N := by exact_mod_cast hN
  have hn1 : (1 : ℝ) ≤ l.length := by exact_mod_cast List.length_pos_iff.mpr hl
  have hn0 : (0 : ℝ) < l.length := by linarith
  have hNM : l.length * M ≤ N * M := mul_le_mul_of_nonneg_right hlN M0
  have hM1 : M ≤ l.length * M := by have := mul_le_mul_of_nonneg_right hn1 M0; linarith
  have hb : ∀ x ∈ l, fin (x.getD j 0) ∧ |val (x.getD j 0)| ≤ M := fun x hx' => hx x hx' _ (getD_mem (by rw [hd x hx']; exact hj))
  have hm := mean_abs (fun x hx' => (hb x hx').2) hl
  obtain ⟨sum, hsum, hc⟩ := B.colMean
  obtain ⟨f1, i1⟩ := sum_near hsum u0 l hN (f := fun x => x.getD j 0) (A := fun x => val (x.getD j 0)) (e := fun _ => 0) (b := fun _ => M)
    (fun x hx' => ⟨(hb x hx').1, by simp⟩) (fun x hx' => by rw [add_zero]; exact (hb x hx').2)
    (by rw [map_sum_const]; linarith [mul_nonneg (show (0 : ℝ) ≤ N by linarith) M0])
  rw [map_sum_const, map_sum_const, mul_zero, zero_add] at i1
  obtain ⟨g1, g2⟩ := h.full.ofNat _ hN
  rw [colMeans_getD hj, hc, List.length_map]
  generalize sum (l.map fun x => x.getD j 0) = s at *
  have hnu : l.length * u ≤ γ * N := by
    have := mul_le_mul hlN uγ u0 (by linarith)
    linarith
  have i2 : |val s / l.length - mean val l j| ≤ 2 * (γ * N * M) := by
    rw [mean, ← sub_div, abs_div, abs_of_pos hn0, div_le_iff₀ hn0]
    have h1 := mul_le_mul_of_nonneg_right hnu (show 0 ≤ 2 * (l.length * M) by positivity)
    linarith
  have hεM : 128 * (γ * N * M) ≤ M := by have := mul_le_mul_of_nonneg_right e2 M0; linarith
  have i3 : |val s / l.length| ≤ 66 / 64 * M := by have := abs_le_of_err i2; linarith
  obtain ⟨f2, i4⟩ := h.full.div s (Arith.ofNat l.length) f1 g1 (by rw [g2]; exact hn0.ne') (by rw [g2]; linarith)
  rw [g2] at i4
  have huM := mul_le_mul_of_nonneg_right e1 M0
  have i5 : |val (s / Arith.ofNat l.length) - mean val l j| ≤ 9 / 2 * (γ * N * M) := by
    have h1 := abs_add_le (val (s / Arith.ofNat l.length) - val s / l.length) (val s / l.length - mean val l j)
    rw [sub_add_sub_cancel] at h1
    have h2 := mul_le_mul_of_nonneg_left i3 u0
    linarith
  refine ⟨f2, i5, hm, ?_⟩
  generalize s / Arith.ofNat l.length = v at *
  have i6 : |val v| ≤ 67 / 64 * M := by have := abs_le_of_err i5; linarith
  obtain ⟨o1, o2⟩ := B.one
  obtain ⟨f3, i7⟩ := h.full.mul v Arith.one f2 o1 (by rw [o2, mul_one]; linarith)
  rw [o2, mul_one] at i7
  refine ⟨f3, ?_⟩
  have h1 := abs_add_le (val (v * Arith.one) - val v) (val v - mean val l j)
  rw [sub_add_sub_cancel] at h1
  have h2 := mul_le_mul_of_nonneg_left i6 u0
  linarith

/-- The centroid. -/
theorem Setting.batchCentroid {l : List (List F)} (hl : l ≠ []) (hd : ∀ x ∈ l, x.length = d)
    (hx : ∀ x ∈ l, ∀ a ∈ x, fin a ∧ |val a| ≤ M) (hN : l.length ≤ N) : Near val fin M (γ * N) d (colMeans d l) l := by
  refine ⟨by simp [colMeans], fun j hj => ?_⟩
  obtain ⟨f, i, hm, -⟩ := h.colMean B hl hd hx hN hj
  refine ⟨f, i.trans ?_, hm⟩
  have := mul_nonneg h.eps.2.2.1 h.moderate.M0
  linarith

/-- The compactness. -/
theorem Setting.batchScatter {l : List (List F)} (hl : l ≠ []) (hd : ∀ x ∈ l, x.length = d)
    (hx : ∀ x ∈ l, ∀ a ∈ x, fin a ∧ |val a| ≤ M) (hN : l.length ≤ N) :
    fin (Stat.batch d l).cp ∧ |val (Stat.batch d l).cp - scatter val l d| ≤ l.length * (128 * (γ * N * (d * M ^ 2))) := by
  obtain ⟨u0, uγ, γN, η0, ηu, ηγ, ηM, M0, Ω1, Ω2⟩ := h.moderate
  obtain ⟨e1, e2, e3, e4, -⟩ := h.eps
  have hlN : (l.length : ℝ) ≤ N := by exact_mod_cast hN
  have hMM : 0 ≤ M ^ 2 := by positivity
  have hdM : 0 ≤ d * M ^ 2 := by positivity
  have hεM : 128 * (γ * N * M ^ 2) ≤ M ^ 2 := by have := mul_le_mul_of_nonneg_right e2 hMM; linarith
  have hv : (colMeans d l).length = d := by simp [colMeans]
  obtain ⟨L, hL⟩ : ∃ L, L = l.flatMap fun x => (List.range d).map fun j => (x, j) := ⟨_, rfl⟩
  have hmem : ∀ i ∈ L, i.1 ∈ l ∧ i.2 < d := by
    rintro ⟨x, j⟩ hi
    simp only [hL, List.mem_flatMap, List.mem_map, List.mem_range, Prod.mk.injEq] at hi
    obtain ⟨y, hy, k, hk, rfl, rfl⟩ := hi
    exact ⟨hy, hk⟩
  have hlen : (L.length : ℝ) = l.length * d := by
    rw [hL]
    simp
  have hflat : (l.map fun x => Gen.sqDiff x (colMeans d l)).flatten =
      L.map fun i => Arith.sq (i.1.getD i.2 0 - (colMeans d l).getD i.2 0 * Arith.one) := by
    rw [hL, List.map_flatMap, ← List.flatMap_def]
    refine List.flatMap_congr fun x hx' => ?_
    rw [Gen.sqDiff, zip_sq (hd x hx') (by rw [List.length_map]; exact hv), List.map_map]
    refine List.map_congr_left fun j hj => ?_
    simp only [Function.comp]
    rw [getD_map (by rw [hv]; exact List.mem_range.mp hj)]
  have hsum := B.sum2 (l.map fun x => Gen.sqDiff x (colMeans d l)) (by rwa [List.length_map]) (by
    intro r hr
    obtain ⟨x, hx', rfl⟩ := List.mem_map.mp hr
    simp [Gen.sqDiff, hd x hx', hv])
  rw [hflat] at hsum
  have hs : ∀ i ∈ L, fin (Arith.sq (i.1.getD i.2 0 - (colMeans d l).getD i.2 0 * Arith.one)) ∧
      |val (Arith.sq (i.1.getD i.2 0 - (colMeans d l).getD i.2 0 * Arith.one)) - (val (i.1.getD i.2 0) - mean val l i.2) ^ 2| ≤
        95 * (γ * N * M ^ 2) ∧ (val (i.1.getD i.2 0) - mean val l i.2) ^ 2 ≤ 4 * M ^ 2 := by
    intro i hi
    obtain ⟨hi1, hi2⟩ := hmem i hi
    obtain ⟨a1, a2⟩ := hx _ hi1 _ (getD_mem (show i.2 < i.1.length by rw [hd _ hi1]; exact hi2))
    obtain ⟨-, -, b1, b2, b3⟩ := h.colMean B hl hd hx hN hi2
    exact h.sqDiff a1 (by rw [sub_self, abs_zero]; positivity) a2 b2 b3 b1
  obtain ⟨f1, i1⟩ := sumTo_near hsum u0 (A := fun i => (val (i.1.getD i.2 0) - mean val l i.2) ^ 2) (e := fun _ => 95 * (γ * N * M ^ 2))
    (b := fun _ => 5 * M ^ 2) (fun i hi => ⟨(hs i hi).1, (hs i hi).2.1⟩) (fun i hi => by
      have := (hs i hi).2.2
      rw [abs_of_nonneg (by positivity)]
      linarith) (by
      rw [map_sum_const, hlen]
      have := mul_le_mul_of_nonneg_right hlN hdM
      have : 0 ≤ N * (d * M ^ 2) := by positivity
      linarith)
  rw [map_sum_const, map_sum_const, hlen] at i1
  have hS : (L.map fun i => (val (i.1.getD i.2 0) - mean val l i.2) ^ 2).sum = scatter val l d := by
    rw [hL, sum_cells fun x j => (val (x.getD j 0) - mean val l j) ^ 2, scatter]
    refine Finset.sum_congr rfl fun j _ => ?_
    rw [column, List.map_map]
    rfl
  rw [hS] at i1
  refine ⟨f1, i1.trans ?_⟩
  have hdu := mul_le_mul hlN h.du (by positivity) (by positivity)
  have h1 := mul_le_mul_of_nonneg_right hdu (show 0 ≤ 10 * (l.length * (d * M ^ 2)) by positivity)
  have h2 : 0 ≤ l.length * (γ * N * (d * M ^ 2)) := by positivity
  linarith

/-- The labels `0, 1, .., k-1`. -/
def labelRange (k : ℕ) : List ℤ := (List.range k).map (↑)

/-- The rows with label `i`. -/
def rowsOf (S : Samples F) (i : ℕ) : List (List F) := own S (i : ℤ)

omit h B in
theorem labels_perm {S : Samples F} (hc : Spec.Consecutive (real val d S)) : (labelRange (order S).length).Perm (order S) := by
  rw [List.perm_ext_iff_of_nodup ?_ (order_nodup S)]
  · intro c
    have h1 := hc c
    rw [numClusters_real, labels_real, List.mem_toFinset] at h1
    rw [h1, labelRange, List.mem_map]
    constructor
    · rintro ⟨i, hi, rfl⟩
      have := List.mem_range.mp hi
      omega
    · rintro ⟨h0, h1⟩
      exact ⟨c.toNat, List.mem_range.mpr (by omega), by omega⟩
  · exact (List.nodup_range).map fun a b e => by simpa using e

/-- The statistics of a batch. -/
theorem Setting.batchTables {S : Samples F} (D : Inputs val fin M N d S) (hS : S ≠ []) (hc : Spec.Consecutive (real val d S)) :
    Tables val fin M (γ * N) d S (labelRange (order S).length) (fun c => Stat.batch d (own S c)) (colMeans d (S.map Prod.fst)) where
  perm := labels_perm hc
  n _ _ := rfl
  v c hc' := h.batchCentroid B (Inputs.own_ne ((labels_perm hc).mem_iff.mp hc')) D.own_dim D.own_bound (Inputs.own_le.trans D.length)
  m := h.batchCentroid B (by simpa using hS) D.all_dim D.all_bound (by simpa using D.length)
  cp c hc' := h.batchScatter B (Inputs.own_ne ((labels_perm hc).mem_iff.mp hc')) D.own_dim D.own_bound (Inputs.own_le.trans D.length)

omit h B

/-- The table of distances. -/
def batchTable (d : ℕ) (S : Samples F) (I : Index) (a b : ℤ) : F := Batch.table d (rowsOf S) I a.toNat b.toNat

/-- DB's quotients. -/
def batchQuotients (d : ℕ) (S : Samples F) (a b : ℤ) : F := Batch.both (Batch.quotient d (rowsOf S)) b.toNat a.toNat

theorem pairs_lt {l : List ℕ} (hl : l.Pairwise (· < ·)) : ∀ p ∈ pairs l, p.1 < p.2 := by
  induction l with
  | nil => simp [pairs]
  | cons a l ih =>
    intro p hp
    rw [List.pairwise_cons] at hl
    simp only [pairs, List.mem_append, List.mem_map] at hp
    rcases hp with ⟨b, hb, rfl⟩ | hp
    · exact hl.1 b hb
    · exact ih hl.2 p hp

theorem batch_isTable {S : Samples F} {I : Index} {k : ℕ} :
    IsTable I (labelRange k) (fun c => Stat.batch d (own S c)) (batchTable d S I) := by
  intro p hp
  rw [labelRange, pairs_map, List.mem_map] at hp
  obtain ⟨⟨i, j⟩, hij, rfl⟩ := hp
  have hlt : i < j := pairs_lt List.pairwise_lt_range _ hij
  left
  simp only [batchTable, Int.toNat_natCast, Batch.table, Batch.both, if_pos hlt, if_neg hlt.not_gt, rowsOf]
  split
  · exact .inl rfl
  · exact .inr (.inl rfl)

theorem batch_isQuotients {S : Samples F} {k : ℕ} : IsQuotients (labelRange k) (fun c => Stat.batch d (own S c))
    (fun c => Batch.spread d (rowsOf S) c.toNat) (batchQuotients d S) := by
  constructor
  · intro a _
    simp only [batchQuotients, Batch.both, if_neg (lt_irrefl _)]
  · intro a ha b hb hab
    simp only [labelRange, List.mem_map] at ha hb
    obtain ⟨i, -, rfl⟩ := ha
    obtain ⟨j, -, rfl⟩ := hb
    have hij : i ≠ j := fun e => hab (by rw [e])
    have ht : ∀ i j, i < j → Batch.table d (rowsOf S) .DB j i =
        0 + between .DB (Stat.batch d (own S (i : ℤ))) (Stat.batch d (own S (j : ℤ))) := by
      intro i j hlt
      simp only [Batch.table, Batch.both, if_pos hlt, if_neg hlt.not_gt, rowsOf]
      rw [if_neg (by simp)]
    simp only [batchQuotients, Int.toNat_natCast, Batch.both]
    rcases lt_or_gt_of_ne hij with hlt | hlt
    · refine ⟨i, j, i, j, _, .inl ⟨rfl, rfl⟩, .inl ⟨rfl, rfl⟩, .inr (.inr (ht i j hlt)), .inr (.inr ?_)⟩
      simp only [if_pos hlt, if_neg hlt.not_gt, Batch.quotient, Int.toNat_natCast]
    · refine ⟨j, i, j, i, _, .inr ⟨rfl, rfl⟩, .inr ⟨rfl, rfl⟩, .inr (.inr (ht j i hlt)), .inr (.inl ?_)⟩
      simp only [if_pos hlt, if_neg hlt.not_gt, Batch.quotient, Int.toNat_natCast]

include h B in
/-- DB's spreads. -/
theorem Setting.batchSpread {S : Samples F} (D : Inputs val fin M N d S) (hS : S ≠ []) (hc : Spec.Consecutive (real val d S)) :
    ∀ c ∈ labelRange (order S).length, fin (Batch.spread d (rowsOf S) c.toNat) ∧
      |val (Batch.spread d (rowsOf S) c.toNat) - Spec.meanScatter (real val d S) c| ≤ 134 * (γ * N * (d * M ^ 2)) := by
  intro c hc'
  have := h.meanScatter D (h.batchTables B D hS hc) hc'
  obtain ⟨i, -, rfl⟩ := List.mem_map.mp hc'
  exact ⟨this.1, this.2.1⟩

include h in
theorem Setting.npSums : Sums val fin u Ω d Arith.npSum := fun l hl => h.full.npSum l (hl.trans (le_max_right ..))

/-- The value of a batch. -/
theorem batch_formula {S : Samples F} {k : ℕ} {I : Index} (hI : Common6 I) :
    Batch.value d k (rowsOf S) (S.map Prod.fst) I = formula (labelRange k) (fun c => Stat.batch d (own S c))
      (colMeans d (S.map Prod.fst)) Arith.npSum (batchTable d S I) (batchQuotients d S) S.length I := by
  rcases hI with rfl | rfl | rfl | rfl | rfl | rfl <;>
    simp only [Batch.value, formula, labelRange, pairs_map, List.map_map, List.length_map, List.length_range, Batch.distances,
      batchTable, batchQuotients, Int.toNat_natCast, Function.comp_def, Stat.batch, rowsOf] <;> rfl

end Rounding
end Verif.Gen
