import Verif.Gen.RoundingPS

/-!
# Error of the value of cSIL, in batch mode

The coefficients of the clusters may cancel, so the error is absolute.
-/

set_option linter.unusedSectionVars false

namespace Verif.Gen

/-- The standard model for cSIL. -/
structure StandardSil (F : Type) [Arith F] (val : F → ℝ) (fin : F → Prop) (u Ω : ℝ) (d : ℕ) : Prop where
  rowSum : Sums val fin u Ω d (Arith.rowSum : List F → F)
  max2 : ∀ a b : F, fin a → fin b → fin (Arith.max2 a b) ∧ val (Arith.max2 a b) = max (val a) (val b)
  truthy : ∀ a : F, fin a → val a ≠ 0 → Arith.truthy a = true

namespace Rounding

variable {F : Type} [Arith F] {val : F → ℝ} {fin : F → Prop} {u η Ω M γ κ : ℝ} {N d : ℕ}

/-- The mean over the samples in `l` of the squared distance to the mean of `l'`. -/
noncomputable def cross (val : F → ℝ) (d : ℕ) (l l' : List (List F)) : ℝ :=
  (l.map fun x => ((List.range d).map fun j => (val (x.getD j 0) - mean val l' j) ^ 2).sum).sum / l.length

theorem cross_real (S : Samples F) (a b : ℤ) : Spec.crossScatter (real val d S) a b = cross val d (own S a) (own S b) := by
  rw [Spec.crossScatter, cross, size_real, cluster_real, List.map_map]
  congr 3
  funext x
  rw [Function.comp, Spec.dist2, ← sum_range_list, Finset.sum_range]
  exact Finset.sum_congr rfl fun i _ => by rw [centroid_real]

/-- The arithmetic of a silhouette coefficient: `q` is the quotient that is rounded. -/
theorem sil_real {x a b A B C Q : ℝ} (hx0 : 0 ≤ x) (hx : 1000 * x ≤ 1) (hu : 0 ≤ u) (hux : u ≤ 4 * x) (hη : η ≤ u) (ha : 0 ≤ a) (hb : 0 ≤ b)
    (hm : 0 < max a b) (hub : u * max a b ≤ 4 * (x * max a b)) (hA : |A - a| ≤ 121 * (x * max a b)) (hB : |B - b| ≤ 121 * (x * max a b))
    (hC : |C - (B - A)| ≤ u * |B - A|) (hQ : |Q - C / max A B| ≤ u * |C / max A B| + η) :
    |B - A| ≤ 2 * max a b ∧ 0 < max A B ∧ |C / max A B| ≤ 2 ∧ |Q - (b - a) / max a b| ≤ 440 * x ∧ |(b - a) / max a b| ≤ 1 := by
  obtain ⟨m, hm'⟩ : ∃ m, m = max a b := ⟨_, rfl⟩
  rw [← hm'] at hm hub hA hB ⊢
  have hxm : 1000 * (x * m) ≤ m := by have := mul_le_mul_of_nonneg_right hx hm.le; linarith
  have hxm0 : 0 ≤ x * m := by positivity
  have ham : a ≤ m := hm' ▸ le_max_left ..
  have hbm : b ≤ m := hm' ▸ le_max_right ..
  have h1 : |b - a| ≤ m := abs_le.mpr ⟨by linarith, by linarith⟩
  have h2 : |B - A - (b - a)| ≤ 242 * (x * m) := by
    have := abs_sub (B - b) (A - a)
    rw [show B - b - (A - a) = B - A - (b - a) by ring] at this
    linarith
  have h3 : |B - A| ≤ 5 / 4 * m := by have := abs_le_of_err h2; linarith
  have h4 : |C - (b - a)| ≤ 247 * (x * m) := by
    have e1 := abs_add_le (C - (B - A)) (B - A - (b - a))
    rw [sub_add_sub_cancel] at e1
    have e2 := mul_le_mul_of_nonneg_left h3 hu
    linarith
  obtain ⟨D, hD⟩ : ∃ D, D = max A B := ⟨_, rfl⟩
  rw [← hD] at hQ ⊢
  have h5 : |D - m| ≤ 121 * (x * m) := by
    rw [hD, hm']
    rw [hm'] at hA hB
    exact (abs_max_sub_max_le_max A B a b).trans (max_le hA hB)
  have hDm : 879 / 1000 * m ≤ D := by linarith [(abs_le.mp h5).1]
  have hD0 : 0 < D := by linarith
  obtain ⟨q, hq⟩ : ∃ q, q = (b - a) / m := ⟨_, rfl⟩
  have hqm : q * m = b - a := by rw [hq]; field_simp
  have hq1 : |q| ≤ 1 := by rw [hq, abs_div, abs_of_pos hm, div_le_one hm]; exact h1
  rw [← hq]
  have h6 : |C / D - q| ≤ 419 * x := by
    have e : C / D - q = ((C - (b - a)) - q * (D - m)) / D := by
      rw [← hqm]; field_simp; ring
    rw [e, abs_div, abs_of_pos hD0, div_le_iff₀ hD0]
    have e1 := abs_sub (C - (b - a)) (q * (D - m))
    rw [abs_mul] at e1
    have e2 := mul_le_mul hq1 h5 (abs_nonneg _) zero_le_one
    have e3 := mul_le_mul_of_nonneg_left hDm (show 0 ≤ 419 * x by positivity)
    linarith
  have h7 : |C / D| ≤ 2 := by have := abs_le_of_err h6; linarith
  refine ⟨by linarith, hD0, h7, ?_, hq1⟩
  have e1 := abs_add_le (Q - C / D) (C / D - q)
  rw [sub_add_sub_cancel] at e1
  have e2 := mul_le_mul_of_nonneg_left h7 hu
  linarith

variable (h : Setting F val fin u η Ω M γ N d) (B : StandardBatch F val fin u Ω N d) (E : StandardSil F val fin u Ω d)
include h B E

/-- The squared distance of a sample and a centroid. -/
theorem Setting.silRow {l : List (List F)} (hl : l ≠ []) (hd : ∀ x ∈ l, x.length = d)
    (hx : ∀ x ∈ l, ∀ a ∈ x, fin a ∧ |val a| ≤ M) (hN : l.length ≤ N) {x : List F} (hxd : x.length = d)
    (hxx : ∀ a ∈ x, fin a ∧ |val a| ≤ M) :
    fin (Arith.rowSum (Gen.sqDiff x (colMeans d l))) ∧
    |val (Arith.rowSum (Gen.sqDiff x (colMeans d l))) - ((List.range d).map fun j => (val (x.getD j 0) - mean val l j) ^ 2).sum| ≤
      105 * (γ * N * (d * M ^ 2)) ∧
    0 ≤ ((List.range d).map fun j => (val (x.getD j 0) - mean val l j) ^ 2).sum ∧
    ((List.range d).map fun j => (val (x.getD j 0) - mean val l j) ^ 2).sum ≤ 4 * (d * M ^ 2) := by
  obtain ⟨u0, uγ, γN, η0, ηu, ηγ, ηM, M0, Ω1, Ω2⟩ := h.moderate
  obtain ⟨e1, e2, e3, e4, -⟩ := h.eps
  have hN1 : (1 : ℝ) ≤ N := by exact_mod_cast h.N1
  have hMM : 0 ≤ M ^ 2 := by positivity
  have hdM : 0 ≤ d * M ^ 2 := by positivity
  have hNd : d * M ^ 2 ≤ N * (d * M ^ 2) := by have := mul_le_mul_of_nonneg_right hN1 hdM; linarith
  have hεM : 128 * (γ * N * M ^ 2) ≤ M ^ 2 := by have := mul_le_mul_of_nonneg_right e2 hMM; linarith
  have hv : (colMeans d l).length = d := by simp [colMeans]
  have hflat : Gen.sqDiff x (colMeans d l) =
      (List.range d).map fun j => Arith.sq (x.getD j 0 - (colMeans d l).getD j 0 * Arith.one) := by
    rw [Gen.sqDiff, zip_sq hxd (by rw [List.length_map]; exact hv)]
    refine List.map_congr_left fun j hj => ?_
    rw [getD_map (by rw [hv]; exact List.mem_range.mp hj)]
  rw [hflat]
  have hs : ∀ j ∈ List.range d, fin (Arith.sq (x.getD j 0 - (colMeans d l).getD j 0 * Arith.one)) ∧
      |val (Arith.sq (x.getD j 0 - (colMeans d l).getD j 0 * Arith.one)) - (val (x.getD j 0) - mean val l j) ^ 2| ≤
        95 * (γ * N * M ^ 2) ∧ (val (x.getD j 0) - mean val l j) ^ 2 ≤ 4 * M ^ 2 := by
    intro j hj
    have hj := List.mem_range.mp hj
    obtain ⟨a1, a2⟩ := hxx _ (getD_mem (show j < x.length by rw [hxd]; exact hj))
    obtain ⟨-, -, b1, b2, b3⟩ := h.colMean B hl hd hx hN hj
    exact h.sqDiff a1 (by rw [sub_self, abs_zero]; positivity) a2 b2 b3 b1
  obtain ⟨f1, i1⟩ := sum_near E.rowSum u0 (List.range d) (by simp) (fun j hj => ⟨(hs j hj).1, (hs j hj).2.1⟩)
    (b := fun _ => 5 * M ^ 2) (fun j hj => by
      have := (hs j hj).2.2
      rw [abs_of_nonneg (by positivity)]
      linarith) (by rw [range_sum_const]; linarith)
  rw [range_sum_const, range_sum_const, List.length_range] at i1
  refine ⟨f1, i1.trans ?_, List.sum_nonneg ?_, ?_⟩
  · have h1 : γ ≤ γ * N := by have := mul_le_mul_of_nonneg_left hN1 (u0.trans uγ); linarith
    have h2 := mul_le_mul_of_nonneg_right (h.du.trans h1) (show 0 ≤ 10 * (d * M ^ 2) by positivity)
    linarith
  · intro y hy
    obtain ⟨j, -, rfl⟩ := List.mem_map.mp hy
    positivity
  · have : ((List.range d).map fun j => (val (x.getD j 0) - mean val l j) ^ 2).sum ≤ ((List.range d).map fun _ => 4 * M ^ 2).sum :=
      List.sum_le_sum fun j hj => (hs j hj).2.2
    rw [range_sum_const] at this
    linarith

variable {S : Samples F} (D : Inputs val fin M N d S)
include D

/-- An entry of the matrix of mean squared distances. -/
theorem Setting.silCell {a b : ℕ} (ha : (a : ℤ) ∈ order S) (hb : (b : ℤ) ∈ order S) :
    fin (Batch.cell d (rowsOf S) a b) ∧
    |val (Batch.cell d (rowsOf S) a b) - Spec.crossScatter (real val d S) a b| ≤ 121 * (γ * N * (d * M ^ 2)) ∧
    0 ≤ Spec.crossScatter (real val d S) a b ∧ Spec.crossScatter (real val d S) a b ≤ 4 * (d * M ^ 2) := by
  obtain ⟨u0, uγ, γN, η0, ηu, ηγ, ηM, M0, Ω1, Ω2⟩ := h.moderate
  obtain ⟨e1, e2, e3, e4, -⟩ := h.eps
  rw [cross_real, Batch.cell, cross]
  have hne := Inputs.own_ne ha
  have hk : (own S (a : ℤ)).length ≤ N := Inputs.own_le.trans D.length
  have hp := fun x (hx : x ∈ own S (a : ℤ)) => h.silRow B E (Inputs.own_ne hb) D.own_dim D.own_bound (Inputs.own_le.trans D.length)
    (D.own_dim x hx) (D.own_bound x hx)
  simp only [rowsOf]
  generalize own S (a : ℤ) = l at *
  generalize own S (b : ℤ) = l' at *
  have hlN : (l.length : ℝ) ≤ N := by exact_mod_cast hk
  have hn1 : (1 : ℝ) ≤ l.length := by exact_mod_cast List.length_pos_iff.mpr hne
  have hn0 : (0 : ℝ) < l.length := by linarith
  have hdM : 0 ≤ d * M ^ 2 := by positivity
  have hd1 : (1 : ℝ) ≤ d := by exact_mod_cast h.d1
  have hMd : M ^ 2 ≤ d * M ^ 2 := by have := mul_le_mul_of_nonneg_right hd1 (show 0 ≤ M ^ 2 by positivity); linarith
  have hNd : l.length * (d * M ^ 2) ≤ N * (d * M ^ 2) := mul_le_mul_of_nonneg_right hlN hdM
  have hd2 : d * M ^ 2 ≤ l.length * (d * M ^ 2) := by have := mul_le_mul_of_nonneg_right hn1 hdM; linarith
  have hεd : 128 * (γ * N * (d * M ^ 2)) ≤ d * M ^ 2 := by have := mul_le_mul_of_nonneg_right e2 hdM; linarith
  have hεd0 : 0 ≤ γ * N * (d * M ^ 2) := by positivity
  obtain ⟨f1, i1⟩ := sum_near (pySums h.full u0 h.du1.2) u0 l hk (f := fun x => Arith.rowSum (Gen.sqDiff x (colMeans d l')))
    (A := fun x => ((List.range d).map fun j => (val (x.getD j 0) - mean val l' j) ^ 2).sum)
    (e := fun _ => 105 * (γ * N * (d * M ^ 2))) (b := fun _ => 5 * (d * M ^ 2))
    (fun c hc => ⟨(hp c hc).1, (hp c hc).2.1⟩) (fun c hc => by
      rw [abs_of_nonneg (hp c hc).2.2.1]
      linarith [(hp c hc).2.2.2]) (by rw [map_sum_const]; linarith)
  rw [map_sum_const, map_sum_const] at i1
  obtain ⟨g1, g2⟩ := h.full.ofNat _ hk
  have hr0 : 0 ≤ (l.map fun x => ((List.range d).map fun j => (val (x.getD j 0) - mean val l' j) ^ 2).sum).sum := List.sum_nonneg (by
    intro x hx
    obtain ⟨c, hc, rfl⟩ := List.mem_map.mp hx
    exact (hp c hc).2.2.1)
  have hr4 : (l.map fun x => ((List.range d).map fun j => (val (x.getD j 0) - mean val l' j) ^ 2).sum).sum ≤
      l.length * (4 * (d * M ^ 2)) := by
    rw [← map_sum_const l]
    exact List.sum_le_sum fun c hc => (hp c hc).2.2.2
  generalize Arith.pySum (l.map fun x => Arith.rowSum (Gen.sqDiff x (colMeans d l'))) = s at *
  generalize (l.map fun x => ((List.range d).map fun j => (val (x.getD j 0) - mean val l' j) ^ 2).sum).sum = r at *
  have hnu : l.length * u ≤ γ * N := by
    have := mul_le_mul hlN uγ u0 (by linarith)
    linarith
  have b0 : 0 ≤ r / l.length := by positivity
  have b4 : r / l.length ≤ 4 * (d * M ^ 2) := by rw [div_le_iff₀ hn0]; linarith
  have i2 : |val s / l.length - r / l.length| ≤ 115 * (γ * N * (d * M ^ 2)) := by
    rw [← sub_div, abs_div, abs_of_pos hn0, div_le_iff₀ hn0]
    have h1 := mul_le_mul_of_nonneg_right hnu (show 0 ≤ 10 * (l.length * (d * M ^ 2)) by positivity)
    linarith
  have i3 : |val s / l.length| ≤ 5 * (d * M ^ 2) := by
    have := abs_le_of_err i2
    rw [abs_of_nonneg b0] at this
    linarith
  obtain ⟨f2, i4⟩ := h.full.div s (Arith.ofNat l.length) f1 g1 (by rw [g2]; exact hn0.ne') (by rw [g2]; linarith)
  rw [g2] at i4
  refine ⟨f2, ?_, b0, b4⟩
  have h1 := abs_add_le (val (s / Arith.ofNat l.length) - val s / l.length) (val s / l.length - r / l.length)
  rw [sub_add_sub_cancel] at h1
  have h2 := mul_le_mul e1 i3 (abs_nonneg _) e3
  have h3 := mul_le_mul_of_nonneg_left hMd e3
  linarith

variable (hc : Spec.Consecutive (real val d S)) (hk : 1 < (order S).length)
include hc hk

/-- The least mean squared distance of another cluster. -/
theorem Setting.silLow {i : ℕ} (hi : (i : ℤ) ∈ order S) :
    fin (low (((List.range (order S).length).filter (· ≠ i)).map fun j => Batch.cell d (rowsOf S) j i)) ∧
    |val (low (((List.range (order S).length).filter (· ≠ i)).map fun j => Batch.cell d (rowsOf S) j i)) -
      Spec.silOther (real val d S) i| ≤ 121 * (γ * N * (d * M ^ 2)) ∧
    0 ≤ Spec.silOther (real val d S) i ∧ Spec.silOther (real val d S) i ≤ 4 * (d * M ^ 2) ∧
    ∃ j : ℕ, (j : ℤ) ∈ order S ∧ val (low (((List.range (order S).length).filter (· ≠ i)).map fun j => Batch.cell d (rowsOf S) j i)) =
      val (Batch.cell d (rowsOf S) j i) := by
  have hS : S ≠ [] := by rintro rfl; simp [order] at hk
  have T := h.batchTables B D hS hc
  have hkl : 1 < (labelRange (order S).length).length := by simpa [labelRange] using hk
  obtain ⟨hne, hm1, hm2⟩ := T.sInf_other (fun b => Spec.crossScatter (real val d S) b i) hkl i
  have hf : (labelRange (order S).length).filter (fun b => decide (b ≠ (i : ℤ))) =
      ((List.range (order S).length).filter (fun j => decide (j ≠ i))).map (fun j : ℕ => (j : ℤ)) := by
    rw [labelRange, List.filter_map]
    congr 1
    refine List.filter_congr fun j _ => ?_
    simp
  have hcell : ∀ b ∈ (labelRange (order S).length).filter (· ≠ (i : ℤ)), fin (Batch.cell d (rowsOf S) b.toNat i) ∧
      |val (Batch.cell d (rowsOf S) b.toNat i) - Spec.crossScatter (real val d S) b i| ≤ 121 * (γ * N * (d * M ^ 2)) := by
    intro b hb
    have hb' := (List.mem_filter.mp hb).1
    obtain ⟨j, -, rfl⟩ := List.mem_map.mp hb'
    have := h.silCell B E D (T.mem.mp hb') hi
    rw [Int.toNat_natCast]
    exact ⟨this.1, this.2.1⟩
  have hlow := low_near h.full hne hcell hm1 hm2
  have hmap : ((labelRange (order S).length).filter (· ≠ (i : ℤ))).map (fun b => Batch.cell d (rowsOf S) b.toNat i) =
      ((List.range (order S).length).filter (· ≠ i)).map fun j => Batch.cell d (rowsOf S) j i := by
    rw [hf, List.map_map]
    simp only [Function.comp_def, Int.toNat_natCast]
  rw [hmap] at hlow
  have hmem : ∀ j ∈ (List.range (order S).length).filter (· ≠ i), (j : ℤ) ∈ order S := by
    intro j hj
    rw [← T.mem, labelRange]
    exact List.mem_map_of_mem (List.mem_of_mem_filter hj)
  obtain ⟨b, hb, e⟩ := hm1
  have hb' := (List.mem_filter.mp hb).1
  obtain ⟨j, -, rfl⟩ := List.mem_map.mp hb'
  have hj := h.silCell B E D (T.mem.mp hb') hi
  rw [e] at hj
  refine ⟨hlow.1, hlow.2, hj.2.2.1, hj.2.2.2, ?_⟩
  have hne' : (List.range (order S).length).filter (· ≠ i) ≠ [] := by
    intro e
    rw [hf] at hne
    exact hne (by simpa using e)
  obtain ⟨p, l, hpl⟩ := List.exists_cons_of_ne_nil hne'
  rw [hpl] at hmem ⊢
  rw [List.map_cons, low]
  obtain ⟨-, ⟨y, hy, e'⟩, -⟩ := h.full.minOf (Batch.cell d (rowsOf S) p i) (l.map fun j => Batch.cell d (rowsOf S) j i) (by
    intro y hy
    rw [← List.map_cons (f := fun j => Batch.cell d (rowsOf S) j i)] at hy
    obtain ⟨j, hj, rfl⟩ := List.mem_map.mp hy
    exact (h.silCell B E D (hmem j hj) hi).1)
  rw [← List.map_cons (f := fun j => Batch.cell d (rowsOf S) j i)] at hy
  obtain ⟨j, hj, rfl⟩ := List.mem_map.mp hy
  exact ⟨j, hmem j hj, e'⟩

variable (hu : 0 < u) (hη : η ≤ u ^ 2) (hΩ5 : 5 * N ≤ Ω) (hM : 0 < M) {β : ℝ} (hβ : 1000 * (γ * N) ≤ β)
  (hm : ∀ c ∈ Spec.labels (real val d S), β * (d * M ^ 2) ≤ max (Spec.crossScatter (real val d S) c c) (Spec.silOther (real val d S) c))
include hu hη hΩ5 hM hβ hm

/-- The silhouette coefficient of a cluster. -/
theorem Setting.silCoeff {i : ℕ} (hi : (i : ℤ) ∈ order S) :
    fin (Batch.silhouette d (order S).length (rowsOf S) i) ∧
    |val (Batch.silhouette d (order S).length (rowsOf S) i) - (Spec.silOther (real val d S) i - Spec.crossScatter (real val d S) i i) /
      max (Spec.crossScatter (real val d S) i i) (Spec.silOther (real val d S) i)| ≤ 440 * (γ * N / β) ∧
    |(Spec.silOther (real val d S) i - Spec.crossScatter (real val d S) i i) /
      max (Spec.crossScatter (real val d S) i i) (Spec.silOther (real val d S) i)| ≤ 1 ∧
    ∃ a b : ℕ, (a : ℤ) ∈ order S ∧ (b : ℤ) ∈ order S ∧ Arith.truthy (Batch.cell d (rowsOf S) a b) = true := by
  obtain ⟨e1, e2, e3, e4, -⟩ := h.eps
  have Ω2 := h.moderate.Ω2
  have hN1 : (1 : ℝ) ≤ N := by exact_mod_cast h.N1
  have hd1 : (1 : ℝ) ≤ d := by exact_mod_cast h.d1
  have hT : 0 < d * M ^ 2 := by positivity
  have hTN : d * M ^ 2 ≤ N * (d * M ^ 2) := by have := mul_le_mul_of_nonneg_right hN1 hT.le; linarith
  obtain ⟨f1, i1, a0, a4⟩ := h.silCell B E D hi hi
  obtain ⟨f2, i2, b0, b4, j, hj, ej⟩ := h.silLow B E D hc hk hi
  have hcell := h.silCell B E D hj hi
  have hmi := hm i (by rw [labels_real]; exact List.mem_toFinset.mpr hi)
  rw [Batch.silhouette]
  have hβ4 : β ≤ 4 := le_of_mul_le_mul_right (hmi.trans (max_le a4 b4)) hT
  obtain ⟨hβ0, hε, hx0, hx1, hux, hxβ⟩ := h.beta hu hβ hβ4
  obtain ⟨A, hA⟩ : ∃ A, A = Batch.cell d (rowsOf S) i i := ⟨_, rfl⟩
  obtain ⟨a, ha⟩ : ∃ a, a = Spec.crossScatter (real val d S) i i := ⟨_, rfl⟩
  rw [← hA] at f1 i1 ⊢
  rw [← ha] at i1 a0 a4 hmi ⊢
  generalize low (((List.range (order S).length).filter (· ≠ i)).map fun j => Batch.cell d (rowsOf S) j i) = B' at *
  generalize Spec.silOther (real val d S) i = b at *
  generalize γ * N / β = x at *
  have hm0 : 0 < max a b := (mul_pos hβ0 hT).trans_le hmi
  have hxT : γ * N * (d * M ^ 2) ≤ x * max a b := by
    have := mul_le_mul_of_nonneg_left hmi hx0.le
    rw [← hxβ]
    linarith
  have hη4 : η ≤ u := by
    refine hη.trans ?_
    have := mul_le_mul_of_nonneg_left (show u ≤ 1 by linarith) hu.le
    linarith
  have hub : u * max a b ≤ 4 * (x * max a b) := by
    have := mul_le_mul_of_nonneg_right hux hm0.le
    linarith
  have z : ∀ y : ℝ, |y - y| ≤ u * |y| := fun y => by rw [sub_self, abs_zero]; positivity
  have zη : ∀ y : ℝ, |y - y| ≤ u * |y| + η := fun y => (z y).trans (by linarith [h.moderate.η0])
  have i1' := i1.trans (mul_le_mul_of_nonneg_left hxT (by norm_num : (0 : ℝ) ≤ 121))
  have i2' := i2.trans (mul_le_mul_of_nonneg_left hxT (by norm_num : (0 : ℝ) ≤ 121))
  obtain ⟨s1, -⟩ := sil_real hx0.le hx1 hu.le hux hη4 a0 b0 hm0 hub i1' i2' (z _) (zη _)
  obtain ⟨g1, g2⟩ := h.full.sub B' A f2 f1 (by
    have := max_le a4 b4
    linarith)
  obtain ⟨-, s2, s3, -⟩ := sil_real hx0.le hx1 hu.le hux hη4 a0 b0 hm0 hub i1' i2' g2 (zη _)
  obtain ⟨m1, m2⟩ := E.max2 A B' f1 f2
  obtain ⟨g3, g4⟩ := h.full.div (B' - A) (Arith.max2 A B') g1 m1 (by rw [m2]; exact s2.ne') (by rw [m2]; linarith)
  rw [m2] at g4
  obtain ⟨-, -, -, s4, s5⟩ := sil_real hx0.le hx1 hu.le hux hη4 a0 b0 hm0 hub i1' i2' g2 g4
  refine ⟨g3, s4, s5, ?_⟩
  rcases lt_max_iff.mp s2 with hp | hp
  · exact ⟨i, i, hi, hi, E.truthy _ (hA ▸ f1) (by rw [← hA]; exact hp.ne')⟩
  · exact ⟨j, i, hj, hi, E.truthy _ hcell.1 (by rw [← ej]; exact hp.ne')⟩

/-- cSIL -/
theorem Setting.near_cSIL (rows : List (List F)) : fin (Batch.value d (order S).length (rowsOf S) rows .cSIL) ∧
    ∃ y, Spec.value .cSIL (real val d S) = .fin y ∧
      |val (Batch.value d (order S).length (rowsOf S) rows .cSIL) - y| ≤ 470 * (γ * N / β) := by
  have hS : S ≠ [] := by rintro rfl; simp [order] at hk
  have T := h.batchTables B D hS hc
  have hmem : ∀ i ∈ List.range (order S).length, (i : ℤ) ∈ order S := by
    intro i hi
    rw [← T.mem, labelRange]
    exact List.mem_map_of_mem hi
  have hmem' : ∀ i : ℕ, (i : ℤ) ∈ order S → i ∈ List.range (order S).length := by
    intro i hi
    rw [← T.mem, labelRange, List.mem_map] at hi
    obtain ⟨j, hj, e⟩ := hi
    exact (Int.ofNat.inj e) ▸ hj
  have hp := fun i (hi : i ∈ List.range (order S).length) => h.silCoeff B E D hc hk hu hη hΩ5 hM hβ hm (hmem i hi)
  obtain ⟨-, -, -, a, b, ha, hb, htr⟩ := hp 0 (List.mem_range.mpr (by omega))
  have hany : ((List.range (order S).length).any fun j => (List.range (order S).length).any fun i =>
      Arith.truthy (Batch.cell d (rowsOf S) j i)) = true := by
    rw [List.any_eq_true]
    refine ⟨a, hmem' a ha, ?_⟩
    rw [List.any_eq_true]
    exact ⟨b, hmem' b hb, htr⟩
  have hv : Batch.value d (order S).length (rowsOf S) rows .cSIL = Arith.npSum ((List.range (order S).length).map
      (Batch.silhouette d (order S).length (rowsOf S))) / Arith.ofNat (order S).length := by
    rw [Batch.value]
    exact if_pos hany
  have hd1 : (1 : ℝ) ≤ d := by exact_mod_cast h.d1
  have hT : 0 < d * M ^ 2 := by positivity
  have h0 := hmem 0 (List.mem_range.mpr (by omega))
  have h04 := (h.silCell B E D h0 h0).2.2.2
  have h04' := (h.silLow B E D hc hk h0).2.2.2.1
  have hβ4 : β ≤ 4 := le_of_mul_le_mul_right ((hm _ (by rw [labels_real]; exact List.mem_toFinset.mpr h0)).trans (max_le h04 h04')) hT
  obtain ⟨hβ0, hε, hx0, hx1, hux, hxβ⟩ := h.beta hu hβ hβ4
  have hkN : (order S).length ≤ N := (Inputs.clusters_le (S := S)).trans D.length
  have hlN : ((order S).length : ℝ) ≤ N := by exact_mod_cast hkN
  have hsum : Sums val fin u Ω N (Arith.npSum : List F → F) := fun l hl => h.full.npSum l (hl.trans (le_max_left ..))
  have hspec : Spec.value .cSIL (real val d S) = .fin (((List.range (order S).length).map fun i : ℕ =>
      (Spec.silOther (real val d S) i - Spec.crossScatter (real val d S) i i) /
        max (Spec.crossScatter (real val d S) i i) (Spec.silOther (real val d S) i)).sum / (order S).length) := by
    have hpos : ∀ c ∈ Spec.labels (real val d S), 0 < max (Spec.crossScatter (real val d S) c c) (Spec.silOther (real val d S) c) :=
      fun c hc' => (mul_pos hβ0 hT).trans_le (hm c hc')
    have n1 : ¬ ∀ a ∈ Spec.labels (real val d S), ∀ b ∈ Spec.labels (real val d S), Spec.crossScatter (real val d S) a b = 0 := by
      intro hz
      have h0' : (0 : ℤ) ∈ Spec.labels (real val d S) := by rw [labels_real]; exact List.mem_toFinset.mpr h0
      have hp0 := hpos 0 h0'
      have ho : Spec.silOther (real val d S) 0 = 0 := by
        obtain ⟨-, ⟨b, hb, e⟩, -⟩ := T.sInf_other (fun b => Spec.crossScatter (real val d S) b 0) (by simpa [labelRange] using hk) 0
        rw [Spec.silOther, ← e]
        refine hz b ?_ 0 h0'
        rw [labels_real, List.mem_toFinset, ← T.mem]
        exact List.mem_of_mem_filter hb
      rw [hz 0 h0' 0 h0', ho, max_self] at hp0
      exact lt_irrefl _ hp0
    have n2 : ¬ ∃ c ∈ Spec.labels (real val d S), Spec.crossScatter (real val d S) c c = 0 ∧ Spec.silOther (real val d S) c = 0 := by
      rintro ⟨c, hc', h1, h2⟩
      have := hpos c hc'
      rw [h1, h2, max_self] at this
      exact lt_irrefl _ this
    have hk' : 1 < Spec.numClusters (real val d S) := by rwa [numClusters_real]
    rw [Spec.value, Spec.cSIL, if_neg (by omega), if_neg n1, if_neg n2, numClusters_real, labels_real,
      List.sum_toFinset _ (order_nodup S), ← (T.perm.map _).sum_eq, labelRange, List.map_map]
    rfl
  rw [hv, hspec]
  generalize γ * N / β = x at *
  obtain ⟨f, i⟩ := sum_near hsum hu.le (List.range (order S).length) (by rwa [List.length_range])
    (fun i hi => ⟨(hp i hi).1, (hp i hi).2.1⟩) (b := fun _ => 3 / 2)
    (fun i hi => by linarith [(hp i hi).2.2.1]) (by rw [map_sum_const, List.length_range]; linarith)
  rw [map_sum_const, map_sum_const, List.length_range] at i
  have hr1 : |((List.range (order S).length).map fun i : ℕ => (Spec.silOther (real val d S) i - Spec.crossScatter (real val d S) i i) /
      max (Spec.crossScatter (real val d S) i i) (Spec.silOther (real val d S) i)).sum| ≤ (order S).length := by
    refine (abs_list_sum _).trans ?_
    rw [List.map_map]
    have : ((List.range (order S).length).map (abs ∘ fun i : ℕ => (Spec.silOther (real val d S) i - Spec.crossScatter (real val d S) i i) /
      max (Spec.crossScatter (real val d S) i i) (Spec.silOther (real val d S) i))).sum ≤
        ((List.range (order S).length).map fun _ => (1 : ℝ)).sum := List.sum_le_sum fun i hi => (hp i hi).2.2.1
    rw [map_sum_const, List.length_range, mul_one] at this
    exact this
  obtain ⟨g1, g2⟩ := h.full.ofNat _ hkN
  generalize Arith.npSum ((List.range (order S).length).map (Batch.silhouette d (order S).length (rowsOf S))) = s at *
  generalize ((List.range (order S).length).map fun i : ℕ => (Spec.silOther (real val d S) i - Spec.crossScatter (real val d S) i i) /
    max (Spec.crossScatter (real val d S) i i) (Spec.silOther (real val d S) i)).sum = r at *
  have hn0 : (0 : ℝ) < (order S).length := by exact_mod_cast (by omega : 0 < (order S).length)
  have hku : (order S).length * u ≤ 4 * x := by
    have h1 := mul_le_mul hlN h.moderate.uγ hu.le (by positivity)
    have h2 := mul_le_mul_of_nonneg_left hβ4 hx0.le
    linarith
  have i2 : |val s / (order S).length - r / (order S).length| ≤ 452 * x := by
    rw [← sub_div, abs_div, abs_of_pos hn0, div_le_iff₀ hn0]
    have := mul_le_mul_of_nonneg_right hku (show (0 : ℝ) ≤ 3 * (order S).length by positivity)
    linarith
  have i3 : |r / (order S).length| ≤ 1 := by
    rw [abs_div, abs_of_pos hn0, div_le_one hn0]
    exact hr1
  have i4 : |val s / (order S).length| ≤ 3 / 2 := by have := abs_le_of_err i2; linarith
  have hN1 : (1 : ℝ) ≤ N := by exact_mod_cast h.N1
  obtain ⟨f2, i5⟩ := h.full.div s (Arith.ofNat (order S).length) f g1 (by rw [g2]; exact hn0.ne') (by rw [g2]; linarith)
  rw [g2] at i5
  refine ⟨f2, _, rfl, ?_⟩
  have hη4 : η ≤ u := by
    refine hη.trans ?_
    have := mul_le_mul_of_nonneg_left (show u ≤ 1 by linarith) hu.le
    linarith
  have h1 := abs_add_le (val (s / Arith.ofNat (order S).length) - val s / (order S).length)
    (val s / (order S).length - r / (order S).length)
  rw [sub_add_sub_cancel] at h1
  have h2 := mul_le_mul_of_nonneg_left i4 hu.le
  linarith

end Rounding
end Verif.Gen
