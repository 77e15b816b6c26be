import Verif.Proofs.Run
import Mathlib.Data.Real.Pointwise

/-!
# Similar data sets

The indices depend on the data only through labels, sizes and squared distances; scaling all squared distances by `q`
changes them in a known way.
-/

namespace Verif
open Spec
open scoped Pointwise

variable {d d' : ℕ}

/-- `T` has the same labels as `S` and all squared distances multiplied by `q`. -/
structure Similar (q : ℝ) (S : Stream d) (T : Stream d') : Prop where
  pos : 0 < q
  labels : labels T = labels S
  length : T.length = S.length
  size : ∀ c, size T c = size S c
  scatter : ∀ c ∈ Spec.labels S, scatter T c = q * scatter S c
  sep : ∀ a ∈ Spec.labels S, ∀ b ∈ Spec.labels S, sep T a b = q * sep S a b
  toMean : ∀ c ∈ Spec.labels S, dist2 (centroid T c) (mean T) = q * dist2 (centroid S c) (mean S)
  toBar : ∀ c ∈ Spec.labels S, dist2 (centroid T c) (centroidMean T) = q * dist2 (centroid S c) (centroidMean S)
  cross : ∀ a ∈ Spec.labels S, ∀ b ∈ Spec.labels S, crossScatter T a b = q * crossScatter S a b

theorem pairValues_smul {S : Stream d} {T : Stream d'} (hl : labels T = labels S) (q : ℝ) {f g : ℤ → ℤ → ℝ}
    (h : ∀ a ∈ labels S, ∀ b ∈ labels S, f a b = q * g a b) : pairValues T f = q • pairValues S g := by
  ext r
  simp only [pairValues, hl, Set.mem_smul_set, Set.mem_ofPred_eq, smul_eq_mul]
  constructor
  · rintro ⟨a, ha, b, hb, hab, rfl⟩; exact ⟨_, ⟨a, ha, b, hb, hab, rfl⟩, (h a ha b hb).symm⟩
  · rintro ⟨_, ⟨a, ha, b, hb, hab, rfl⟩, rfl⟩; exact ⟨a, ha, b, hb, hab, (h a ha b hb).symm⟩

theorem otherValues_smul {S : Stream d} {T : Stream d'} (hl : labels T = labels S) (q : ℝ) {c : ℤ} {f g : ℤ → ℝ}
    (h : ∀ b ∈ labels S, f b = q * g b) : otherValues T c f = q • otherValues S c g := by
  ext r
  simp only [otherValues, hl, Set.mem_smul_set, Set.mem_ofPred_eq, smul_eq_mul]
  constructor
  · rintro ⟨b, hb, hab, rfl⟩; exact ⟨_, ⟨b, hb, hab, rfl⟩, (h b hb).symm⟩
  · rintro ⟨_, ⟨b, hb, hab, rfl⟩, rfl⟩; exact ⟨b, hb, hab, (h b hb).symm⟩

theorem labelValues_smul {S : Stream d} {T : Stream d'} (hl : labels T = labels S) (q : ℝ) {f g : ℤ → ℝ}
    (h : ∀ b ∈ labels S, f b = q * g b) : {r | ∃ c ∈ labels T, r = f c} = q • {r | ∃ c ∈ labels S, r = g c} := by
  ext r
  simp only [hl, Set.mem_smul_set, Set.mem_ofPred_eq, smul_eq_mul]
  constructor
  · rintro ⟨b, hb, rfl⟩; exact ⟨_, ⟨b, hb, rfl⟩, (h b hb).symm⟩
  · rintro ⟨_, ⟨b, hb, rfl⟩, rfl⟩; exact ⟨b, hb, (h b hb).symm⟩

theorem ratio_mul {q : ℝ} (hq : q ≠ 0) (a b : ℝ) : ratio (q * a) (q * b) = ratio a b := by
  simp only [ratio, mul_ne_zero_iff, hq, ne_eq, not_false_iff, true_and, mul_div_mul_left a b hq]

namespace Similar
variable {q : ℝ} {S : Stream d} {T : Stream d'} (h : Similar q S T)
include h

theorem ne : q ≠ 0 := h.pos.ne'
theorem numClusters : numClusters T = numClusters S := by rw [Spec.numClusters, h.labels]; rfl

theorem WGSS : WGSS T = q * WGSS S := by
  rw [Spec.WGSS, Spec.WGSS, h.labels, Finset.mul_sum]
  exact Finset.sum_congr rfl h.scatter

theorem BGSS : BGSS T = q * BGSS S := by
  rw [Spec.BGSS, Spec.BGSS, h.labels, Finset.mul_sum]
  refine Finset.sum_congr rfl fun c hc => ?_
  rw [h.toMean c hc, h.size]; ring

theorem meanScatter : ∀ c ∈ Spec.labels S, meanScatter T c = q * meanScatter S c := by
  intro c hc
  rw [Spec.meanScatter, Spec.meanScatter, h.scatter c hc, h.size]; ring

theorem CH : Spec.CH T = Spec.CH S := by
  have hq := h.ne
  simp only [Spec.CH, h.numClusters, h.WGSS, h.BGSS, h.length, mul_ne_zero_iff, ne_eq, hq, not_false_iff, true_and,
    mul_div_mul_left _ _ hq]

theorem WB : Spec.WB T = Spec.WB S := by
  have hq := h.ne
  simp only [Spec.WB, h.numClusters, h.WGSS, h.BGSS, mul_ne_zero_iff, ne_eq, hq, not_false_iff, true_and,
    mul_div_mul_left _ _ hq]

theorem XB : Spec.XB T = Spec.XB S := by
  simp only [Spec.XB, h.numClusters, h.WGSS, h.length]
  rw [pairValues_smul h.labels q h.sep, Real.sInf_smul_of_nonneg h.pos.le, smul_eq_mul, mul_left_comm, ratio_mul h.ne]

theorem DB : Spec.DB T = Spec.DB S := by
  have hq := h.ne
  simp only [Spec.DB, h.numClusters, h.labels]
  have e1 : (∃ a ∈ Spec.labels S, ∃ b ∈ Spec.labels S, a ≠ b ∧ Spec.sep T a b = 0 ∧
      Spec.meanScatter T a + Spec.meanScatter T b = 0) ↔ (∃ a ∈ Spec.labels S, ∃ b ∈ Spec.labels S, a ≠ b ∧
      Spec.sep S a b = 0 ∧ Spec.meanScatter S a + Spec.meanScatter S b = 0) := by
    refine exists_congr fun a => and_congr_right fun ha => exists_congr fun b => and_congr_right fun hb => ?_
    rw [h.sep a ha b hb, h.meanScatter a ha, h.meanScatter b hb, ← mul_add, mul_eq_zero, mul_eq_zero]
    simp [hq]
  have e2 : (∃ a ∈ Spec.labels S, ∃ b ∈ Spec.labels S, a ≠ b ∧ Spec.sep T a b = 0) ↔
      (∃ a ∈ Spec.labels S, ∃ b ∈ Spec.labels S, a ≠ b ∧ Spec.sep S a b = 0) := by
    refine exists_congr fun a => and_congr_right fun ha => exists_congr fun b => and_congr_right fun hb => ?_
    rw [h.sep a ha b hb, mul_eq_zero]
    simp [hq]
  have e3 : ∀ c ∈ Spec.labels S,
      sSup (otherValues T c fun b => (Spec.meanScatter T c + Spec.meanScatter T b) / Spec.sep T c b) =
      sSup (otherValues S c fun b => (Spec.meanScatter S c + Spec.meanScatter S b) / Spec.sep S c b) := by
    intro c hc
    rw [otherValues_smul h.labels 1 (g := fun b => (Spec.meanScatter S c + Spec.meanScatter S b) / Spec.sep S c b)]
    · rw [one_smul]
    · intro b hb
      rw [h.sep c hc b hb, h.meanScatter c hc, h.meanScatter b hb, ← mul_add, mul_div_mul_left _ _ hq, one_mul]
  rw [if_congr e1 rfl rfl, if_congr e2 rfl rfl, Finset.sum_congr rfl e3]

theorem maxScatter : sSup {r | ∃ c ∈ Spec.labels T, r = Spec.meanScatter T c} =
    q * sSup {r | ∃ c ∈ Spec.labels S, r = Spec.meanScatter S c} := by
  rw [labelValues_smul h.labels q h.meanScatter, Real.sSup_smul_of_nonneg h.pos.le, smul_eq_mul]

theorem GD43 : Spec.GD43 T = Spec.GD43 S / .fin (if Spec.numClusters S ≤ 1 then 1 else Real.sqrt q) := by
  have hs : 0 < Real.sqrt q := Real.sqrt_pos.2 h.pos
  simp only [Spec.GD43, h.numClusters]
  by_cases hk : Spec.numClusters S ≤ 1
  · rw [if_pos hk, if_pos hk, if_pos hk, XR.fin_div_of_ne _ one_ne_zero, zero_div]
  · rw [if_neg hk, if_neg hk, if_neg hk, h.maxScatter,
      pairValues_smul h.labels (Real.sqrt q) (g := fun a b => Real.sqrt (Spec.sep S a b)), Real.sInf_smul_of_nonneg hs.le,
      smul_eq_mul]
    · set x := sInf (pairValues S fun a b => Real.sqrt (Spec.sep S a b))
      set y := sSup {r | ∃ c ∈ Spec.labels S, r = Spec.meanScatter S c}
      rw [show 2 * (q * y) = Real.sqrt q * (Real.sqrt q * (2 * y)) by
        rw [← mul_assoc (Real.sqrt q), Real.mul_self_sqrt h.pos.le]; ring, ratio_mul hs.ne']
      by_cases hy : y = 0
      · by_cases hx : x = 0
        · simp [ratio, hx, hy]
        · rw [ratio, if_neg (by simp [hy]), if_pos hx, ratio, if_neg (by simp [hy]), if_pos hx]
          show _ = XR.div _ _
          simp [XR.div, not_lt.2 hs.le]
      · have h2 : 2 * y ≠ 0 := mul_ne_zero two_ne_zero hy
        rw [ratio, if_pos (mul_ne_zero hs.ne' h2), ratio, if_pos h2, XR.fin_div_of_ne _ hs.ne', div_div, mul_comm (2 * y)]
    · intro a ha b hb
      rw [h.sep a ha b hb, Real.sqrt_mul h.pos.le]

theorem GD53 : Spec.GD53 T = Spec.GD53 S := by
  simp only [Spec.GD53, h.numClusters]
  rw [h.maxScatter, pairValues_smul h.labels q (g := fun a b => (Spec.scatter S a + Spec.scatter S b) /
    ((Spec.size S a : ℝ) + Spec.size S b)), Real.sInf_smul_of_nonneg h.pos.le, smul_eq_mul, mul_left_comm, ratio_mul h.ne]
  intro a ha b hb
  rw [h.scatter a ha, h.scatter b hb, h.size, h.size]; ring

theorem beta : beta T = q * beta S := by
  rw [Spec.beta, Spec.beta, h.labels, h.numClusters, Finset.sum_congr rfl h.toBar, ← Finset.mul_sum, mul_div_assoc]

theorem PS : Spec.PS T = Spec.PS S := by
  have hq := h.ne
  have hm : maxSize T = maxSize S := by
    rw [maxSize, maxSize, h.labels]
    exact Finset.sup_congr rfl fun c _ => h.size c
  simp only [Spec.PS, h.numClusters, h.beta, h.labels, hm, h.size, mul_eq_zero, hq, false_or]
  congr 3
  refine Finset.sum_congr rfl fun c hc => ?_
  rw [otherValues_smul h.labels q (fun b hb => h.sep c hc b hb), Real.sInf_smul_of_nonneg h.pos.le, smul_eq_mul,
    ← mul_neg, mul_div_mul_left _ _ hq]

theorem silOther : ∀ c ∈ Spec.labels S, silOther T c = q * silOther S c := by
  intro c hc
  rw [Spec.silOther, Spec.silOther, otherValues_smul h.labels q (fun b hb => h.cross b hb c hc),
    Real.sInf_smul_of_nonneg h.pos.le, smul_eq_mul]

theorem cSIL : Spec.cSIL T = Spec.cSIL S := by
  have hq := h.ne
  have e1 : (∀ a ∈ Spec.labels S, ∀ b ∈ Spec.labels S, crossScatter T a b = 0) ↔
      (∀ a ∈ Spec.labels S, ∀ b ∈ Spec.labels S, crossScatter S a b = 0) := by
    refine forall₂_congr fun a ha => forall₂_congr fun b hb => ?_
    rw [h.cross a ha b hb, mul_eq_zero]; simp [hq]
  have e2 : (∃ c ∈ Spec.labels S, crossScatter T c c = 0 ∧ Spec.silOther T c = 0) ↔
      (∃ c ∈ Spec.labels S, crossScatter S c c = 0 ∧ Spec.silOther S c = 0) := by
    refine exists_congr fun c => and_congr_right fun hc => ?_
    rw [h.cross c hc c hc, h.silOther c hc, mul_eq_zero, mul_eq_zero]; simp [hq]
  have e3 : ∀ c ∈ Spec.labels S,
      (Spec.silOther T c - crossScatter T c c) / max (crossScatter T c c) (Spec.silOther T c) =
      (Spec.silOther S c - crossScatter S c c) / max (crossScatter S c c) (Spec.silOther S c) := by
    intro c hc
    rw [h.cross c hc c hc, h.silOther c hc, ← mul_sub, ← mul_max_of_nonneg _ _ h.pos.le, mul_div_mul_left _ _ hq]
  simp only [Spec.cSIL, h.numClusters, h.labels]
  rw [if_congr e1 rfl rfl, if_congr e2 rfl rfl, Finset.sum_congr rfl e3]

/-- The eight indices that only depend on squared distances. -/
theorem value {I : Index} (hr : I ≠ .rCIP) (hg : I ≠ .GD43 ∨ q = 1) : Spec.value I T = Spec.value I S := by
  cases I
  · exact h.CH
  · exact h.WB
  · exact h.XB
  · exact h.DB
  · have := h.GD43
    rw [hg.resolve_left (fun e => e rfl), Real.sqrt_one, ite_self] at this
    refine this.trans ?_
    show XR.div (Spec.GD43 S) (.fin 1) = Spec.GD43 S
    cases Spec.GD43 S with
    | fin a => show XR.idiv a 1 = _; rw [XR.idiv_of_ne _ one_ne_zero, div_one]
    | pinf => simp [XR.div]
    | ninf => simp [XR.div]
    | nan => rfl
  · exact h.GD53
  · exact h.PS
  · exact absurd rfl hr
  · exact h.cSIL

end Similar

/-! ## Affine maps -/

/-- Apply a map to all points. -/
def mapPts (g : Pt d → Pt d') (S : Stream d) : Stream d' := S.map fun p => (g p.1, p.2)

section
variable (g : Pt d → Pt d') (S : Stream d)

theorem mapPts_fst : (mapPts g S).map Prod.fst = (S.map Prod.fst).map g := by simp [mapPts]
theorem mapPts_snd : (mapPts g S).map Prod.snd = S.map Prod.snd := by simp [mapPts]
theorem labels_mapPts : labels (mapPts g S) = labels S := by rw [labels, labels, mapPts_snd]
theorem cluster_mapPts (c : ℤ) : cluster (mapPts g S) c = (cluster S c).map g := by
  simp only [cluster, mapPts, List.filter_map, List.map_map]
  rfl
theorem size_mapPts (c : ℤ) : size (mapPts g S) c = size S c := by simp [size, cluster_mapPts]
theorem length_mapPts : (mapPts g S).length = S.length := by simp [mapPts]
theorem mapPts_inits : (mapPts g S).inits.tail = S.inits.tail.map (mapPts g) := by
  induction S with
  | nil => rfl
  | cons p S ih =>
    rw [show mapPts g (p :: S) = (g p.1, p.2) :: mapPts g S from rfl, inits_tail_cons, inits_tail_cons, ih]
    simp only [List.map_cons, List.map_map]
    rfl
theorem mapPts_ne_nil : mapPts g S ≠ [] ↔ S ≠ [] := by simp [mapPts]
end

theorem sum_list_mul {α : Type} (l : List α) (f : α → ℝ) (r : ℝ) : (l.map fun a => r * f a).sum = r * (l.map f).sum := by
  induction l with
  | nil => simp
  | cons a l ih => simp [ih, mul_add]

/-- `x ↦ A x + b`. -/
def affine (A : Matrix (Fin d') (Fin d) ℝ) (b : Pt d') (x : Pt d) : Pt d' := fun i => (∑ j, A i j * x j) + b i

theorem meanOf_affine (A : Matrix (Fin d') (Fin d) ℝ) (b : Pt d') {l : List (Pt d)} (hl : l ≠ []) :
    meanOf (l.map (affine A b)) = affine A b (meanOf l) := by
  funext i
  have hn : (l.length : ℝ) ≠ 0 := by
    have := List.length_pos_iff.2 hl
    positivity
  have : ∀ l : List (Pt d), ((l.map (affine A b)).map fun p => p i).sum =
      (∑ j, A i j * (l.map fun p => p j).sum) + l.length * b i := by
    intro l
    induction l with
    | nil => simp
    | cons p l ih =>
      rw [List.map_cons, List.map_cons, List.sum_cons, ih]
      simp only [affine, List.map_cons, List.sum_cons, List.length_cons, Nat.cast_add, Nat.cast_one, mul_add,
        Finset.sum_add_distrib]
      ring
  rw [meanOf, this, List.length_map, affine]
  simp only [meanOf]
  rw [add_div, mul_div_cancel_left₀ _ hn, Finset.sum_div]
  simp only [mul_div_assoc]

/-- A matrix whose columns are orthogonal of squared length `q` multiplies squared distances by `q`. -/
theorem dist2_affine {A : Matrix (Fin d') (Fin d) ℝ} {q : ℝ} (hA : A.transpose * A = q • (1 : Matrix (Fin d) (Fin d) ℝ))
    (b : Pt d') (x y : Pt d) : dist2 (affine A b x) (affine A b y) = q * dist2 x y := by
  have e : ∀ i, affine A b x i - affine A b y i = A.mulVec (fun j => x j - y j) i := by
    intro i
    simp only [affine, Matrix.mulVec, dotProduct, mul_sub, Finset.sum_sub_distrib]
    ring
  set w : Pt d := fun j => x j - y j
  have h1 : dist2 (affine A b x) (affine A b y) = dotProduct (A.mulVec w) (A.mulVec w) := by
    simp only [dist2, dotProduct, e, pow_two]
  have h2 : dist2 x y = dotProduct w w := by simp only [dist2, dotProduct, pow_two, w]
  rw [h1, h2, Matrix.dotProduct_mulVec, ← Matrix.mulVec_transpose, Matrix.mulVec_mulVec, hA, Matrix.smul_mulVec,
    Matrix.one_mulVec, smul_dotProduct, smul_eq_mul]

section
variable {A : Matrix (Fin d') (Fin d) ℝ} {b : Pt d'} {S : Stream d}

theorem centroid_affine {c : ℤ} (hc : c ∈ labels S) : centroid (mapPts (affine A b) S) c = affine A b (centroid S c) := by
  rw [centroid, cluster_mapPts, meanOf_affine A b (cluster_ne_nil.2 hc)]; rfl

theorem mean_affine (hS : S ≠ []) : mean (mapPts (affine A b) S) = affine A b (mean S) := by
  rw [mean, mapPts_fst, meanOf_affine A b (by simpa using hS)]; rfl

theorem ne_nil_of_mem {S : Stream d} {c : ℤ} (hc : c ∈ labels S) : S ≠ [] := by
  rintro rfl; simp [labels] at hc

theorem centroidMean_affine (hS : S ≠ []) : centroidMean (mapPts (affine A b) S) = affine A b (centroidMean S) := by
  have hk : (numClusters S : ℝ) ≠ 0 := by
    have : (labels S).Nonempty := by
      obtain ⟨p, hp⟩ := List.exists_mem_of_ne_nil S hS
      exact ⟨p.2, mem_labels.2 ⟨p.1, hp⟩⟩
    have := Finset.card_pos.2 this
    have h' : 0 < numClusters S := this
    positivity
  have hn : numClusters (mapPts (affine A b) S) = numClusters S := by rw [numClusters, labels_mapPts]; rfl
  funext i
  simp only [centroidMean, hn, labels_mapPts]
  rw [Finset.sum_congr rfl fun c hc => congrFun (centroid_affine (A := A) (b := b) hc) i]
  simp only [affine, Finset.sum_add_distrib, Finset.sum_const, nsmul_eq_mul]
  rw [add_div, show ((labels S).card : ℝ) = numClusters S from rfl, mul_div_cancel_left₀ _ hk, Finset.sum_comm,
    Finset.sum_div]
  congr 1
  refine Finset.sum_congr rfl fun j _ => ?_
  rw [← Finset.mul_sum, mul_div_assoc]
  rfl

theorem similar_affine {q : ℝ} (hq : 0 < q) (hA : A.transpose * A = q • (1 : Matrix (Fin d) (Fin d) ℝ)) :
    Similar q S (mapPts (affine A b) S) where
  pos := hq
  labels := labels_mapPts _ _
  length := length_mapPts _ _
  size := size_mapPts _ _
  scatter c hc := by
    rw [scatter, cluster_mapPts, centroid_affine hc, List.map_map]
    simp only [Function.comp_def, dist2_affine hA]
    rw [sum_list_mul]; rfl
  sep a ha c hc := by rw [sep, centroid_affine ha, centroid_affine hc, dist2_affine hA]; rfl
  toMean c hc := by rw [centroid_affine hc, mean_affine (ne_nil_of_mem hc), dist2_affine hA]
  toBar c hc := by rw [centroid_affine hc, centroidMean_affine (ne_nil_of_mem hc), dist2_affine hA]
  cross a ha c hc := by
    rw [crossScatter, cluster_mapPts, centroid_affine hc, List.map_map, size_mapPts]
    simp only [Function.comp_def, dist2_affine hA]
    rw [sum_list_mul, mul_div_assoc]; rfl

end

/-! ## Permutations -/

section
variable {S T : Stream d}

theorem labels_perm (h : S.Perm T) : labels T = labels S := by
  rw [labels, labels]; exact List.toFinset_eq_of_perm _ _ (h.symm.map _)

theorem cluster_perm (h : S.Perm T) (c : ℤ) : (cluster S c).Perm (cluster T c) := (h.filter _).map _

theorem meanOf_perm {l m : List (Pt d)} (h : l.Perm m) : meanOf l = meanOf m := by
  funext i
  rw [meanOf, meanOf, (h.map _).sum_eq, h.length_eq]

theorem size_perm (h : S.Perm T) (c : ℤ) : size T c = size S c := (cluster_perm h c).length_eq.symm
theorem centroid_perm (h : S.Perm T) (c : ℤ) : centroid T c = centroid S c := (meanOf_perm (cluster_perm h c)).symm
theorem mean_perm (h : S.Perm T) : mean T = mean S := (meanOf_perm (h.map _)).symm
theorem centroidMean_perm (h : S.Perm T) : centroidMean T = centroidMean S := by
  funext i
  simp only [centroidMean, numClusters, labels_perm h, centroid_perm h]

theorem similar_perm (h : S.Perm T) : Similar 1 S T where
  pos := one_pos
  labels := labels_perm h
  length := h.length_eq.symm
  size := size_perm h
  scatter c _ := by
    rw [scatter, centroid_perm h, one_mul, scatter, ((cluster_perm h c).map _).sum_eq]
  sep a _ c _ := by rw [sep, centroid_perm h, centroid_perm h, one_mul]; rfl
  toMean c _ := by rw [centroid_perm h, mean_perm h, one_mul]
  toBar c _ := by rw [centroid_perm h, centroidMean_perm h, one_mul]
  cross a _ c _ := by
    rw [crossScatter, centroid_perm h, size_perm h, one_mul, crossScatter, ((cluster_perm h a).map _).sum_eq]

theorem cov_perm (h : S.Perm T) (c : ℤ) : cov T c = cov S c := by
  ext i j
  simp only [cov, Matrix.of_apply, centroid_perm h, size_perm h, ((cluster_perm h c).map _).sum_eq]

theorem rCIP_perm (h : S.Perm T) : Spec.rCIP T = Spec.rCIP S := by
  simp only [Spec.rCIP, labels_perm h, Spec.cip, regCov, cov_perm h, centroid_perm h]

/-- Every index of a data set is independent of the order of its samples. -/
theorem value_perm (I : Index) (h : S.Perm T) : Spec.value I T = Spec.value I S := by
  by_cases hr : I = .rCIP
  · subst hr; exact rCIP_perm h
  · exact (similar_perm h).value hr (.inr rfl)

end

/-! ## rCIP under isometries -/

section
variable {A : Matrix (Fin d) (Fin d) ℝ} {b : Pt d} {S : Stream d}

theorem affine_sub (x y : Pt d) : (fun i => affine A b x i - affine A b y i) = A.mulVec fun i => x i - y i := by
  funext i
  simp only [affine, Matrix.mulVec, dotProduct, mul_sub, Finset.sum_sub_distrib]
  ring

theorem cov_affine {c : ℤ} (hc : c ∈ labels S) :
    cov (mapPts (affine A b) S) c = A * cov S c * A.transpose := by
  ext i j
  simp only [cov, Matrix.of_apply, cluster_mapPts, size_mapPts, centroid_affine hc, Matrix.mul_apply, List.map_map,
    Matrix.transpose_apply]
  have e : ∀ (p : Pt d) i, affine A b p i - affine A b (centroid S c) i = ∑ k, A i k * (p k - centroid S c k) := by
    intro p i
    exact congrFun (affine_sub (A := A) (b := b) p (centroid S c)) i
  simp only [Function.comp_def, e]
  have : ∀ l : List (Pt d), (l.map fun p => (∑ k, A i k * (p k - centroid S c k)) * ∑ k, A j k * (p k - centroid S c k)).sum =
      ∑ k, (∑ m, A i m * (l.map fun p => (p m - centroid S c m) * (p k - centroid S c k)).sum) * A j k := by
    intro l
    induction l with
    | nil => simp
    | cons p l ih =>
      simp only [List.map_cons, List.sum_cons, ih, mul_add, Finset.sum_add_distrib, add_mul]
      congr 1
      rw [Finset.sum_mul_sum, Finset.sum_comm]
      refine Finset.sum_congr rfl fun k _ => ?_
      rw [Finset.sum_mul]
      exact Finset.sum_congr rfl fun m _ => by ring
  rw [this, Finset.sum_div]
  refine Finset.sum_congr rfl fun k _ => ?_
  rw [mul_div_right_comm, Finset.sum_div]
  simp only [mul_div_assoc]

variable (hA : A.transpose * A = 1)
include hA

theorem mul_transpose : A * A.transpose = 1 := mul_eq_one_comm.1 hA

theorem regCov_affine {c : ℤ} (hc : c ∈ labels S) :
    regCov (mapPts (affine A b) S) c = A * regCov S c * A.transpose := by
  rw [regCov, cov_affine hc, regCov, mul_add, add_mul, Matrix.mul_smul, mul_one, Matrix.smul_mul, mul_transpose hA]

theorem gauss_conj (M : Matrix (Fin d) (Fin d) ℝ) (w : Pt d) :
    gauss (A * M * A.transpose) (A.mulVec w) = gauss M w := by
  have hAA := mul_transpose hA
  have hdet : A.det * A.det = 1 := by
    have := congrArg Matrix.det hA
    rwa [Matrix.det_mul, Matrix.det_transpose, Matrix.det_one] at this
  have h1 : (A * M * A.transpose).det = M.det := by
    rw [Matrix.det_mul, Matrix.det_mul, Matrix.det_transpose, mul_right_comm, hdet, one_mul]
  have hinv : A⁻¹ = A.transpose := Matrix.inv_eq_left_inv hA
  have hinv' : A.transpose⁻¹ = A := Matrix.inv_eq_left_inv hAA
  have h2 : (A * M * A.transpose)⁻¹ = A * M⁻¹ * A.transpose := by
    rw [Matrix.mul_inv_rev, Matrix.mul_inv_rev, hinv, hinv', ← mul_assoc]
  have hq : ∀ (N : Matrix (Fin d) (Fin d) ℝ) (w : Pt d), ∑ i, ∑ j, w i * N i j * w j = dotProduct w (N.mulVec w) := by
    intro N w
    simp only [dotProduct, Matrix.mulVec, Finset.mul_sum, mul_assoc]
  rw [gauss, gauss, h1, h2, hq, hq]
  congr 3
  rw [Matrix.mulVec_mulVec, mul_assoc, hA, mul_one, ← Matrix.mulVec_mulVec, Matrix.dotProduct_mulVec, ← Matrix.mulVec_transpose,
    Matrix.mulVec_mulVec, hA, Matrix.one_mulVec]

theorem rCIP_affine : Spec.rCIP (mapPts (affine A b) S) = Spec.rCIP S := by
  have hc : ∀ a ∈ labels S, ∀ c ∈ labels S, cip (mapPts (affine A b) S) a c = cip S a c := by
    intro a ha c hc
    rw [cip, centroid_affine ha, centroid_affine hc, affine_sub, regCov_affine hA ha, regCov_affine hA hc, ← add_mul,
      ← mul_add, gauss_conj hA]
    rfl
  rw [Spec.rCIP, Spec.rCIP, labels_mapPts]
  congr 1
  refine Finset.sum_congr rfl fun a ha => Finset.sum_congr rfl fun c hc' => ?_
  exact hc a ha c (Finset.mem_filter.1 hc').1

/-- Isometries change no index. -/
theorem value_isometry (I : Index) : Spec.value I (mapPts (affine A b) S) = Spec.value I S := by
  by_cases hr : I = .rCIP
  · subst hr; exact rCIP_affine hA
  · exact (similar_affine one_pos (by rw [hA, one_smul])).value hr (.inr rfl)

end

end Verif
