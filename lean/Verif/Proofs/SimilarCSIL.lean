import Verif.Proofs.Similar

/-! # Incremental cSIL under linear similarities -/

namespace Verif
open Spec

variable {d d' : ℕ}

theorem XR.div_mul_left {q : ℝ} (hq : 0 < q) (a b : ℝ) : XR.fin (q * a) / XR.fin (q * b) = XR.fin a / XR.fin b := by
  rw [XR.fin_div, XR.fin_div, XR.idiv, XR.idiv]
  by_cases hb : b = 0
  · rw [if_pos (by simp [hb]), if_pos hb, XR.infOfSign, XR.infOfSign]
    have h1 : 0 < q * a ↔ 0 < a := mul_pos_iff_of_pos_left hq
    have h2 : q * a < 0 ↔ a < 0 := by
      rw [mul_neg_iff]; simp [hq, hq.le.not_gt]
    rw [if_congr h1 rfl rfl, if_congr h2 rfl rfl]
  · rw [if_neg (mul_ne_zero hq.ne' hb), if_neg hb, mul_div_mul_left _ _ hq.ne']

theorem silValue_smul {S : Stream d} {T : Stream d'} (hl : labels T = labels S) {q : ℝ} (hq : 0 < q) {E F : ℤ → ℤ → ℝ}
    (h : ∀ a ∈ labels S, ∀ b ∈ labels S, F a b = q * E a b) : CSIL.silValue T F = CSIL.silValue S E := by
  have hk : numClusters T = numClusters S := by rw [numClusters, hl]; rfl
  have e1 : (∀ a ∈ labels S, ∀ b ∈ labels S, F a b = 0) ↔ (∀ a ∈ labels S, ∀ b ∈ labels S, E a b = 0) := by
    refine forall₂_congr fun a ha => forall₂_congr fun b hb => ?_
    rw [h a ha b hb, mul_eq_zero]; simp [hq.ne']
  simp only [CSIL.silValue, hk, hl]
  rw [if_congr e1 rfl rfl]
  congr 3
  refine Finset.sum_congr rfl fun c hc => ?_
  rw [otherValues_smul hl q (fun b hb => h b hb c hc), Real.sInf_smul_of_nonneg hq.le, smul_eq_mul, h c hc c hc, ← mul_sub,
    ← mul_max_of_nonneg _ _ hq.le, XR.div_mul_left hq]

theorem lastOf_mapPts (g : Pt d → Pt d') (S : Stream d) (a b : ℤ) :
    CSIL.lastOf (mapPts g S) a b = (CSIL.lastOf S a b).map fun p => (g p.1, p.2) := by
  rw [CSIL.lastOf, CSIL.lastOf, mapPts, List.filter_map, List.getLast?_map]
  rfl

theorem dot_affine {A : Matrix (Fin d') (Fin d) ℝ} {q : ℝ} (hA : A.transpose * A = q • (1 : Matrix (Fin d) (Fin d) ℝ))
    (x y : Pt d) : CSIL.dot (affine A 0 x) (affine A 0 y) = q * CSIL.dot x y := by
  have e : ∀ x : Pt d, affine A 0 x = A.mulVec x := by
    intro x; funext i; simp [affine, Matrix.mulVec, dotProduct]
  show dotProduct (affine A 0 x) (affine A 0 y) = q * dotProduct x y
  rw [e, e, Matrix.dotProduct_mulVec, ← Matrix.mulVec_transpose, Matrix.mulVec_mulVec, hA, Matrix.smul_mulVec,
    Matrix.one_mulVec, smul_dotProduct, smul_eq_mul]

theorem csilErr_linear {A : Matrix (Fin d') (Fin d) ℝ} {q : ℝ}
    (hA : A.transpose * A = q • (1 : Matrix (Fin d) (Fin d) ℝ)) {S : Stream d} {a b : ℤ} (hb : b ∈ labels S) :
    CSIL.csilErr (mapPts (affine A 0) S) a b = q * CSIL.csilErr S a b := by
  rw [CSIL.csilErr, CSIL.csilErr, lastOf_mapPts, size_mapPts]
  by_cases hab : a = b
  · simp [hab]
  · rw [if_neg hab, if_neg hab]
    cases CSIL.lastOf S a b with
    | none => simp
    | some p =>
      simp only [Option.map_some, centroid_affine hb, dot_affine hA]
      split
      · simp
      · split
        · rfl
        · ring

theorem actual_linear {A : Matrix (Fin d') (Fin d) ℝ} {q : ℝ} (hq : 0 < q)
    (hA : A.transpose * A = q • (1 : Matrix (Fin d) (Fin d) ℝ)) (S : Stream d) :
    CSIL.actual (mapPts (affine A 0) S) = CSIL.actual S := by
  refine silValue_smul (labels_mapPts _ _) hq fun a ha b hb => ?_
  rw [CSIL.entry, CSIL.entry, (similar_affine hq hA).cross a ha b hb, csilErr_linear hA hb, mul_add]

end Verif
