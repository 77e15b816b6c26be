import Verif.Proofs.SimilarCSIL
import Verif.Props.Values
import Verif.Props.Batch

/-!
# C21, C23–C25: order, translation, scale, isometries

C22 is in `Props/Batch.lean`.
-/

namespace Verif
open Spec

variable {d d' : ℕ}

/-! ## C21: order -/

/-- **C21** for every class but cSIL: the last value does not depend on the order of the stream. -/
theorem C21_arrival_order_partial (I : Index) (hI : I ≠ .cSIL) (hd : DimOk I d) (S T : Stream d) (h : S.Perm T) :
    incLast I T = incLast I S := by
  by_cases hS : S = []
  · subst hS; rw [List.nil_perm.1 h]
  · have hT : T ≠ [] := fun e => hS (by subst e; exact List.perm_nil.1 h)
    rw [incLast_eq hI hd hS, incLast_eq hI hd hT, value_perm I h]

example : incLast .DB [(![5], 1), (![0], 0), (![2], 0)] = incLast .DB demo :=
  C21_arrival_order_partial .DB (by decide) (by simp [DimOk]) demo _ (by
    have := (List.perm_append_comm : ([(![0], 0), (![2], 0)] ++ [(![5], 1)] : Stream 1).Perm _)
    exact this)

/-- **C21** is false for incremental cSIL. -/
theorem C21_cSIL_false : ∃ S T : Stream 1, S.Perm T ∧ incLast .cSIL S = .ok (some (.fin (-50))) ∧
    incLast .cSIL T = .ok (some .ninf) := by
  let T : Stream 1 := [(![10], 1), (![10], 1), (![10 - 1], 0), (![10 + 1], 0)]
  have hp : (badStream 10).Perm T := by
    have := (List.perm_append_comm : ([(![10 - 1], 0), (![10 + 1], 0)] ++ [(![10], 1), (![10], 1)] : Stream 1).Perm _)
    exact this
  refine ⟨badStream 10, T, hp, ?_, ?_⟩
  · rw [incLast_actual (by simp [DimOk]) (bad_ne_nil 10)]
    change Except.ok (some (CSIL.actual (badStream 10))) = _
    rw [bad_actual]; norm_num
  · rw [incLast_actual (by simp [DimOk]) (by simp [T])]
    change Except.ok (some (CSIL.actual T)) = _
    have hl : labels T = {0, 1} := by rw [labels_perm hp, bad_labels]
    have hx : ∀ a b : ℤ, (a = 0 ∨ a = 1) → (b = 0 ∨ b = 1) → crossScatter T a b = if a = 0 then 1 else 0 := by
      intro a b ha hb
      have hma : a ∈ labels (badStream 10) := by rw [bad_labels]; simpa using ha
      have hmb : b ∈ labels (badStream 10) := by rw [bad_labels]; simpa using hb
      rw [(similar_perm hp).cross a hma b hmb, one_mul, bad_cross 10 a b ha hb]
    have hc1 : centroid T 1 = ![10] := by rw [centroid_perm hp, bad_centroid1]
    have hs0 : size T 0 = 2 := by rw [size_perm hp]; simp [size, bad_cluster0]
    have e00 : CSIL.entry T 0 0 = 1 := by rw [CSIL.entry, hx 0 0 (by simp) (by simp)]; simp [CSIL.csilErr]
    have e11 : CSIL.entry T 1 1 = 0 := by rw [CSIL.entry, hx 1 1 (by simp) (by simp)]; simp [CSIL.csilErr]
    have e10 : CSIL.entry T 1 0 = 0 := by
      rw [CSIL.entry, hx 1 0 (by simp) (by simp)]; simp [CSIL.csilErr, CSIL.lastOf, T]
    have e01 : CSIL.entry T 0 1 = -109 := by
      have h : CSIL.lastOf T 0 1 = some (![10 + 1], 0) := by simp [CSIL.lastOf, T]
      rw [CSIL.entry, hx 0 1 (by simp) (by simp), CSIL.csilErr, h, hs0]
      norm_num [CSIL.dot, hc1]
    rw [CSIL.actual, silValue_two hl (by rw [e00]; norm_num), e00, e11, e10, e01]
    norm_num [XR.fin_div, XR.idiv, XR.infOfSign]
    show XR.div .ninf (.fin 2) = .ninf
    simp [XR.div]

/-! ## C23: translation -/

/-- Add the vector `b` to every sample. -/
def translate (b : Pt d) (S : Stream d) : Stream d := S.map fun p => (fun i => p.1 i + b i, p.2)

theorem translate_eq (b : Pt d) (S : Stream d) : translate b S = mapPts (affine 1 b) S := by
  rw [translate, mapPts]
  congr 1
  funext p
  congr 1
  funext i
  simp [affine, Matrix.one_apply]

theorem incRun_congr' {I : Index} (hd : DimOk I d) (hd' : DimOk I d') {S : Stream d} {g : Pt d → Pt d'} {r : XR → XR}
    (h : ∀ P : Stream d, I.actual (mapPts g P) = r (I.actual P)) :
    incRun I (mapPts g S) = (incRun I S).map (List.map r) := by
  rw [incRun_actual hd', incRun_actual hd, mapPts_inits, Except.map, List.map_map, List.map_map]
  congr 2
  funext P
  exact h P

theorem incRun_congr {I : Index} (hd : DimOk I d) {S : Stream d} {g : Pt d → Pt d} {r : XR → XR}
    (h : ∀ P : Stream d, I.actual (mapPts g P) = r (I.actual P)) :
    incRun I (mapPts g S) = (incRun I S).map (List.map r) := incRun_congr' hd hd h

theorem map_id_incRun (I : Index) (S : Stream d) : (incRun I S).map (List.map id) = incRun I S := by
  cases incRun I S <;> simp [Except.map]

theorem consecutive_mapPts {S : Stream d} {g : Pt d → Pt d'} : Consecutive (mapPts g S) ↔ Consecutive S := by
  simp only [Consecutive, numClusters, labels_mapPts]

theorem numClusters_mapPts {S : Stream d} {g : Pt d → Pt d'} : numClusters (mapPts g S) = numClusters S := by
  simp only [numClusters, labels_mapPts]

theorem someInRange_mapPts {S : Stream d} {g : Pt d → Pt d'} : SomeInRange (mapPts g S) ↔ SomeInRange S := by
  simp only [SomeInRange, numClusters, labels_mapPts]

theorem batchRun_congr' {I : Index} (hd : 0 < d) (hd' : 0 < d') {S : Stream d} {g : Pt d → Pt d'} {r : XR → XR} (hr : r .nan = .nan)
    (h : Spec.value I (mapPts g S) = r (Spec.value I S)) :
    batchRun I (mapPts g S) = (batchRun I S).map r := by
  rw [C20_outcome I hd', C20_outcome I hd, batchOutcome, batchOutcome, numClusters_mapPts, propext consecutive_mapPts,
    propext someInRange_mapPts, h]
  split
  · rfl
  · split
    · rfl
    · split
      · rfl
      · rw [Except.map, hr]

theorem batchRun_congr {I : Index} (hd : 0 < d) {S : Stream d} {g : Pt d → Pt d} {r : XR → XR} (hr : r .nan = .nan)
    (h : Spec.value I (mapPts g S) = r (Spec.value I S)) :
    batchRun I (mapPts g S) = (batchRun I S).map r := batchRun_congr' hd hd hr h

theorem map_id_batchRun (I : Index) (S : Stream d) : (batchRun I S).map id = batchRun I S := by
  cases batchRun I S <;> rfl

/-- **C23** for every class but cSIL, incremental mode: no returned value changes. -/
theorem C23_translation_inc_partial (I : Index) (hI : I ≠ .cSIL) (hd : DimOk I d) (b : Pt d) (S : Stream d) :
    incRun I (translate b S) = incRun I S := by
  rw [translate_eq, incRun_congr hd (r := id), map_id_incRun]
  intro P
  rw [Index.actual_eq hI, Index.actual_eq hI, value_isometry (by simp)]
  rfl

/-- **C23**, batch mode, all classes, all label vectors (also what is raised stays the same). -/
theorem C23_translation_batch (I : Index) (hd : 0 < d) (b : Pt d) (S : Stream d) :
    batchRun I (translate b S) = batchRun I S := by
  rw [translate_eq, batchRun_congr hd (r := id) rfl, map_id_batchRun]
  rw [value_isometry (by simp)]
  rfl

example : batchRun .cSIL (translate ![3] demo) = batchRun .cSIL demo :=
  C23_translation_batch .cSIL Nat.one_pos _ _
example : incRun .rCIP (translate ![3] demo) = incRun .rCIP demo :=
  C23_translation_inc_partial .rCIP (by decide) (fun _ => Nat.one_pos) _ _

/-- **C23** is false for incremental cSIL: moving the data by 10 changes the value from `0` to `-50`. -/
theorem C23_cSIL_false : ∃ (b : Pt 1) (S : Stream 1), incLast .cSIL S = .ok (some (.fin 0)) ∧
    incLast .cSIL (translate b S) = .ok (some (.fin (-50))) := by
  have ht : translate ![10] (badStream 0) = badStream 10 := by
    have e : ∀ x y z : ℝ, x + y = z → (fun i => (![x] : Pt 1) i + (![y] : Pt 1) i) = ![z] := by
      intro x y z h; funext i; fin_cases i; simpa using h
    simp only [translate, badStream, List.map_cons, List.map_nil]
    rw [e (0 - 1) 10 (10 - 1) (by norm_num), e (0 + 1) 10 (10 + 1) (by norm_num), e 0 10 10 (by norm_num)]
  refine ⟨![10], badStream 0, ?_, ?_⟩
  · rw [incLast_actual (by simp [DimOk]) (bad_ne_nil 0)]
    change Except.ok (some (CSIL.actual (badStream 0))) = _
    rw [bad_actual]; norm_num
  · rw [ht, incLast_actual (by simp [DimOk]) (bad_ne_nil 10)]
    change Except.ok (some (CSIL.actual (badStream 10))) = _
    rw [bad_actual]; norm_num

/-! ## C24: scale -/

/-- Multiply every sample by `s`. -/
def rescale (s : ℝ) (S : Stream d) : Stream d := S.map fun p => (fun i => s * p.1 i, p.2)

theorem rescale_eq (s : ℝ) (S : Stream d) : rescale s S = mapPts (affine (s • 1) 0) S := by
  rw [rescale, mapPts]
  congr 1
  funext p
  congr 1
  funext i
  simp [affine, Matrix.one_apply]

theorem scale_matrix (s : ℝ) : (s • (1 : Matrix (Fin d) (Fin d) ℝ)).transpose * (s • 1) = (s ^ 2) • 1 := by
  rw [Matrix.transpose_smul, Matrix.transpose_one, Matrix.smul_mul, one_mul, smul_smul, pow_two]

theorem actual_rescale {I : Index} (hr : I ≠ .rCIP) (hg : I ≠ .GD43) {s : ℝ} (hs : s ≠ 0) (S : Stream d) :
    I.actual (mapPts (affine (s • (1 : Matrix (Fin d) (Fin d) ℝ)) 0) S) = I.actual S := by
  have hq : (0 : ℝ) < s ^ 2 := by positivity
  by_cases hI : I = .cSIL
  · subst hI; exact actual_linear hq (scale_matrix s) S
  · rw [Index.actual_eq hI, Index.actual_eq hI, (similar_affine hq (scale_matrix s)).value hr (.inl hg)]

theorem GD43_rescale {s : ℝ} (hs : s ≠ 0) (S : Stream d) :
    Spec.GD43 (mapPts (affine (s • (1 : Matrix (Fin d) (Fin d) ℝ)) 0) S) = Spec.GD43 S / .fin |s| := by
  have hq : (0 : ℝ) < s ^ 2 := by positivity
  have h := (similar_affine (S := S) (b := 0) hq (scale_matrix s)).GD43
  rw [Real.sqrt_sq_eq_abs] at h
  rw [h]
  by_cases hk : numClusters S ≤ 1
  · rw [if_pos hk, Spec.GD43, if_pos hk, XR.fin_div_of_ne _ one_ne_zero, XR.fin_div_of_ne _ (abs_ne_zero.2 hs), zero_div,
      zero_div]
  · rw [if_neg hk]

/-- **C24**, incremental mode (cSIL included): scaling changes no value of CH, WB, XB, DB, GD53, PS, cSIL. -/
theorem C24_scale_inc (I : Index) (hr : I ≠ .rCIP) (hg : I ≠ .GD43) (s : ℝ) (hs : s ≠ 0) (S : Stream d) :
    incRun I (rescale s S) = incRun I S := by
  rw [rescale_eq, incRun_congr (fun e => absurd e hr) (r := id), map_id_incRun]
  exact actual_rescale hr hg hs

/-- **C24**, incremental GD43: every value is divided by `|s|`. -/
theorem C24_scale_inc_GD43 (s : ℝ) (hs : s ≠ 0) (S : Stream d) :
    incRun .GD43 (rescale s S) = (incRun .GD43 S).map (List.map fun v => v / .fin |s|) := by
  rw [rescale_eq, incRun_congr (by simp [DimOk])]
  exact fun P => GD43_rescale hs P

/-- **C24**, batch mode, all label vectors. -/
theorem C24_scale_batch (I : Index) (hr : I ≠ .rCIP) (hg : I ≠ .GD43) (hd : 0 < d) (s : ℝ) (hs : s ≠ 0) (S : Stream d) :
    batchRun I (rescale s S) = batchRun I S := by
  have hq : (0 : ℝ) < s ^ 2 := by positivity
  rw [rescale_eq, batchRun_congr hd (r := id) rfl, map_id_batchRun]
  rw [(similar_affine hq (scale_matrix s)).value hr (.inl hg)]; rfl

/-- **C24**, batch GD43. -/
theorem C24_scale_batch_GD43 (hd : 0 < d) (s : ℝ) (hs : s ≠ 0) (S : Stream d) :
    batchRun .GD43 (rescale s S) = (batchRun .GD43 S).map fun v => v / .fin |s| := by
  rw [rescale_eq, batchRun_congr hd (r := fun v => v / .fin |s|) (XR.nan_div _)]
  exact GD43_rescale hs S

example : incRun .XB (rescale (-3) demo) = incRun .XB demo :=
  C24_scale_inc .XB (by decide) (by decide) (-3) (by norm_num) demo
example : batchRun .GD43 (rescale (-3) demo) = (batchRun .GD43 demo).map fun v => v / .fin |(-3 : ℝ)| :=
  C24_scale_batch_GD43 Nat.one_pos (-3) (by norm_num) demo

/-! ## C25: isometries -/

/-- Apply the matrix `A` to every sample. -/
def transform (A : Matrix (Fin d) (Fin d) ℝ) (S : Stream d) : Stream d := S.map fun p => (A.mulVec p.1, p.2)

theorem transform_eq (A : Matrix (Fin d) (Fin d) ℝ) (S : Stream d) : transform A S = mapPts (affine A 0) S := by
  rw [transform, mapPts]
  congr 1
  funext p
  congr 1
  funext i
  simp [affine, Matrix.mulVec, dotProduct]

/-- **C25**, incremental mode, all classes. -/
theorem C25_isometry_inc (I : Index) (hd : DimOk I d) (A : Matrix (Fin d) (Fin d) ℝ) (hA : A.transpose * A = 1)
    (S : Stream d) : incRun I (transform A S) = incRun I S := by
  rw [transform_eq, incRun_congr hd (r := id), map_id_incRun]
  intro P
  by_cases hI : I = .cSIL
  · subst hI; exact actual_linear one_pos (by rw [hA, one_smul]) P
  · rw [Index.actual_eq hI, Index.actual_eq hI, value_isometry hA]; rfl

/-- **C25**, batch mode, all classes, all label vectors. -/
theorem C25_isometry_batch (I : Index) (hd : 0 < d) (A : Matrix (Fin d) (Fin d) ℝ) (hA : A.transpose * A = 1)
    (S : Stream d) : batchRun I (transform A S) = batchRun I S := by
  rw [transform_eq, batchRun_congr hd (r := id) rfl, map_id_batchRun]
  rw [value_isometry hA]; rfl

/-- Swapping two features. -/
example (I : Index) (S : Stream 2) : incRun I (transform !![0, 1; 1, 0] S) = incRun I S :=
  C25_isometry_inc I (fun _ => Nat.two_pos) _ (by
    ext i j; fin_cases i <;> fin_cases j <;> simp [Matrix.mul_apply, Fin.sum_univ_two]) S
/-- Reflecting the demo data. -/
example (I : Index) : batchRun I (transform !![-1] demo) = batchRun I demo :=
  C25_isometry_batch I Nat.one_pos _ (by ext i j; fin_cases i; fin_cases j; simp [Matrix.mul_apply]) demo

end Verif
