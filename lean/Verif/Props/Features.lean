import Verif.Props.Invariance

/-!
# C52: constant features
-/

namespace Verif
open Spec

variable {d : ℕ}

/-- Append a feature with the constant value `t` to every sample. -/
def addFeature (t : ℝ) (S : Stream d) : Stream (d + 1) := S.map fun p => (Fin.snoc p.1 t, p.2)

/-- The inclusion of `ℝ^d` into `ℝ^(d+1)`. -/
def incl (d : ℕ) : Matrix (Fin (d + 1)) (Fin d) ℝ := Matrix.of fun i j => if i = j.castSucc then 1 else 0

theorem incl_isometry : (incl d).transpose * incl d = (1 : ℝ) • (1 : Matrix (Fin d) (Fin d) ℝ) := by
  ext i j
  simp only [incl, Matrix.mul_apply, Matrix.transpose_apply, Matrix.of_apply, one_smul, Matrix.one_apply]
  simp [Fin.castSucc_inj, eq_comm]

theorem addFeature_eq (t : ℝ) (S : Stream d) :
    addFeature t S = mapPts (affine (incl d) (Fin.snoc (fun _ => 0) t)) S := by
  rw [addFeature, mapPts]
  congr 1
  funext p
  congr 1
  funext i
  refine Fin.lastCases ?_ (fun j => ?_) i
  · simp only [Fin.snoc_last, affine, incl, Matrix.of_apply]
    rw [Finset.sum_eq_zero, zero_add]
    intro j _
    rw [if_neg (Fin.castSucc_lt_last j).ne', zero_mul]
  · simp [affine, incl, Fin.castSucc_inj]

theorem addFeature_zero (S : Stream d) : addFeature 0 S = mapPts (affine (incl d) 0) S := by
  rw [addFeature_eq]
  congr 2
  funext i
  refine Fin.lastCases ?_ (fun j => ?_) i <;> simp

/-- **C52**, incremental mode, for every class but rCIP (whose definition contains the dimension) and cSIL: a constant feature
changes no returned value. -/
theorem C52_constant_inc_partial (I : Index) (hr : I ≠ .rCIP) (hI : I ≠ .cSIL) (t : ℝ) (S : Stream d) :
    incRun I (addFeature t S) = incRun I S := by
  rw [addFeature_eq, incRun_congr' (fun e => absurd e hr) (fun e => absurd e hr) (r := id), map_id_incRun]
  intro P
  rw [Index.actual_eq hI, Index.actual_eq hI, (similar_affine one_pos incl_isometry).value hr (.inr rfl)]
  rfl

/-- **C52**, incremental mode, cSIL included: a feature that is always `0`. -/
theorem C52_zero_inc_partial (I : Index) (hr : I ≠ .rCIP) (S : Stream d) : incRun I (addFeature 0 S) = incRun I S := by
  by_cases hI : I = .cSIL
  · subst hI
    rw [addFeature_zero, incRun_congr' (by simp [DimOk]) (by simp [DimOk]) (r := id), map_id_incRun]
    exact fun P => actual_linear one_pos incl_isometry P
  · exact C52_constant_inc_partial I hr hI 0 S

/-- **C52**, batch mode, for every class but rCIP, all label vectors. -/
theorem C52_constant_batch (I : Index) (hr : I ≠ .rCIP) (hd : 0 < d) (t : ℝ) (S : Stream d) :
    batchRun I (addFeature t S) = batchRun I S := by
  rw [addFeature_eq, batchRun_congr' hd (Nat.succ_pos d) (r := id) rfl, map_id_batchRun]
  rw [(similar_affine one_pos incl_isometry).value hr (.inr rfl)]
  rfl

example : incRun .GD43 (addFeature 7 demo) = incRun .GD43 demo :=
  C52_constant_inc_partial .GD43 (by decide) (by decide) 7 demo
example : incRun .cSIL (addFeature 0 demo) = incRun .cSIL demo := C52_zero_inc_partial .cSIL (by decide) demo
example : batchRun .cSIL (addFeature 7 demo) = batchRun .cSIL demo :=
  C52_constant_batch .cSIL (by decide) Nat.one_pos 7 demo

/-- **C52** is false for incremental cSIL: the constant feature `10` changes the value from `0` to `-50`. -/
theorem C52_cSIL_false : ∃ (t : ℝ) (S : Stream 1), incLast .cSIL S = .ok (some (.fin 0)) ∧
    incLast .cSIL (addFeature t S) = .ok (some (.fin (-50))) := by
  refine ⟨10, badStream 0, ?_, ?_⟩
  · rw [incLast_actual (by simp [DimOk]) (bad_ne_nil 0)]
    change Except.ok (some (CSIL.actual (badStream 0))) = _
    rw [bad_actual]; norm_num
  · rw [incLast_actual (by simp [DimOk]) (by simp [addFeature, badStream])]
    change Except.ok (some (CSIL.actual (addFeature 10 (badStream 0)))) = _
    set T := addFeature 10 (badStream 0) with hT
    have hsim : Similar 1 (badStream 0) T := by
      rw [hT, addFeature_eq]; exact similar_affine one_pos incl_isometry
    have hl : labels T = {0, 1} := by rw [hsim.labels, bad_labels]
    have hx : ∀ a b : ℤ, (a = 0 ∨ a = 1) → (b = 0 ∨ b = 1) → crossScatter T a b = if a = 0 then 1 else 0 := by
      intro a b ha hb
      rw [hsim.cross a (by rw [bad_labels]; simpa using ha) b (by rw [bad_labels]; simpa using hb), one_mul,
        bad_cross 0 a b ha hb]
    have hc0 : centroid T 0 = Fin.snoc (![0] : Pt 1) 10 := by
      funext i
      have : cluster T 0 = [Fin.snoc (![0 - 1] : Pt 1) 10, Fin.snoc (![0 + 1] : Pt 1) 10] := by
        simp [cluster, T, addFeature, badStream]
      rw [centroid, this, meanOf]
      fin_cases i
      · norm_num [Fin.snoc]
      · norm_num [Fin.snoc]
    have hs1 : size T 1 = 2 := by rw [hsim.size]; simp [size, bad_cluster1]
    have e00 : CSIL.entry T 0 0 = 1 := by rw [CSIL.entry, hx 0 0 (by simp) (by simp)]; simp [CSIL.csilErr]
    have e11 : CSIL.entry T 1 1 = 0 := by rw [CSIL.entry, hx 1 1 (by simp) (by simp)]; simp [CSIL.csilErr]
    have e01 : CSIL.entry T 0 1 = 1 := by
      rw [CSIL.entry, hx 0 1 (by simp) (by simp)]; simp [CSIL.csilErr, CSIL.lastOf, T, addFeature, badStream]
    have e10 : CSIL.entry T 1 0 = -100 := by
      have h : CSIL.lastOf T 1 0 = some (Fin.snoc (![0] : Pt 1) 10, 1) := by
        simp [CSIL.lastOf, T, addFeature, badStream]
      rw [CSIL.entry, hx 1 0 (by simp) (by simp), CSIL.csilErr, h, hs1, hc0]
      norm_num [CSIL.dot, Fin.sum_univ_succ, Fin.snoc]
    rw [CSIL.actual, silValue_two hl (by rw [e00]; norm_num), e00, e11, e10, e01]
    norm_num [XR.fin_div, XR.idiv]

end Verif
