import Verif.Gen.B64Cov
import Verif.Gen.RoundingOverlap
import Mathlib.LinearAlgebra.Matrix.AbsoluteValue

/-! # binary64 satisfies the standard model for the overlaps of rCIP -/

namespace Verif.Gen
open B64

/-- The libraries behind the overlaps of rCIP, in binary64: an entry of the product of a row and a matrix is an inner product, in some
order; the constant factor is accurate; `np.linalg.det` and `np.linalg.inv` are numerically stable (see `StandardLinalg`). -/
structure Lib.Linalg (L : Lib) (κ : ℝ) (d : ℕ) : Prop where
  vm : ∀ (x : List B64) (B : Arr2 B64) (j : ℕ), (∀ r ∈ B.rows, j < r.length) → x.length = B.rows.length →
    DotOf (x.zip (B.rows.map fun r => r.getD j (fin false 0))) (L.vm x B j)
  normConst : (2 * Real.pi) ^ d ≤ Ω → ∃ k, L.normConst d = .ok k ∧ Fin k ∧
    |val k - 1 / √((2 * Real.pi) ^ d)| ≤ κ * (1 / √((2 * Real.pi) ^ d))
  det : ∀ (A : Arr2 (F64 L)) (β : ℝ), Sq d A → (∀ i < d, ∀ j < d, B64.Fin (Rounding.ent (F := F64 L) A i j) ∧ |val (Rounding.ent (F := F64 L) A i j)| ≤ β) →
    (2 * (d * β)) ^ d ≤ Ω → (∀ T, Perturb.Near (κ * β) (mat (F := F64 L) val d A) T → (10 : ℝ) ^ (-12 : ℤ) ≤ |T.det|) →
    ∃ D, L.det A = .ok D ∧ Fin D ∧ ∃ T, Perturb.Near (κ * β) (mat (F := F64 L) val d A) T ∧ |val D - T.det| ≤ κ * |T.det|
  inv : ∀ (A : Arr2 (F64 L)) (β c : ℝ), Sq d A → (∀ i < d, ∀ j < d, B64.Fin (Rounding.ent (F := F64 L) A i j) ∧ |val (Rounding.ent (F := F64 L) A i j)| ≤ β) →
    (2 * (d * β)) ^ d ≤ Ω → 1 ≤ c → 2 * c ≤ Ω →
    (∀ T, Perturb.Near (κ * β) (mat (F := F64 L) val d A) T → T.det ≠ 0 ∧ ∀ i j, |T⁻¹ i j| ≤ c) →
    ∃ X : Arr2 (F64 L), L.inv A = .ok X ∧ Sq d X ∧ ∀ j : _root_.Fin d, ∃ T, Perturb.Near (κ * β) (mat (F := F64 L) val d A) T ∧
      ∀ i : _root_.Fin d, B64.Fin (Rounding.ent (F := F64 L) X i j) ∧ |val (Rounding.ent (F := F64 L) X i j) - T⁻¹ i j| ≤ κ * c

theorem B64.rndMag_cancel {a b : ℕ} (hb : 0 < b) : rndMag (b * a) b = rndMag a 1 := by
  rw [rndMag_def, rndMag_def, Nat.mul_div_cancel_left _ hb, Nat.div_one, one_mul, Nat.mul_mod_mul_left, Nat.mul_div_mul_left _ _ hb]
  generalize Nat.log2 a - 52 = s
  have e1 : 2 * (b * (a % 2 ^ s)) = b * (2 * (a % 2 ^ s)) := by ring
  simp only [e1, Nat.mul_lt_mul_left hb, Nat.mul_right_inj hb.ne']

theorem B64.unit_def : unit = 2 ^ (1073 + 1) := by
  have h (t : ℕ) (ht : t = 1073 + 1) : 2 ^ t = 2 ^ (1073 + 1) := by subst ht; rfl
  unfold unit
  exact h 1074 (by norm_num)

theorem B64.negHalf_val : Fin (intDiv (-1) 2) ∧ val (intDiv (-1) 2) = -(1 / 2) := by
  obtain ⟨a, ha, hr⟩ : ∃ a, unit = 2 * a ∧ rndMag a 1 = a := by
    refine ⟨1 * 2 ^ 1073, ?_, rndMag_small (by norm_num)⟩
    rw [one_mul, mul_comm, ← pow_succ]
    exact unit_def
  have e : intDiv (-1) 2 = ofMag true unit 2 := by
    rw [intDiv, if_neg (by norm_num)]
    simp
  have hlt : unit ≤ 2 * maxMag := by
    have : (unit : ℝ) / (2 : ℕ) * lam ≤ Ω := by
      have h1 := le_Ω (e := 0) (by norm_num)
      rw [zpow_zero] at h1
      have h2 : (unit : ℝ) * lam = 1 := unit_mul
      push_cast
      linarith
    exact le_of_Ω (by norm_num) this
  rw [e, ofMag_eq (by norm_num) hlt, ha, rndMag_cancel (by norm_num), hr]
  refine ⟨trivial, ?_⟩
  have h2 : (unit : ℝ) * lam = 1 := unit_mul
  rw [ha] at h2
  push_cast at h2
  rw [val_fin, signed_cast]
  simp only [if_true]
  linarith

/-- **binary64** satisfies the standard model for overlaps. -/
theorem F64.standardLinalg {L : Lib} {κ : ℝ} {d : ℕ} (h : L.Linalg κ d) (hd : d ≤ 2 ^ 50) : StandardLinalg (F64 L) val Fin u η Ω κ d where
  negHalf := negHalf_val
  normConst := h.normConst
  vm x b B j hx hj hb hl fx fb hm := by
    have hlen : B.rows.length = d := by rw [← hl, ← hb, List.length_map]
    have hdot : DotOf (x.zip b) (L.vm x B j) := by
      subst hb
      exact h.vm x B j hj (hx.trans hlen.symm)
    have := DotOf.bound hdot hd hx hl fx fb (0 : F64 L) hm
    refine ⟨this.1, this.2.trans (le_of_eq ?_)⟩
    exact congrArg₂ (· + ·) (congrArg (· * _) (mul_assoc _ _ _)) rfl
  det := h.det
  inv := h.inv

/-! ## The instance -/

theorem getD_any {α : Type} {rows : List (List α)} {d i j : ℕ} (hl : rows.length = d) (hr : ∀ r ∈ rows, r.length = d) (hi : i < d) (hj : j < d)
    (x y : α) : (rows.getD i []).getD j x = (rows.getD i []).getD j y := by
  have hi' : i < rows.length := by rw [hl]; exact hi
  have hj' : j < (rows[i]'hi').length := by rw [hr _ (List.getElem_mem hi')]; exact hj
  simp [List.getD_eq_getElem?_getD, hi', hj']

theorem table_getD {α : Type} {d : ℕ} (f : _root_.Fin d → _root_.Fin d → α) (i j : _root_.Fin d) (x : α) :
    (((List.finRange d).map fun i => (List.finRange d).map fun j => f i j).getD i []).getD j x = f i j := by
  simp [List.getD_eq_getElem?_getD]

theorem matrix_eq (A : Arr2 (F64 .rounded)) (hA : Sq A.cols A) : matrix A = mat (F := F64 .rounded) val A.cols A :=
  Matrix.ext fun i j => congrArg val (getD_any hA.2.1 hA.2.2 i.2 j.2 _ _)

/-- A number that is not tiny is cut off and rounded with a small relative error. -/
theorem B64.cut_rel {x : ℝ} (hx : |x| ≤ Ω) (h0 : (2 : ℝ) ^ (-512 : ℤ) ≤ |x|) : Fin (cut x) ∧ |val (cut x) - x| ≤ (2 : ℝ) ^ (-51 : ℤ) * |x| := by
  obtain ⟨f, e⟩ := cut_error hx
  refine ⟨f, e.trans ?_⟩
  have hl : lam ≤ u * (2 : ℝ) ^ (-512 : ℤ) := by
    unfold u lam
    rw [two_zpow_mul]
    exact two_zpow_le (by norm_num)
  have hu := u_pos
  have e51 : (2 : ℝ) ^ (-51 : ℤ) = 4 * u := by unfold u; norm_num
  rw [e51]
  have h1 := mul_le_mul_of_nonneg_left h0 hu.le
  have h2 := mul_nonneg hu.le (abs_nonneg x)
  linarith

theorem B64.two_512 : (2 : ℝ) ^ (-512 : ℤ) ≤ (10 : ℝ) ^ (-12 : ℤ) := (two_zpow_le (b := -40) (by norm_num)).trans (by norm_num)

/-- The determinant is not large. -/
theorem det_range {d : ℕ} {A : Matrix (_root_.Fin d) (_root_.Fin d) ℝ} {β : ℝ} (hd : 1 ≤ d) (hA : ∀ i j, |A i j| ≤ β) (hΩ : (2 * (d * β)) ^ d ≤ Ω) :
    |A.det| ≤ Ω := by
  have hβ : 0 ≤ β := (abs_nonneg _).trans (hA ⟨0, hd⟩ ⟨0, hd⟩)
  refine le_trans ?_ hΩ
  have h1 := Matrix.det_le (A := A) (abv := (AbsoluteValue.abs : AbsoluteValue ℝ ℝ)) (x := β) hA
  rw [Fintype.card_fin, nsmul_eq_mul] at h1
  refine le_trans h1 ?_
  have h2 : ((d.factorial : ℕ) : ℝ) ≤ (d : ℝ) ^ d := by exact_mod_cast Nat.factorial_le_pow d
  have h3 := mul_le_mul_of_nonneg_right h2 (pow_nonneg hβ d)
  rw [← mul_pow] at h3
  refine h3.trans (pow_le_pow_left₀ (by positivity) ?_ d)
  have : 0 ≤ d * β := by positivity
  linarith

theorem Lib.rounded_linalg {d : ℕ} (hd : 1 ≤ d) : Lib.rounded.Linalg ((2 : ℝ) ^ (-51 : ℤ)) d where
  vm x B j hj _ := by
    have hc : (B.rows.map fun r => r.getD j (fin false 0)) = B.rows.map fun r => r.getD j nan := by
      refine List.map_congr_left fun r hr => ?_
      simp [List.getD_eq_getElem?_getD, hj r hr]
    have e : ∀ a b : List B64, List.zipWith mul a b = (a.zip b).map fun p => mul p.1 p.2 := fun a b => by
      rw [List.zip, List.map_zipWith]
    show DotOf _ (total (List.zipWith mul x (B.rows.map fun r => r.getD j nan)))
    rw [hc, e]
    exact total_dot _
  normConst h := by
    have h1 : (1 : ℝ) ≤ (2 * Real.pi) ^ d := one_le_pow₀ (by have := Real.pi_gt_three; linarith)
    have hs1 : 1 ≤ √((2 * Real.pi) ^ d) := Real.one_le_sqrt.mpr h1
    have hs2 : √((2 * Real.pi) ^ d) ≤ (2 : ℝ) ^ (512 : ℤ) := by
      refine Real.sqrt_le_iff.mpr ⟨by positivity, h.trans ?_⟩
      rw [sq, two_zpow_mul]
      rw [Ω_eq, show (512 : ℤ) + 512 = ((53 : ℕ) : ℤ) + 971 by norm_num, zpow_add₀ (by norm_num), zpow_natCast]
      exact mul_le_mul_of_nonneg_right (by norm_num) (by positivity)
    have h0 : 0 ≤ 1 / √((2 * Real.pi) ^ d) := by positivity
    have := cut_rel (x := 1 / √((2 * Real.pi) ^ d)) ?_ ?_
    · rw [abs_of_nonneg h0] at this
      exact ⟨_, rfl, this.1, this.2⟩
    · rw [abs_of_nonneg h0]
      refine le_trans ((div_le_one (by linarith)).mpr hs1) (le_trans (by norm_num) (le_Ω (e := 0) (by norm_num)))
    · rw [abs_of_nonneg h0, zpow_neg, ← one_div]
      exact one_div_le_one_div_of_le (by linarith) hs2
  det A β hA hβ hΩ hT := by
    obtain rfl := hA.1
    have hb : 0 ≤ β := (abs_nonneg _).trans (hβ 0 hd 0 hd).2
    have hn : Perturb.Near ((2 : ℝ) ^ (-51 : ℤ) * β) (mat (F := F64 .rounded) val A.cols A) (mat (F := F64 .rounded) val A.cols A) :=
      fun i j => by rw [sub_self, abs_zero]; positivity
    have hr := det_range hd (A := mat (F := F64 .rounded) val A.cols A) (fun i j => (hβ i i.2 j j.2).2) hΩ
    have hc := cut_rel hr (two_512.trans (hT _ hn))
    refine ⟨cut (matrix A).det, rfl, ?_, _, hn, ?_⟩
    · rw [matrix_eq A hA]; exact hc.1
    · rw [matrix_eq A hA]; exact hc.2
  inv A β c hA hβ hΩ hc1 hc hT := by
    obtain rfl := hA.1
    have hb : 0 ≤ β := (abs_nonneg _).trans (hβ 0 hd 0 hd).2
    have hn : Perturb.Near ((2 : ℝ) ^ (-51 : ℤ) * β) (mat (F := F64 .rounded) val A.cols A) (mat (F := F64 .rounded) val A.cols A) :=
      fun i j => by rw [sub_self, abs_zero]; positivity
    obtain ⟨h1, h2⟩ := hT _ hn
    have e : Lib.rounded.inv A = .ok ⟨A.cols, (List.finRange A.cols).map fun i => (List.finRange A.cols).map fun j => cut ((matrix A)⁻¹ i j)⟩ := by
      show (open Classical in if (matrix A).det = 0 then Except.error PyErr.linAlgError else _) = _
      rw [if_neg (by rw [matrix_eq A hA]; exact h1)]
    refine ⟨_, e, Lib.rounded_invShape A.cols A _ hA e, fun j => ⟨_, hn, fun i => ?_⟩⟩
    have hent := (table_getD (fun i j => cut ((matrix A)⁻¹ i j)) i j (fin false 0)).trans
      (congrArg (fun R : Matrix _ _ ℝ => cut (R⁻¹ i j)) (matrix_eq A hA))
    obtain ⟨f, e⟩ := cut_error (x := (mat (F := F64 .rounded) val A.cols A)⁻¹ i j) (by have := h2 i j; linarith)
    suffices goal : Fin (cut ((mat (F := F64 .rounded) val A.cols A)⁻¹ i j)) ∧
        |val (cut ((mat (F := F64 .rounded) val A.cols A)⁻¹ i j)) - (mat (F := F64 .rounded) val A.cols A)⁻¹ i j| ≤ (2 : ℝ) ^ (-51 : ℤ) * c from
      ⟨(congrArg B64.Fin hent).mpr goal.1, (congrArg (fun z : B64 => |val z - _|) hent).le.trans goal.2⟩
    refine ⟨f, e.trans ?_⟩
    have hl : lam ≤ u := two_zpow_le (by norm_num)
    have hu := u_pos
    have e51 : (2 : ℝ) ^ (-51 : ℤ) = 4 * u := by unfold u; norm_num
    rw [e51]
    have h3 := mul_le_mul_of_nonneg_left (h2 i j) hu.le
    have h4 := mul_le_mul_of_nonneg_left hc1 hu.le
    linarith

end Verif.Gen
