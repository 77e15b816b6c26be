import Verif.Gen.B64Exp
import Verif.Gen.RoundingCov

/-! # binary64 satisfies the standard model for the covariances of rCIP -/

namespace Verif.Gen
open B64

/-- An entry of a product of matrices is an inner product, in some order. -/
def Lib.Products (L : Lib) : Prop := ∀ (A B : Arr2 B64) (i j : ℕ), (∀ r ∈ B.rows, j < r.length) →
  (A.rows.getD i []).length = B.rows.length →
  DotOf ((A.rows.getD i []).zip (B.rows.map fun r => r.getD j (fin false 0))) (L.mm A B i j)

/-- `10 ** (-12 / d)` is accurate. -/
def Lib.DeltaNear (L : Lib) (d : ℕ) : Prop := Fin (L.delta d) ∧
  |val (L.delta d) - (10 : ℝ) ^ (-(12 : ℝ) / (d : ℝ))| ≤ (2 : ℝ) ^ (-48 : ℤ) * (10 : ℝ) ^ (-(12 : ℝ) / (d : ℝ))

namespace B64

theorem rndMag_zero : rndMag 0 unit = 0 := by
  have h := rndMag_half (a := 0) (b := unit) unit_pos
  rw [Nat.zero_div, Nat.cast_zero, zero_div, sub_zero, Nat.abs_cast] at h
  have e : (2 : ℝ) ^ (Nat.log2 0 - 52) / 2 = 1 / 2 := by simp [Nat.log2]
  rw [e] at h
  by_contra hn
  have : (1 : ℝ) ≤ (rndMag 0 unit : ℝ) := by exact_mod_cast Nat.one_le_iff_ne_zero.mpr hn
  linarith

theorem zero_mul_fin {a : B64} (h : Fin a) : Fin (mul (fin false 0) a) ∧ val (mul (fin false 0) a) = 0 := by
  cases a with
  | inf s => exact h.elim
  | nan => exact h.elim
  | fin s m =>
    have e : mul (fin false 0) (fin s m) = fin (xor false s) (rndMag 0 unit) := by
      rw [mul, Nat.zero_mul]
      exact ofMag_eq unit_pos (Nat.zero_le _)
    rw [e, rndMag_zero]
    exact ⟨trivial, by rw [val_fin, signed_cast]; simp⟩

/-- The number `x`, cut off to a multiple of the unit and rounded. -/
noncomputable def cut (x : ℝ) : B64 := ofMag (decide (x < 0)) ⌊|x| / lam⌋₊ 1

theorem cut_error {x : ℝ} (hx : |x| ≤ Ω) : Fin (cut x) ∧ |val (cut x) - x| ≤ u * |x| + lam := by
  have hl := lam_pos
  have hu := u_pos
  obtain ⟨n, hn⟩ : ∃ n, n = ⌊|x| / lam⌋₊ := ⟨_, rfl⟩
  rw [cut, ← hn]
  have h1 : (n : ℝ) * lam ≤ |x| := by
    rw [← le_div_iff₀ hl, hn]
    exact Nat.floor_le (by positivity)
  have h2 : |x| ≤ n * lam + lam := by
    have := Nat.lt_floor_add_one (|x| / lam)
    rw [← hn, div_lt_iff₀ hl] at this
    linarith
  obtain ⟨r1, r2⟩ := ofMag_error (s := decide (x < 0)) (a := n) (b := 1) (ε := (2 : ℝ) ^ (-53 : ℤ) * n) one_pos
    (by rw [Nat.cast_one, div_one]; exact h1.trans hx) (by rw [Nat.cast_one, div_one]; exact rndMag_int_error n)
  refine ⟨r1.isFin, ?_⟩
  have h3 := mul_le_mul_of_nonneg_left h1 hu.le
  have hu' : (2 : ℝ) ^ (-53 : ℤ) = u := rfl
  rw [Nat.cast_one, div_one, hu'] at r2
  by_cases h0 : x < 0
  · rw [decide_eq_true h0] at r2 ⊢
    simp only [if_true] at r2
    rw [abs_of_neg h0] at h1 h2 h3 ⊢
    have := abs_add_le (val (ofMag true n 1) - -1 * n * lam) (-1 * n * lam - x)
    rw [sub_add_sub_cancel] at this
    have : |-1 * n * lam - x| ≤ lam := abs_le.mpr ⟨by linarith, by linarith⟩
    linarith
  · rw [decide_eq_false h0] at r2 ⊢
    simp only [Bool.false_eq_true, if_false] at r2
    rw [abs_of_nonneg (not_lt.mp h0)] at h1 h2 h3 ⊢
    have := abs_add_le (val (ofMag false n 1) - 1 * n * lam) (1 * n * lam - x)
    rw [sub_add_sub_cancel] at this
    have : |1 * n * lam - x| ≤ lam := abs_le.mpr ⟨by linarith, by linarith⟩
    linarith

end B64

theorem B64.η_small : η ≤ u * (2 : ℝ) ^ (-40 : ℤ) := by
  have e : u * (2 : ℝ) ^ (-40 : ℤ) = (2 : ℝ) ^ (-93 : ℤ) := by unfold u; norm_num
  rw [e, η_eq]
  exact two_zpow_le (by norm_num)

theorem delta_ge {d : ℕ} (hd : 1 ≤ d) : (2 : ℝ) ^ (-40 : ℤ) ≤ (10 : ℝ) ^ (-(12 : ℝ) / (d : ℝ)) := by
  have hd' : (1 : ℝ) ≤ d := by exact_mod_cast hd
  have h1 : (10 : ℝ) ^ (-12 : ℝ) ≤ (10 : ℝ) ^ (-(12 : ℝ) / (d : ℝ)) := by
    refine Real.rpow_le_rpow_of_exponent_le (by norm_num) ?_
    rw [le_div_iff₀ (by linarith)]
    linarith
  refine le_trans ?_ h1
  have e : (10 : ℝ) ^ (-12 : ℝ) = (10 : ℝ) ^ (-12 : ℤ) := by
    rw [← Real.rpow_intCast]
    norm_num
  rw [e]
  norm_num

/-- **binary64** satisfies the standard model for covariances. -/
theorem F64.standardCov {L : Lib} {d : ℕ} (hp : L.Products) (hδ : L.DeltaNear d) (hd : 1 ≤ d) {N : ℕ} (hN : N ≤ 2 ^ 50) :
    StandardCov (F64 L) val Fin u η Ω ((2 : ℝ) ^ (-47 : ℤ)) N d where
  ratio n h1 h2 := by
    have e : (n : ℤ) - 1 = ((n - 1 : ℕ) : ℤ) := by omega
    have e' : (1 : ℝ) - 1 / n = ((n - 1 : ℕ) : ℝ) / n := by
      have : (n : ℝ) ≠ 0 := by exact_mod_cast (by omega : n ≠ 0)
      rw [Nat.cast_sub h1, Nat.cast_one]
      field_simp
    rw [e, e']
    by_cases h0 : n - 1 = 0
    · rw [h0]
      have ez : (Arith.intDiv ((0 : ℕ) : ℤ) (n : ℤ) : F64 L) = fin false 0 := by
        show intDiv ((0 : ℕ) : ℤ) (n : ℤ) = fin false 0
        rw [intDiv, if_neg (by omega), Int.natAbs_natCast, Int.natAbs_natCast, Nat.zero_mul, ofMag_eq (by omega) (Nat.zero_le _)]
        have : n = 1 := by omega
        subst this
        simp [rndMag]
      rw [ez]
      refine ⟨trivial, ?_⟩
      rw [show val (fin false 0) = 0 by rw [val_fin, signed_cast]; simp]
      simp
    · obtain ⟨i1, i2⟩ := intDiv_error (a := n - 1) (b := n) (by omega) (by omega) (by omega) (by omega)
      exact ⟨i1.isFin, i2⟩
  pred n h1 h2 := by
    have e : (n : ℤ) - 1 = ((n - 1 : ℕ) : ℤ) := by omega
    have e' : (1 : ℝ) / ((n : ℝ) - 1) = ((1 : ℕ) : ℝ) / ((n - 1 : ℕ) : ℝ) := by
      rw [Nat.cast_sub (by omega), Nat.cast_one]
    have ei : (Arith.invPred n : F64 L) = intDiv ((1 : ℕ) : ℤ) ((n - 1 : ℕ) : ℤ) := by
      show intDiv 1 ((n : ℤ) - 1) = _
      rw [e]; rfl
    rw [ei, e']
    obtain ⟨i1, i2⟩ := intDiv_error (a := 1) (b := n - 1) le_rfl (by norm_num) (by omega) (by omega)
    exact ⟨i1.isFin, i2⟩
  diag := by
    obtain ⟨f, h⟩ := hδ
    have o := ofNat_val (n := 1) (by norm_num)
    have o2 : val (ofNat 1) = 1 := o.2.trans (by norm_num)
    have hd0 := delta_ge hd
    have hd1 : (10 : ℝ) ^ (-(12 : ℝ) / (d : ℝ)) ≤ 1 := Rounding.delta_le d
    have hη := η_small
    have h4 : (4 : ℝ) ≤ Ω := by
      refine le_trans ?_ (le_Ω (e := 2) (by norm_num))
      norm_num
    have e47 : (2 : ℝ) ^ (-47 : ℤ) = 64 * u := by unfold u; norm_num
    have e48 : (2 : ℝ) ^ (-48 : ℤ) = 32 * u := by unfold u; norm_num
    have hu1 : 64 * u ≤ 1 := by unfold u; norm_num
    have hu := u_pos
    rw [e48] at h
    rw [e47]
    generalize (10 : ℝ) ^ (-(12 : ℝ) / (d : ℝ)) = δ at *
    have hδ0 : 0 ≤ δ := le_trans (by positivity) hd0
    have huδ : 0 ≤ u * δ := mul_nonneg hu.le hδ0
    have h9 : |val (L.delta d)| ≤ 2 * δ := by
      have h5 := abs_add_le (val (L.delta d) - δ) δ
      rw [sub_add_cancel, abs_of_nonneg hδ0] at h5
      have := mul_le_mul_of_nonneg_right hu1 hδ0
      linarith
    obtain ⟨i1, i2⟩ := mul_error (a := ofNat 1) (b := L.delta d) o.1.isFin f (by rw [o2, one_mul]; linarith)
    refine ⟨i1.isFin, ?_⟩
    rw [o2, one_mul] at i2
    show |val (mul (ofNat 1) (L.delta d)) - _| ≤ _
    have h6 := abs_add_le (val (mul (ofNat 1) (L.delta d)) - val (L.delta d)) (val (L.delta d) - δ)
    rw [sub_add_sub_cancel] at h6
    have h7 := mul_le_mul_of_nonneg_left hd0 hu.le
    have h8 := mul_le_mul_of_nonneg_left h9 hu.le
    linarith
  off := by
    obtain ⟨f, -⟩ := hδ
    exact zero_mul_fin f
  mm A B i j a b ha hj hb hl hN' fa fb hm := by
    have hdot : DotOf (a.zip b) (L.mm A B i j) := by
      subst ha hb
      exact hp A B i j hj (hl.trans (List.length_map _))
    rw [← sum_range_list] at hm
    have := DotOf.bound hdot (hN'.trans hN) rfl hl.symm fa fb (0 : F64 L) hm
    rw [← sum_range_list, ← sum_range_list]
    refine ⟨this.1, this.2.trans (le_of_eq ?_)⟩
    exact congrArg₂ (· + ·) (congrArg (· * _) (mul_assoc _ _ _)) rfl

/-! ## An instance -/

/-- The matrix of real numbers of an array. -/
noncomputable def B64.matrix (A : Arr2 B64) : Matrix (_root_.Fin A.cols) (_root_.Fin A.cols) ℝ :=
  Matrix.of fun i j => val ((A.rows.getD i []).getD j nan)

/-- A library for rCIP: every function is the exact one, rounded. -/
noncomputable def Lib.rounded : Lib := { Lib.withExp with
  delta := fun d => cut ((10 : ℝ) ^ (-(12 : ℝ) / (d : ℝ)))
  normConst := fun d => .ok (cut (1 / Real.sqrt ((2 * Real.pi) ^ d)))
  det := fun A => .ok (cut (matrix A).det)
  inv := fun A => open Classical in if (matrix A).det = 0 then .error .linAlgError
    else .ok ⟨A.cols, (List.finRange A.cols).map fun i => (List.finRange A.cols).map fun j => cut ((matrix A)⁻¹ i j)⟩ }

theorem Lib.rounded_dots (d : ℕ) : Lib.rounded.Dots d := Lib.plain_dots d
theorem Lib.rounded_sums : Lib.rounded.Sums := Lib.plain_sums
theorem Lib.rounded_batchSums (d : ℕ) : Lib.rounded.BatchSums d := Lib.plain_batchSums d

theorem Lib.rounded_products : Lib.rounded.Products := by
  intro A B i j hj _
  have hc : (B.rows.map fun r => r.getD j (fin false 0)) = B.rows.map fun r => r.getD j nan := by
    refine List.map_congr_left fun r hr => ?_
    simp [List.getD_eq_getElem?_getD, hj r hr]
  have e : ∀ a b : List B64, List.zipWith mul a b = (a.zip b).map fun p => mul p.1 p.2 := fun a b => by
    rw [List.zip, List.map_zipWith]
  show DotOf _ (total (List.zipWith mul (A.rows.getD i []) (B.rows.map fun r => r.getD j nan)))
  rw [hc, e]
  exact total_dot _

theorem Lib.rounded_delta {d : ℕ} (hd : 1 ≤ d) : Lib.rounded.DeltaNear d := by
  have h0 := delta_ge hd
  have h1 : (10 : ℝ) ^ (-(12 : ℝ) / (d : ℝ)) ≤ 1 := Rounding.delta_le d
  have hl : lam ≤ u * (2 : ℝ) ^ (-40 : ℤ) := by
    unfold u lam
    rw [two_zpow_mul]
    exact two_zpow_le (by norm_num)
  have h4 : (1 : ℝ) ≤ Ω := by
    refine le_trans ?_ (le_Ω (e := 0) (by norm_num))
    norm_num
  show Fin (cut _) ∧ |val (cut _) - _| ≤ _
  have e48 : (2 : ℝ) ^ (-48 : ℤ) = 32 * u := by unfold u; norm_num
  rw [e48]
  have hu := u_pos
  generalize (10 : ℝ) ^ (-(12 : ℝ) / (d : ℝ)) = δ at *
  have hδ0 : 0 ≤ δ := le_trans (by positivity) h0
  obtain ⟨f, e⟩ := cut_error (x := δ) (by rw [abs_of_nonneg hδ0]; linarith)
  rw [abs_of_nonneg hδ0] at e
  have h7 := mul_le_mul_of_nonneg_left h0 hu.le
  have := mul_nonneg hu.le hδ0
  exact ⟨f, by linarith⟩

theorem Lib.rounded_invShape (d : ℕ) : InvShape (F64 Lib.rounded) d := by
  intro A B hA h
  change (open Classical in if (matrix A).det = 0 then Except.error PyErr.linAlgError
    else Except.ok ⟨A.cols, (List.finRange A.cols).map fun i => (List.finRange A.cols).map fun j => cut ((matrix A)⁻¹ i j)⟩) = .ok B at h
  split at h
  · cases h
  · injection h with h
    subst h
    refine ⟨hA.1, by simp [hA.1], ?_⟩
    intro r hr
    obtain ⟨i, -, rfl⟩ := List.mem_map.mp hr
    exact (List.length_map _).trans (List.length_finRange.trans hA.1)

end Verif.Gen
