import Verif.Gen.B64Batch
import Verif.Gen.RoundingPS

/-! # binary64 satisfies the standard model for PS, if its `exp` is accurate -/

namespace Verif.Gen
open B64

/-- `np.exp` has absolute error at most `κ`, for arguments up to one. -/
def Lib.ExpNear (L : Lib) (κ : ℝ) : Prop :=
  ∀ a : B64, Fin a → val a ≤ 1 → Fin (L.exp a) ∧ |val (L.exp a) - Real.exp (val a)| ≤ κ

theorem F64.standardExp {L : Lib} {κ : ℝ} (hL : L.ExpNear κ) {N : ℕ} (hN : N ≤ 2 ^ 50) : StandardExp (F64 L) val Fin u κ N where
  neg a ha := by
    refine ⟨?_, val_neg a⟩
    have : ∀ a : B64, Fin a → Fin (neg a) := by
      intro a ha
      cases a <;> first | exact ha.elim | trivial
    exact this a ha
  ratio m n h1 h2 h3 := by
    obtain ⟨i1, i2⟩ := intDiv_error (a := m) (b := n) h1 (by omega) (by omega) (by omega)
    refine ⟨i1.isFin, i2.trans ?_⟩
    have hn : (0 : ℝ) < n := by exact_mod_cast (by omega : 0 < n)
    have : (m : ℝ) / n ≤ 1 := by rw [div_le_one hn]; exact_mod_cast h2
    have := mul_le_mul_of_nonneg_left this u_pos.le
    rwa [mul_one] at this
  exp a ha h := hL a ha h

/-- The exponential, cut off to a multiple of the unit and rounded. -/
noncomputable def B64.expCut : B64 → B64
  | fin s m => ofMag false ⌊Real.exp (val (fin s m)) / lam⌋₊ 1
  | inf s => if s then fin false 0 else inf false
  | nan => nan

/-- `Lib.plain` with an accurate `exp`. -/
noncomputable def Lib.withExp : Lib := { Lib.plain with exp := B64.expCut }

theorem Lib.withExp_dots (d : ℕ) : Lib.withExp.Dots d := Lib.plain_dots d
theorem Lib.withExp_sums : Lib.withExp.Sums := Lib.plain_sums
theorem Lib.withExp_batchSums (d : ℕ) : Lib.withExp.BatchSums d := Lib.plain_batchSums d

theorem Lib.withExp_near : Lib.withExp.ExpNear ((2 : ℝ) ^ (-51 : ℤ)) := by
  intro a hf ha
  have hl := lam_pos
  have he0 := Real.exp_pos (val a)
  have he : Real.exp (val a) ≤ 3 := by
    have h1 := Real.exp_le_exp.mpr ha
    have h2 := Real.exp_one_lt_d9
    linarith
  have hc : Lib.withExp.exp a = ofMag false ⌊Real.exp (val a) / lam⌋₊ 1 := by
    cases a with
    | fin s m => rfl
    | inf s => exact hf.elim
    | nan => exact hf.elim
  rw [hc]
  generalize Real.exp (val a) = e at *
  obtain ⟨n, hn⟩ : ∃ n, n = ⌊e / lam⌋₊ := ⟨_, rfl⟩
  rw [← hn]
  have h1 : (n : ℝ) * lam ≤ e := by
    rw [← le_div_iff₀ hl, hn]
    exact Nat.floor_le (by positivity)
  have h2 : e ≤ n * lam + lam := by
    have := Nat.lt_floor_add_one (e / lam)
    rw [← hn, div_lt_iff₀ hl] at this
    linarith
  have h4 : (4 : ℝ) ≤ Ω := by
    have := le_Ω (e := 2) (by norm_num)
    refine le_trans ?_ this
    norm_num
  obtain ⟨r1, r2⟩ := ofMag_error (s := false) (a := n) (b := 1) (ε := (2 : ℝ) ^ (-53 : ℤ) * n) one_pos (by simp; linarith) (by rw [Nat.cast_one, div_one]; exact rndMag_int_error n)
  refine ⟨r1.isFin, ?_⟩
  have r3 : |val (ofMag false n 1) - n * lam| ≤ (2 : ℝ) ^ (-53 : ℤ) * (n * lam) := by
    have e1 : (if false = true then -1 else 1 : ℝ) * ((n : ℝ) / ((1 : ℕ) : ℝ)) * lam = n * lam := by simp
    rw [e1] at r2
    linarith
  have hlam : lam ≤ (2 : ℝ) ^ (-53 : ℤ) := two_zpow_le (by norm_num)
  have h51 : (2 : ℝ) ^ (-51 : ℤ) = 4 * (2 : ℝ) ^ (-53 : ℤ) := by norm_num
  have h53 : 0 < (2 : ℝ) ^ (-53 : ℤ) := by positivity
  rw [h51]
  generalize (2 : ℝ) ^ (-53 : ℤ) = v at *
  have h5 := mul_le_mul_of_nonneg_left (h1.trans he) h53.le
  have h6 := abs_add_le (val (ofMag false n 1) - n * lam) (n * lam - e)
  rw [sub_add_sub_cancel] at h6
  have h7 : |n * lam - e| ≤ lam := abs_le.mpr ⟨by linarith, by linarith⟩
  linarith

end Verif.Gen
