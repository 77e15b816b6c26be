import Mathlib.Analysis.Real.Sqrt
import Mathlib.Algebra.Order.Chebyshev
import Mathlib.Algebra.QuadraticDiscriminant
import Mathlib.LinearAlgebra.Matrix.DotProduct
import Mathlib.LinearAlgebra.Matrix.NonsingularInverse
import Mathlib.LinearAlgebra.Matrix.ToLinearEquiv

/-!
# Perturbation of symmetric positive definite matrices

What a small change of the entries does to the determinant, to the inverse and to the quadratic form of the inverse.
-/

namespace Verif.Perturb
open Matrix

variable {d : ℕ}

/-- Euclidean length. -/
noncomputable def len (x : Fin d → ℝ) : ℝ := √(x ⬝ᵥ x)

theorem len_nonneg (x : Fin d → ℝ) : 0 ≤ len x := Real.sqrt_nonneg _

theorem dot_self_nonneg (x : Fin d → ℝ) : 0 ≤ x ⬝ᵥ x := Finset.sum_nonneg fun _ _ => mul_self_nonneg _

theorem len_mul_self (x : Fin d → ℝ) : len x * len x = x ⬝ᵥ x := Real.mul_self_sqrt (dot_self_nonneg x)

theorem cauchy (x y : Fin d → ℝ) : |x ⬝ᵥ y| ≤ len x * len y := by
  rw [len, len, ← Real.sqrt_mul (dot_self_nonneg x)]
  apply Real.abs_le_sqrt
  have := Finset.sum_mul_sq_le_sq_mul_sq Finset.univ x y
  simpa only [dotProduct, ← sq] using this

theorem sum_abs_le (x : Fin d → ℝ) : ∑ i, |x i| ≤ √d * len x := by
  rw [len, ← Real.sqrt_mul (Nat.cast_nonneg d)]
  apply Real.le_sqrt_of_sq_le
  have := sq_sum_le_card_mul_sum_sq (s := Finset.univ) (f := fun i : Fin d => |x i|)
  simpa only [dotProduct, ← sq, sq_abs, Finset.card_univ, Fintype.card_fin] using this

theorem abs_le_len (x : Fin d → ℝ) (i : Fin d) : |x i| ≤ len x := by
  apply Real.abs_le_sqrt
  have := Finset.single_le_sum (f := fun i => x i * x i) (fun i _ => mul_self_nonneg (x i)) (Finset.mem_univ i)
  rw [sq]
  exact this

theorem len_single (j : Fin d) : len (Pi.single j (1 : ℝ)) = 1 := by
  rw [len, single_dotProduct, Pi.single_eq_same, one_mul, Real.sqrt_one]

theorem form_eq (x y : Fin d → ℝ) (E : Matrix (Fin d) (Fin d) ℝ) : x ⬝ᵥ E *ᵥ y = ∑ i, ∑ j, x i * E i j * y j := by
  simp only [dotProduct, mulVec, Finset.mul_sum, mul_assoc]

/-- The bilinear form of a matrix with small entries. -/
theorem form_le {E : Matrix (Fin d) (Fin d) ℝ} {ε : ℝ} (hε : 0 ≤ ε) (h : ∀ i j, |E i j| ≤ ε) (x y : Fin d → ℝ) :
    |x ⬝ᵥ E *ᵥ y| ≤ d * ε * (len x * len y) := by
  have h1 : |x ⬝ᵥ E *ᵥ y| ≤ ε * ((∑ i, |x i|) * ∑ j, |y j|) := by
    rw [form_eq, Finset.sum_mul_sum, Finset.mul_sum]
    refine (Finset.abs_sum_le_sum_abs _ _).trans (Finset.sum_le_sum fun i _ => ?_)
    rw [Finset.mul_sum]
    refine (Finset.abs_sum_le_sum_abs _ _).trans (Finset.sum_le_sum fun j _ => ?_)
    rw [abs_mul, abs_mul]
    have := mul_le_mul_of_nonneg_right (h i j) (mul_nonneg (abs_nonneg (x i)) (abs_nonneg (y j)))
    linarith
  have h2 : (∑ i, |x i|) * ∑ j, |y j| ≤ (√d * len x) * (√d * len y) :=
    mul_le_mul (sum_abs_le x) (sum_abs_le y) (Finset.sum_nonneg fun i _ => abs_nonneg _) (mul_nonneg (Real.sqrt_nonneg _) (len_nonneg _))
  have h3 := mul_le_mul_of_nonneg_left h2 hε
  have h4 : √(d : ℝ) * √(d : ℝ) = d := Real.mul_self_sqrt (Nat.cast_nonneg d)
  calc _ ≤ _ := h1
    _ ≤ _ := h3
    _ = (√(d : ℝ) * √(d : ℝ)) * ε * (len x * len y) := by ring
    _ = _ := by rw [h4]

/-- The form of the matrix is at least `m` times the square of the length. -/
def Low (m : ℝ) (A : Matrix (Fin d) (Fin d) ℝ) : Prop := 0 < m ∧ ∀ x, m * (x ⬝ᵥ x) ≤ x ⬝ᵥ A *ᵥ x

section
variable {A B : Matrix (Fin d) (Fin d) ℝ} {m : ℝ}

theorem Low.det_ne (h : Low m B) : B.det ≠ 0 := by
  intro h0
  obtain ⟨v, hv, h1⟩ := exists_mulVec_eq_zero_iff.mpr h0
  have h2 := h.2 v
  rw [h1, dotProduct_zero] at h2
  have h3 : v ⬝ᵥ v ≤ 0 := by
    by_contra hn
    have := mul_pos h.1 (not_le.mp hn)
    linarith
  exact hv (dotProduct_self_eq_zero.mp (le_antisymm h3 (dot_self_nonneg v)))

theorem Low.unit (h : Low m B) : IsUnit B.det := isUnit_iff_ne_zero.mpr h.det_ne

theorem Low.mul_inv (h : Low m B) (w : Fin d → ℝ) : B *ᵥ (B⁻¹ *ᵥ w) = w := by
  rw [mulVec_mulVec, mul_nonsing_inv _ h.unit, one_mulVec]

/-- The length of a solution. -/
theorem Low.solve (h : Low m B) (w : Fin d → ℝ) : len (B⁻¹ *ᵥ w) ≤ len w / m := by
  obtain ⟨z, hz⟩ : ∃ z, z = B⁻¹ *ᵥ w := ⟨_, rfl⟩
  have h1 := h.2 z
  have h2 : B *ᵥ z = w := by rw [hz, h.mul_inv]
  rw [h2, ← len_mul_self] at h1
  rw [← hz, le_div_iff₀ h.1]
  have h3 := (le_abs_self _).trans (cauchy z w)
  rcases (len_nonneg z).eq_or_lt with h0 | h0
  · rw [← h0, zero_mul]; exact len_nonneg w
  · refine le_of_mul_le_mul_left ?_ h0
    linarith

theorem Low.inv_entry (h : Low m B) (i j : Fin d) : |B⁻¹ i j| ≤ 1 / m := by
  have h1 := (abs_le_len _ i).trans (h.solve (Pi.single j 1))
  rwa [len_single, mulVec_single_one] at h1

theorem Low.transpose (h : Low m B) : Low m Bᵀ := by
  refine ⟨h.1, fun x => (h.2 x).trans_eq ?_⟩
  rw [mulVec_transpose, dotProduct_comm x (x ᵥ* B), ← dotProduct_mulVec]

/-- A small change of the entries. -/
def Near (ε : ℝ) (A B : Matrix (Fin d) (Fin d) ℝ) : Prop := ∀ i j, |B i j - A i j| ≤ ε

theorem Near.trans {ε ε' : ℝ} {C : Matrix (Fin d) (Fin d) ℝ} (h : Near ε A B) (h' : Near ε' B C) : Near (ε + ε') A C := fun i j => by
  have := abs_add_le (C i j - B i j) (B i j - A i j)
  rw [sub_add_sub_cancel] at this
  linarith [h i j, h' i j]

theorem Near.form {ε : ℝ} (hε : 0 ≤ ε) (h : Near ε A B) (x y : Fin d → ℝ) :
    |x ⬝ᵥ B *ᵥ y - x ⬝ᵥ A *ᵥ y| ≤ d * ε * (len x * len y) := by
  rw [← dotProduct_sub, ← sub_mulVec]
  exact form_le hε h x y

theorem Near.low {ε : ℝ} (hε : 0 ≤ ε) (h : Near ε A B) (hA : Low m A) (hm : 2 * (d * ε) ≤ m) : Low (m / 2) B := by
  refine ⟨half_pos hA.1, fun x => ?_⟩
  have h1 := (abs_le.mp (h.form hε x x)).1
  have h2 := hA.2 x
  rw [len_mul_self] at h1
  have h3 := mul_le_mul_of_nonneg_right hm (dot_self_nonneg x)
  linarith

/-! ## Determinants -/

theorem sum_perm_le {g : Fin d → Fin d → ℝ} (h0 : ∀ i j, 0 ≤ g i j) : ∑ σ : Equiv.Perm (Fin d), ∏ i, g (σ i) i ≤ ∏ i, ∑ j, g j i := by
  have hinj : Function.Injective (fun σ : Equiv.Perm (Fin d) => (σ : Fin d → Fin d)) := fun a b h => Equiv.ext (congrFun h)
  have h1 := Finset.sum_map Finset.univ ⟨_, hinj⟩ (fun f : Fin d → Fin d => ∏ i, g (f i) i)
  have h3 := Finset.prod_univ_sum (fun _ : Fin d => (Finset.univ : Finset (Fin d))) (fun i j => g j i)
  rw [Fintype.piFinset_univ] at h3
  rw [h3]
  refine le_of_eq_of_le h1.symm ?_
  exact Finset.sum_le_sum_of_subset_of_nonneg (Finset.subset_univ _) fun f _ _ => Finset.prod_nonneg fun i _ => h0 _ _

theorem det_one_add {G : Matrix (Fin d) (Fin d) ℝ} {t : ℝ} (h : ∀ j, ∑ i, |G i j| ≤ t) : |(1 + G).det - 1| ≤ (1 + t) ^ d - 1 := by
  have hnn : ∀ i j, 0 ≤ (1 : Matrix (Fin d) (Fin d) ℝ) i j + |G i j| := fun i j => by
    rw [one_apply]; split <;> positivity
  have h1 : ∑ σ : Equiv.Perm (Fin d), ∏ i, ((1 : Matrix (Fin d) (Fin d) ℝ) (σ i) i + |G (σ i) i|) ≤ (1 + t) ^ d := by
    refine (sum_perm_le hnn).trans ?_
    refine (Finset.prod_le_prod (fun i _ => Finset.sum_nonneg fun j _ => hnn j i) (fun i _ => ?_ : ∀ i ∈ Finset.univ, _ ≤ 1 + t)).trans ?_
    · rw [Finset.sum_add_distrib]
      have : ∑ j, (1 : Matrix (Fin d) (Fin d) ℝ) j i = 1 := by simp [one_apply]
      rw [this]
      linarith [h i]
    · simp
  have h4 : (1 + G).det - 1 = (∏ i, (1 + G) i i - 1) + ∑ σ ∈ Finset.univ.erase (1 : Equiv.Perm (Fin d)), (Equiv.Perm.sign σ : ℝ) * ∏ i, (1 + G) (σ i) i := by
    rw [det_apply', ← Finset.add_sum_erase _ _ (Finset.mem_univ (1 : Equiv.Perm (Fin d)))]
    simp
    ring
  have h5 : |∏ i, (1 + G) i i - 1| ≤ ∏ i, (1 + |G i i|) - 1 := by
    have : ∀ s : Finset (Fin d), |∏ i ∈ s, (1 + G) i i - 1| ≤ ∏ i ∈ s, (1 + |G i i|) - 1 := by
      intro s
      induction s using Finset.induction_on with
      | empty => simp
      | insert a s ha ih =>
        rw [Finset.prod_insert ha, Finset.prod_insert ha, Matrix.add_apply, one_apply_eq]
        have e : (1 + G a a) * ∏ i ∈ s, (1 + G) i i - 1 = (1 + G a a) * (∏ i ∈ s, (1 + G) i i - 1) + G a a := by ring
        rw [e]
        have h6 : |(1 + G a a) * (∏ i ∈ s, (1 + G) i i - 1)| ≤ (1 + |G a a|) * (∏ i ∈ s, (1 + |G i i|) - 1) := by
          rw [abs_mul]
          refine mul_le_mul ?_ ih (abs_nonneg _) (by positivity)
          have := abs_add_le 1 (G a a)
          rwa [abs_one] at this
        have := abs_add_le ((1 + G a a) * (∏ i ∈ s, (1 + G) i i - 1)) (G a a)
        linarith
    exact this Finset.univ
  have h6 : |∑ σ ∈ Finset.univ.erase (1 : Equiv.Perm (Fin d)), (Equiv.Perm.sign σ : ℝ) * ∏ i, (1 + G) (σ i) i| ≤
      ∑ σ ∈ Finset.univ.erase (1 : Equiv.Perm (Fin d)), ∏ i, ((1 : Matrix (Fin d) (Fin d) ℝ) (σ i) i + |G (σ i) i|) := by
    refine (Finset.abs_sum_le_sum_abs _ _).trans (Finset.sum_le_sum fun σ _ => ?_)
    have hs : |(Equiv.Perm.sign σ : ℝ)| = 1 := by
      rcases Int.units_eq_one_or (Equiv.Perm.sign σ) with h | h <;> rw [h] <;> simp
    rw [abs_mul, hs, one_mul, Finset.abs_prod]
    refine Finset.prod_le_prod (fun i _ => abs_nonneg _) fun i _ => ?_
    rw [Matrix.add_apply]
    refine (abs_add_le _ _).trans (le_of_eq ?_)
    rw [one_apply]
    split <;> simp
  rw [← Finset.add_sum_erase _ _ (Finset.mem_univ (1 : Equiv.Perm (Fin d)))] at h1
  have h7 : ∏ i, ((1 : Matrix (Fin d) (Fin d) ℝ) ((1 : Equiv.Perm (Fin d)) i) i + |G ((1 : Equiv.Perm (Fin d)) i) i|) = ∏ i, (1 + |G i i|) :=
    Finset.prod_congr rfl fun i _ => by rw [Equiv.Perm.one_apply, one_apply_eq]
  rw [h7] at h1
  rw [h4]
  refine (abs_add_le _ _).trans ?_
  linarith

theorem pow_le {n : ℕ} {t : ℝ} (ht : 0 ≤ t) (h : 2 * n * t ≤ 1) : (1 + t) ^ n ≤ 1 + 2 * n * t := by
  induction n with
  | zero => simp
  | succ n ih =>
    push_cast at h ⊢
    have hn : (0 : ℝ) ≤ n := Nat.cast_nonneg n
    have hnt := mul_nonneg hn ht
    have h1 : 2 * (n : ℝ) * t ≤ 1 := by linarith
    rw [pow_succ]
    have h2 := mul_le_mul_of_nonneg_right (ih h1) (show 0 ≤ 1 + t by linarith)
    have h3 := mul_le_mul_of_nonneg_right h1 ht
    linarith

/-- The determinant changes little, relatively. -/
theorem Near.det {ε : ℝ} (hε : 0 ≤ ε) (h : Near ε A B) (hA : Low m A) (hm : 2 * (d ^ 3 * ε) ≤ m) :
    |B.det - A.det| ≤ 2 * (d ^ 3 * ε / m) * |A.det| := by
  have hm0 := hA.1
  have hd : (0 : ℝ) ≤ d := Nat.cast_nonneg d
  have e : B = A * (1 + A⁻¹ * (B - A)) := by
    rw [mul_add, mul_one, ← mul_assoc, mul_nonsing_inv _ hA.unit, one_mul]
    abel
  have h1 : ∀ j, ∑ i, |(A⁻¹ * (B - A)) i j| ≤ d ^ 2 * ε / m := by
    intro j
    have : ∀ i, |(A⁻¹ * (B - A)) i j| ≤ d * ε / m := by
      intro i
      rw [mul_apply]
      refine (Finset.abs_sum_le_sum_abs _ _).trans ((Finset.sum_le_sum fun k _ => ?_).trans (le_of_eq (?_ : ∑ _k : Fin d, 1 / m * ε = _)))
      · rw [abs_mul]
        exact mul_le_mul (hA.inv_entry i k) (h k j) (abs_nonneg _) (by positivity)
      · simp; ring
    refine (Finset.sum_le_sum fun i _ => this i).trans (le_of_eq ?_)
    simp; ring
  have h2 := det_one_add h1
  have ht : 0 ≤ d ^ 2 * ε / m := by positivity
  have h3 : (d : ℝ) * (d ^ 2 * ε / m) = d ^ 3 * ε / m := by ring
  have h4 := pow_le (n := d) ht (by
    rw [mul_assoc, h3, mul_div_assoc', div_le_one hm0]; exact hm)
  rw [mul_assoc, h3] at h4
  have h5 : B.det - A.det = A.det * ((1 + A⁻¹ * (B - A)).det - 1) := by
    conv_lhs => rw [e, det_mul]
    ring
  rw [h5, abs_mul, mul_comm]
  exact mul_le_mul_of_nonneg_right (by linarith) (abs_nonneg _)

theorem det_le {β : ℝ} (h : ∀ i j, |A i j| ≤ β) : |A.det| ≤ (d * β) ^ d := by
  rw [det_apply']
  have h1 : ∀ σ : Equiv.Perm (Fin d), |(Equiv.Perm.sign σ : ℝ) * ∏ i, A (σ i) i| ≤ ∏ i, |A (σ i) i| := by
    intro σ
    have hs : |(Equiv.Perm.sign σ : ℝ)| = 1 := by
      rcases Int.units_eq_one_or (Equiv.Perm.sign σ) with h | h <;> rw [h] <;> simp
    rw [abs_mul, hs, one_mul, Finset.abs_prod]
  refine (Finset.abs_sum_le_sum_abs _ _).trans ((Finset.sum_le_sum fun σ _ => h1 σ).trans ?_)
  refine (sum_perm_le (g := fun i j => |A i j|) fun i j => abs_nonneg _).trans ?_
  refine (Finset.prod_le_prod (fun i _ => Finset.sum_nonneg fun j _ => abs_nonneg _) (fun i _ => ?_ : ∀ i ∈ Finset.univ, _ ≤ d * β)).trans ?_
  · exact (Finset.sum_le_sum fun j _ => h j i).trans (by simp)
  · simp

/-! ## Quadratic forms of inverses -/

/-- The square of the Mahalanobis length. -/
noncomputable def energy (A : Matrix (Fin d) (Fin d) ℝ) (w : Fin d → ℝ) : ℝ := w ⬝ᵥ A⁻¹ *ᵥ w

theorem form_symm (hs : Aᵀ = A) (x y : Fin d → ℝ) : x ⬝ᵥ A *ᵥ y = y ⬝ᵥ A *ᵥ x := by
  rw [dotProduct_mulVec, ← mulVec_transpose, hs, dotProduct_comm]

theorem cauchy_form (hs : Aᵀ = A) (h : ∀ x, 0 ≤ x ⬝ᵥ A *ᵥ x) (x y : Fin d → ℝ) :
    (x ⬝ᵥ A *ᵥ y) ^ 2 ≤ (x ⬝ᵥ A *ᵥ x) * (y ⬝ᵥ A *ᵥ y) := by
  have h1 : ∀ t : ℝ, 0 ≤ (y ⬝ᵥ A *ᵥ y) * (t * t) + 2 * (x ⬝ᵥ A *ᵥ y) * t + x ⬝ᵥ A *ᵥ x := by
    intro t
    have := h (x + t • y)
    rw [mulVec_add, add_dotProduct, dotProduct_add, dotProduct_add, mulVec_smul, dotProduct_smul, dotProduct_smul,
      smul_dotProduct, smul_dotProduct, form_symm hs y x] at this
    simp only [smul_eq_mul] at this
    linarith
  have := discrim_le_zero h1
  rw [discrim] at this
  linarith

variable (hs : Aᵀ = A) (hA : Low m A)

include hA in
theorem low_nonneg (x : Fin d → ℝ) : 0 ≤ x ⬝ᵥ A *ᵥ x := (mul_nonneg hA.1.le (dot_self_nonneg x)).trans (hA.2 x)

include hA in
theorem energy_eq (w : Fin d → ℝ) : energy A w = (A⁻¹ *ᵥ w) ⬝ᵥ A *ᵥ (A⁻¹ *ᵥ w) := by
  rw [hA.mul_inv, energy, dotProduct_comm]

include hA in
theorem energy_nonneg (w : Fin d → ℝ) : 0 ≤ energy A w := by
  rw [energy_eq hA]; exact low_nonneg hA _

include hs in
theorem inv_symm : (A⁻¹)ᵀ = A⁻¹ := by rw [transpose_nonsing_inv, hs]

include hA in
/-- The length of the solution. -/
theorem solution_le (w : Fin d → ℝ) : len (A⁻¹ *ᵥ w) ≤ √(energy A w / m) := by
  apply Real.sqrt_le_sqrt
  rw [le_div_iff₀ hA.1, energy_eq hA, mul_comm]
  exact hA.2 _

include hs hA

theorem len_le {β : ℝ} (hβ : 0 ≤ β) (h : ∀ i j, |A i j| ≤ β) (w : Fin d → ℝ) : w ⬝ᵥ w ≤ d * β * energy A w := by
  have h1 := cauchy_form hs (low_nonneg hA) w (A⁻¹ *ᵥ w)
  rw [← energy_eq hA, hA.mul_inv] at h1
  have h2 := (le_abs_self _).trans (form_le hβ h w w)
  rw [len_mul_self] at h2
  have h3 := mul_le_mul_of_nonneg_right h2 (energy_nonneg hA w)
  rcases (dot_self_nonneg w).eq_or_lt with h0 | h0
  · rw [← h0]
    exact mul_nonneg (mul_nonneg (Nat.cast_nonneg d) hβ) (energy_nonneg hA w)
  · refine le_of_mul_le_mul_left ?_ h0
    linarith

/-- The length of the solution for a perturbed matrix. -/
theorem solution_near {ε : ℝ} (hε : 0 ≤ ε) (h : Near ε A B) (hm : 2 * (d * ε) ≤ m) (w : Fin d → ℝ) :
    len (B⁻¹ *ᵥ w) ≤ 2 * √(energy A w / m) := by
  have hB := h.low hε hA hm
  have hm0 := hA.1
  obtain ⟨q, hq⟩ : ∃ q, q = energy A w := ⟨_, rfl⟩
  have hq0 : 0 ≤ q := hq ▸ energy_nonneg hA w
  obtain ⟨z, hz⟩ : ∃ z, z = B⁻¹ *ᵥ w := ⟨_, rfl⟩
  have hBz : B *ᵥ z = w := by rw [hz, hB.mul_inv]
  obtain ⟨s, hs'⟩ : ∃ s, s = z ⬝ᵥ w := ⟨_, rfl⟩
  have h1 := hB.2 z
  rw [hBz, ← hs'] at h1
  have h2 := cauchy_form hs (low_nonneg hA) z (A⁻¹ *ᵥ w)
  rw [← energy_eq hA, hA.mul_inv, ← hs', ← hq] at h2
  have h3 := (abs_le.mp (h.form hε z z)).1
  rw [hBz, ← hs', len_mul_self] at h3
  have hz0 := dot_self_nonneg z
  have h4 := mul_le_mul_of_nonneg_right hm hz0
  have h5 : z ⬝ᵥ A *ᵥ z ≤ 2 * s := by linarith
  have h6 := mul_le_mul_of_nonneg_right h5 hq0
  have hs0 : 0 ≤ s := (mul_nonneg hB.1.le hz0).trans h1
  have h7 : s ≤ 2 * q := by
    rcases hs0.eq_or_lt with h0 | h0
    · linarith
    · refine le_of_mul_le_mul_left ?_ h0
      rw [sq] at h2
      linarith
  rw [← hz, ← hq]
  have e : 2 * √(q / m) = √(4 * (q / m)) := by
    rw [Real.sqrt_mul (by norm_num), show (4 : ℝ) = 2 ^ 2 by norm_num, Real.sqrt_sq (by norm_num)]
  rw [e]
  apply Real.sqrt_le_sqrt
  rw [mul_div_assoc', le_div_iff₀ hm0]
  linarith

/-- The energy for a perturbed matrix. -/
theorem energy_near {ε : ℝ} (hε : 0 ≤ ε) (h : Near ε A B) (hm : 2 * (d * ε) ≤ m) (w : Fin d → ℝ) :
    |energy B w - energy A w| ≤ 2 * (d * ε / m) * energy A w := by
  have hB := h.low hε hA hm
  have hq0 := energy_nonneg hA w
  have e : energy B w - energy A w = -((A⁻¹ *ᵥ w) ⬝ᵥ (B - A) *ᵥ (B⁻¹ *ᵥ w)) := by
    rw [sub_mulVec, hB.mul_inv, dotProduct_sub, dotProduct_comm _ w, form_symm hs, hA.mul_inv, dotProduct_comm _ w, energy, energy]
    ring
  rw [e, abs_neg]
  refine (form_le hε h _ _).trans ?_
  have h1 := mul_le_mul (solution_le hA w) (solution_near hs hA hε h hm w) (len_nonneg _) (Real.sqrt_nonneg _)
  have h2 : √(energy A w / m) * (2 * √(energy A w / m)) = 2 * (energy A w / m) := by
    have := Real.mul_self_sqrt (div_nonneg hq0 hA.1.le)
    linarith
  rw [h2] at h1
  have h3 := mul_le_mul_of_nonneg_left h1 (mul_nonneg (Nat.cast_nonneg d) hε)
  refine h3.trans (le_of_eq ?_)
  ring

/-- Columns of inverses of different perturbed matrices. -/
theorem columns_near {ε κ β f : ℝ} (hε : 0 ≤ ε) (hκ : 0 ≤ κ) (hf : 0 ≤ f) (hβ : 0 ≤ β) (hb : ∀ i j, |A i j| ≤ β) (h : Near ε A B)
    (hm : 2 * (d * (ε + κ)) ≤ m) {T : Fin d → Matrix (Fin d) (Fin d) ℝ} (hT : ∀ j, Near κ B (T j)) {X : Matrix (Fin d) (Fin d) ℝ}
    (hX : ∀ i j, |X i j - (T j)⁻¹ i j| ≤ f) (w : Fin d → ℝ) :
    |w ⬝ᵥ X *ᵥ w - energy A w| ≤ (2 * (d * ε / m) + 4 * (d ^ 2 * κ / m) * √(β / m) + f * (d ^ 2 * β)) * energy A w := by
  have hm0 := hA.1
  have hd : (0 : ℝ) ≤ d := Nat.cast_nonneg d
  have hdκ := mul_nonneg hd hκ
  have hm' : 2 * (d * ε) ≤ m := by linarith
  have hB := h.low hε hA hm'
  obtain ⟨q, hq⟩ : ∃ q, q = energy A w := ⟨_, rfl⟩
  have hq0 : 0 ≤ q := hq ▸ energy_nonneg hA w
  have hw := len_le hs hA hβ hb w
  rw [← hq] at hw
  have hlw : len w ≤ √(d * (β * q)) := Real.sqrt_le_sqrt (by rw [← mul_assoc]; exact hw)
  -- the columns
  have hcol : ∀ j, |w ⬝ᵥ (T j)⁻¹ *ᵥ Pi.single j 1 - w ⬝ᵥ B⁻¹ *ᵥ Pi.single j 1| ≤ 4 * (d * κ / m) * √(q / m) := by
    intro j
    have hTl := (h.trans (hT j)).low (by linarith) hA hm
    obtain ⟨z, hz⟩ : ∃ z, z = (T j)⁻¹ *ᵥ Pi.single j 1 := ⟨_, rfl⟩
    have hz1 : len z ≤ 2 / m := by
      have := hTl.solve (Pi.single j 1)
      rw [len_single, ← hz] at this
      refine this.trans (le_of_eq ?_)
      field_simp
    have hTz : T j *ᵥ z = Pi.single j 1 := by rw [hz, hTl.mul_inv]
    have hBz : B⁻¹ *ᵥ (B *ᵥ z) = z := by rw [mulVec_mulVec, nonsing_inv_mul _ hB.unit, one_mulVec]
    have hy : len ((Bᵀ)⁻¹ *ᵥ w) ≤ 2 * √(q / m) := by
      rw [hq]
      refine solution_near hs hA hε (fun i j => ?_) hm' w
      have := h j i
      rw [transpose_apply, ← congrFun (congrFun hs i) j]
      exact this
    have e : w ⬝ᵥ z - w ⬝ᵥ B⁻¹ *ᵥ Pi.single j 1 = -(((Bᵀ)⁻¹ *ᵥ w) ⬝ᵥ (T j - B) *ᵥ z) := by
      rw [sub_mulVec, hTz, ← transpose_nonsing_inv, mulVec_transpose, ← dotProduct_mulVec, mulVec_sub, hBz, dotProduct_sub]
      ring
    rw [← hz, e, abs_neg]
    refine (form_le hκ (hT j) _ _).trans ?_
    have h1 := mul_le_mul_of_nonneg_left (mul_le_mul hy hz1 (len_nonneg _) (mul_nonneg zero_le_two (Real.sqrt_nonneg _))) hdκ
    refine h1.trans (le_of_eq ?_)
    ring
  have hsum : w ⬝ᵥ X *ᵥ w - energy B w = ∑ j, w j * (w ⬝ᵥ (T j)⁻¹ *ᵥ Pi.single j 1 - w ⬝ᵥ B⁻¹ *ᵥ Pi.single j 1) +
      ∑ i, ∑ j, w i * (X i j - (T j)⁻¹ i j) * w j := by
    have c : ∀ (M : Matrix (Fin d) (Fin d) ℝ) j, w ⬝ᵥ M *ᵥ Pi.single j 1 = ∑ i, w i * M i j := fun M j => by
      rw [mulVec_single_one]; rfl
    rw [energy, form_eq, form_eq, Finset.sum_comm (f := fun i j => w i * (X i j - (T j)⁻¹ i j) * w j), Finset.sum_comm (f := fun i j => w i * X i j * w j),
      Finset.sum_comm (f := fun i j => w i * B⁻¹ i j * w j), ← Finset.sum_sub_distrib, ← Finset.sum_add_distrib]
    refine Finset.sum_congr rfl fun j _ => ?_
    rw [c, c, ← Finset.sum_sub_distrib, ← Finset.sum_sub_distrib, Finset.mul_sum, ← Finset.sum_add_distrib]
    refine Finset.sum_congr rfl fun i _ => ?_
    ring
  have hl1 : ∑ j, |w j| ≤ d * √(β * q) := by
    refine (sum_abs_le w).trans ((mul_le_mul_of_nonneg_left hlw (Real.sqrt_nonneg _)).trans (le_of_eq ?_))
    rw [Real.sqrt_mul hd, ← mul_assoc, Real.mul_self_sqrt hd]
  have hqm : √(β * q) * √(q / m) = √(β / m) * q := by
    rw [← Real.sqrt_mul (mul_nonneg hβ hq0), show β * q * (q / m) = β / m * q ^ 2 by ring, Real.sqrt_mul (div_nonneg hβ hm0.le), Real.sqrt_sq hq0]
  have h2 : |∑ j, w j * (w ⬝ᵥ (T j)⁻¹ *ᵥ Pi.single j 1 - w ⬝ᵥ B⁻¹ *ᵥ Pi.single j 1)| ≤ 4 * (d ^ 2 * κ / m) * √(β / m) * q := by
    have hc0 : 0 ≤ 4 * (d * κ / m) * √(q / m) := by positivity
    calc _ ≤ ∑ j, |w j| * (4 * (d * κ / m) * √(q / m)) := by
          refine (Finset.abs_sum_le_sum_abs _ _).trans (Finset.sum_le_sum fun j _ => ?_)
          rw [abs_mul]
          exact mul_le_mul_of_nonneg_left (hcol j) (abs_nonneg _)
      _ = (∑ j, |w j|) * (4 * (d * κ / m) * √(q / m)) := by rw [Finset.sum_mul]
      _ ≤ (d * √(β * q)) * (4 * (d * κ / m) * √(q / m)) := mul_le_mul_of_nonneg_right hl1 hc0
      _ = 4 * (d ^ 2 * κ / m) * (√(β * q) * √(q / m)) := by ring
      _ = _ := by rw [hqm]; ring
  have h3 : |∑ i, ∑ j, w i * (X i j - (T j)⁻¹ i j) * w j| ≤ f * (d ^ 2 * β) * q := by
    have e : ∑ i, ∑ j, w i * (X i j - (T j)⁻¹ i j) * w j = w ⬝ᵥ (Matrix.of fun i j => X i j - (T j)⁻¹ i j) *ᵥ w := by rw [form_eq]; rfl
    rw [e]
    refine (form_le hf (fun i j => hX i j) w w).trans ?_
    rw [len_mul_self]
    refine (mul_le_mul_of_nonneg_left hw (mul_nonneg hd hf)).trans (le_of_eq ?_)
    ring
  have h4 := energy_near hs hA hε h hm' w
  have h5 := abs_add_le (w ⬝ᵥ X *ᵥ w - energy B w) (energy B w - energy A w)
  rw [sub_add_sub_cancel, hsum] at h5
  have h6 := abs_add_le (∑ j, w j * (w ⬝ᵥ (T j)⁻¹ *ᵥ Pi.single j 1 - w ⬝ᵥ B⁻¹ *ᵥ Pi.single j 1)) (∑ i, ∑ j, w i * (X i j - (T j)⁻¹ i j) * w j)
  rw [← hq] at h4 h5 ⊢
  linarith

/-- The energy of a perturbed vector. -/
theorem energy_shift {ω : ℝ} (w v : Fin d → ℝ) (h : ∀ i, |v i - w i| ≤ ω) :
    |energy A v - energy A w| ≤ √(d * ω ^ 2 / m) * (1 + energy A w) + d * ω ^ 2 / m := by
  have hm0 := hA.1
  have hd : (0 : ℝ) ≤ d := Nat.cast_nonneg d
  have hq0 := energy_nonneg hA w
  obtain ⟨x, hx⟩ : ∃ x, x = v - w := ⟨_, rfl⟩
  have hv : v = w + x := by rw [hx]; abel
  have hi := inv_symm hs
  have e : energy A v - energy A w = 2 * (w ⬝ᵥ A⁻¹ *ᵥ x) + energy A x := by
    rw [hv, energy, energy, energy, mulVec_add, add_dotProduct, dotProduct_add, dotProduct_add, form_symm hi x w]
    ring
  have hxx : x ⬝ᵥ x ≤ d * ω ^ 2 := by
    refine (Finset.sum_le_sum fun i _ => ?_ : _ ≤ ∑ _i : Fin d, ω ^ 2).trans (by simp)
    rw [← sq, ← sq_abs, hx, Pi.sub_apply]
    exact pow_le_pow_left₀ (abs_nonneg _) (h i) 2
  have h1 : energy A x ≤ d * ω ^ 2 / m := by
    have h2 := solution_le hA x
    have h3 := hA.solve x
    have h4 := (le_abs_self _).trans (cauchy x (A⁻¹ *ᵥ x))
    have h5 := mul_le_mul_of_nonneg_left h3 (len_nonneg x)
    rw [mul_div_assoc', len_mul_self] at h5
    exact (h4.trans h5).trans (div_le_div_of_nonneg_right hxx hm0.le)
  have hx0 := energy_nonneg hA x
  have h2 := cauchy_form hi (fun y => energy_nonneg hA y) w x
  obtain ⟨s, hs'⟩ : ∃ s, s = √(d * ω ^ 2 / m) := ⟨_, rfl⟩
  have hs0 : 0 ≤ s := hs' ▸ Real.sqrt_nonneg _
  have hss : s ^ 2 = d * ω ^ 2 / m := by rw [hs']; exact Real.sq_sqrt (by positivity)
  have h3 : |w ⬝ᵥ A⁻¹ *ᵥ x| ≤ √(energy A w) * s := by
    have : (w ⬝ᵥ A⁻¹ *ᵥ x) ^ 2 ≤ energy A w * s ^ 2 := h2.trans (mul_le_mul_of_nonneg_left (by rw [hss]; exact h1) hq0)
    have := Real.abs_le_sqrt this
    rwa [Real.sqrt_mul hq0, Real.sqrt_sq hs0] at this
  have h4 : 2 * √(energy A w) ≤ 1 + energy A w := by
    have := Real.sq_sqrt hq0
    nlinarith [sq_nonneg (√(energy A w) - 1)]
  have h5 := mul_le_mul_of_nonneg_right h4 hs0
  rw [e, ← hs']
  have h6 := abs_add_le (2 * (w ⬝ᵥ A⁻¹ *ᵥ x)) (energy A x)
  rw [abs_mul, abs_of_nonneg hx0, abs_two] at h6
  linarith

end

end Verif.Perturb
