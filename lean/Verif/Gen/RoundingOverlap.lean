import Verif.Gen.OverlapReal
import Verif.Gen.RoundingCov
import Verif.Gen.RoundingPS

/-! # The error of one overlap of rCIP -/

namespace Verif.Gen
open Perturb Matrix

/-- The real matrix of an array. -/
def mat {F : Type} [Arith F] (val : F → ℝ) (d : ℕ) (A : Arr2 F) : Matrix (Fin d) (Fin d) ℝ := Matrix.of fun i j => val (Rounding.ent A i j)

/-- The libraries behind one overlap.  `np.linalg.det` and `np.linalg.inv` are numerically stable: for a matrix with entries up to `β`,
not close to a singular one, they return nearly the right answer (up to `κ`) to nearly the right question (a matrix within `κ * β`);
`np.linalg.inv` may do so for each column separately. -/
structure StandardLinalg (F : Type) [Arith F] (val : F → ℝ) (fin : F → Prop) (u η Ω κ : ℝ) (d : ℕ) : Prop where
  negHalf : fin (Arith.negHalf : F) ∧ val (Arith.negHalf : F) = -(1 / 2)
  normConst : (2 * Real.pi) ^ d ≤ Ω → ∃ k : F, Arith.normConst d = .ok k ∧ fin k ∧
    |val k - 1 / √((2 * Real.pi) ^ d)| ≤ κ * (1 / √((2 * Real.pi) ^ d))
  vm : ∀ (x b : List F) (B : Arr2 F) (j : ℕ), x.length = d → (∀ r ∈ B.rows, j < r.length) → (B.rows.map fun r => r.getD j 0) = b →
    b.length = d → (∀ a ∈ x, fin a) → (∀ a ∈ b, fin a) → ∑ i ∈ Finset.range d, |val (x.getD i 0) * val (b.getD i 0)| ≤ Ω / 2 →
    fin (Arith.vm x B j) ∧ |val (Arith.vm x B j) - ∑ i ∈ Finset.range d, val (x.getD i 0) * val (b.getD i 0)| ≤
      2 * (d * u) * ∑ i ∈ Finset.range d, |val (x.getD i 0) * val (b.getD i 0)| + 2 * (d * η)
  det : ∀ (A : Arr2 F) (β : ℝ), Sq d A → (∀ i < d, ∀ j < d, fin (Rounding.ent A i j) ∧ |val (Rounding.ent A i j)| ≤ β) →
    (2 * (d * β)) ^ d ≤ Ω → (∀ T, Near (κ * β) (mat val d A) T → (10 : ℝ) ^ (-12 : ℤ) ≤ |T.det|) →
    ∃ D, Arith.det A = .ok D ∧ fin D ∧ ∃ T, Near (κ * β) (mat val d A) T ∧ |val D - T.det| ≤ κ * |T.det|
  inv : ∀ (A : Arr2 F) (β c : ℝ), Sq d A → (∀ i < d, ∀ j < d, fin (Rounding.ent A i j) ∧ |val (Rounding.ent A i j)| ≤ β) →
    (2 * (d * β)) ^ d ≤ Ω → 1 ≤ c → 2 * c ≤ Ω → (∀ T, Near (κ * β) (mat val d A) T → T.det ≠ 0 ∧ ∀ i j, |T⁻¹ i j| ≤ c) →
    ∃ X, Arith.inv A = .ok X ∧ Sq d X ∧ ∀ j : Fin d, ∃ T, Near (κ * β) (mat val d A) T ∧
      ∀ i : Fin d, fin (Rounding.ent X i j) ∧ |val (Rounding.ent X i j) - T⁻¹ i j| ≤ κ * c

/-- The sizes involved, and the relative error `θ`. -/
structure Tolerance (u η Ω γ κ m β ε ω V θ : ℝ) (d : ℕ) : Prop where
  d1 : 1 ≤ d
  u0 : 0 ≤ u
  uγ : u ≤ γ
  du : d * u ≤ γ
  γθ : γ ≤ θ
  κ0 : 0 ≤ κ
  κθ : κ ≤ θ
  θ1 : 128 * θ ≤ 1
  η0 : 0 ≤ η
  m0 : 0 < m
  m2 : m ≤ 2
  md : 2 * (10 : ℝ) ^ (-12 : ℤ) ≤ m ^ d
  β0 : 0 ≤ β
  ε0 : 0 ≤ ε
  V0 : 0 ≤ V
  det : d ^ 3 * (ε + κ * β) ≤ θ * m
  inv : d ^ 2 * (κ * β) * √(β / m) ≤ θ * m
  dot : d ^ 2 * (γ * β) ≤ θ * m
  shift : d * ω ^ 2 ≤ θ ^ 2 * m
  tiny : η * (12 * d * (d * V) / m + 2 * d) ≤ θ
  peak : η * (√((2 * Real.pi) ^ d) * √((d * β) ^ d)) ≤ θ
  range1 : (2 * (d * β)) ^ d ≤ Ω
  range2 : (2 * Real.pi) ^ d ≤ Ω
  range3 : (10 : ℝ) ^ 8 ≤ Ω
  range4 : 32 * (d * V + 1) ^ 2 / m ≤ Ω

namespace Rounding

variable {F : Type} [Arith F] {val : F → ℝ} {fin : F → Prop} {u η Ω γ κ m β ε ω V θ : ℝ} {N d : ℕ}

/-- The arithmetic of the exponent: `W` is the sum of the absolute values of the differences. -/
theorem exponent_real {W c D : ℝ} (hη : 0 ≤ η) (hγ : 0 ≤ γ) (hγ1 : 128 * γ ≤ 1) (hu : u ≤ γ) (hu0 : 0 ≤ u) (hW : 0 ≤ W) (hc : 1 ≤ c) (hD : 0 ≤ D) {P1 : ℝ}
    (hP1 : P1 = 2 * γ * (2 * c * (W + D * η)) + 2 * D * η + 2 * c * (u * W / 2 + D * η)) :
    P1 ≤ 5 * γ * c * W + 5 * c * D * η ∧ 0 ≤ P1 ∧ W * P1 + γ * (W * (c * W + P1)) ≤ 7 * γ * c * W ^ 2 + 6 * c * D * W * η := by
  have hDη := mul_nonneg hD hη
  have hcW := mul_nonneg (zero_le_one.trans hc) hW
  have hcD := mul_nonneg (zero_le_one.trans hc) hDη
  have h1 : P1 ≤ 5 * γ * c * W + 5 * c * D * η := by
    have a1 := mul_le_mul_of_nonneg_right hc hDη
    have a2 := mul_le_mul_of_nonneg_right hu hcW
    have a3 := mul_le_mul_of_nonneg_right hγ1 hcD
    rw [hP1]
    nlinarith
  have h0 : 0 ≤ P1 := by rw [hP1]; positivity
  refine ⟨h1, h0, ?_⟩
  have a1 := mul_le_mul_of_nonneg_left h1 hW
  have a2 := mul_le_mul_of_nonneg_left a1 hγ
  have hcWW : 0 ≤ γ * (c * W ^ 2) := by positivity
  have hcDW : 0 ≤ c * D * W * η := by positivity
  have a3 := mul_le_mul_of_nonneg_right hγ1 hcWW
  have a4 := mul_le_mul_of_nonneg_right hγ1 hcDW
  nlinarith

theorem sum_half (s : Finset ℕ) (f : ℕ → ℝ) (a : ℝ) : (∑ i ∈ s, f i) / a = ∑ i ∈ s, f i / a := by
  simp only [div_eq_mul_inv, Finset.sum_mul]

theorem getD_range_map {f : ℕ → F} {j : ℕ} (hj : j < d) : ((List.range d).map f).getD j 0 = f j := by
  simp [List.getD_eq_getElem?_getD, hj]

theorem col_getD {X : Arr2 F} {i j : ℕ} (hX : Sq d X) (hi : i < d) : (X.rows.map fun r => r.getD j 0).getD i 0 = ent X i j := by
  have hi' : i < X.rows.length := by rw [hX.2.1]; exact hi
  simp [List.getD_eq_getElem?_getD, ent, hi']

/-- The exponent, computed with a given array `X` in place of the inverse. -/
theorem exponent_near (h : StandardDot F val fin u η Ω N γ d) (G : StandardLinalg F val fin u η Ω κ d) {X : Arr2 F} (hX : Sq d X) {c : ℝ} (hc : 1 ≤ c)
    (hXc : ∀ i < d, ∀ j < d, fin (ent X i j) ∧ |val (ent X i j)| ≤ 2 * c) {dv : List F} (hl : dv.length = d) (hf : ∀ a ∈ dv, fin a)
    (hu0 : 0 ≤ u) (hu : u ≤ γ) (hdu : d * u ≤ γ) (hγ1 : 128 * γ ≤ 1) (hη : 0 ≤ η) {V : ℝ} (hη1 : d * η ≤ 1) (hV0 : 0 ≤ V)
    (hV : ∀ i < d, |val (dv.getD i 0)| ≤ V) (hΩ : 16 * c * (d * V + 1) ^ 2 ≤ Ω) {w : Fin d → ℝ} (hw : ∀ i : Fin d, w i = val (dv.getD i 0)) :
    fin (Arith.dot ((List.range d).map fun j => Arith.vm (dv.map (Arith.negHalf * ·)) X j) dv) ∧
    |val (Arith.dot ((List.range d).map fun j => Arith.vm (dv.map (Arith.negHalf * ·)) X j) dv) + w ⬝ᵥ (mat val d X).mulVec w / 2| ≤
      7 * γ * c * (∑ i, |w i|) ^ 2 + (6 * c * d * (d * V) + 2 * d) * η := by
  have hd : (0 : ℝ) ≤ d := Nat.cast_nonneg d
  have hγ : 0 ≤ γ := hu0.trans hu
  have hc0 : 0 ≤ c := by linarith
  -- the numbers
  obtain ⟨v, hv⟩ : ∃ v : ℕ → ℝ, v = fun i => val (dv.getD i 0) := ⟨_, rfl⟩
  obtain ⟨x, hx⟩ : ∃ x : ℕ → ℕ → ℝ, x = fun i j => val (ent X i j) := ⟨_, rfl⟩
  obtain ⟨hs, hhs⟩ : ∃ hs : List F, hs = dv.map (Arith.negHalf * ·) := ⟨_, rfl⟩
  obtain ⟨t, ht⟩ : ∃ t : ℕ → ℝ, t = fun i => val (hs.getD i 0) := ⟨_, rfl⟩
  obtain ⟨W, hW⟩ : ∃ W, W = ∑ i ∈ Finset.range d, |v i| := ⟨_, rfl⟩
  have hW0 : 0 ≤ W := hW ▸ Finset.sum_nonneg fun _ _ => abs_nonneg _
  have hWV : W ≤ d * V := by
    rw [hW]
    refine (Finset.sum_le_sum fun i hi => (?_ : |v i| ≤ V)).trans (by simp)
    rw [hv]; exact hV i (Finset.mem_range.mp hi)
  have hWw : ∑ i, |w i| = W := by
    rw [hW, Finset.sum_range]
    exact Finset.sum_congr rfl fun i _ => by rw [hw i, hv]
  have hform : w ⬝ᵥ (mat val d X).mulVec w = ∑ i ∈ Finset.range d, ∑ j ∈ Finset.range d, v i * x i j * v j := by
    rw [form_eq, Finset.sum_range]
    refine Finset.sum_congr rfl fun i _ => ?_
    rw [Finset.sum_range]
    exact Finset.sum_congr rfl fun j _ => by rw [hw i, hw j, hv, hx]; rfl
  have hdη := mul_nonneg hd hη
  have hΩ1 : 16 * c * (d * V + 1) ≤ Ω := by
    refine le_trans ?_ hΩ
    have : 1 ≤ d * V + 1 := by have := mul_nonneg hd hV0; linarith
    have := mul_le_mul_of_nonneg_left this (show 0 ≤ 16 * c * (d * V + 1) by positivity)
    nlinarith
  have hxc : ∀ i < d, ∀ j < d, |x i j| ≤ 2 * c := fun i hi j hj => by rw [hx]; exact (hXc i hi j hj).2
  -- the halved differences
  have hlen : hs.length = d := by rw [hhs, List.length_map, hl]
  have hhalf : ∀ i < d, fin (hs.getD i 0) ∧ |t i + v i / 2| ≤ u * |v i| / 2 + η := by
    intro i hi
    have hi' : i < dv.length := by rw [hl]; exact hi
    have e : hs.getD i 0 = Arith.negHalf * dv.getD i 0 := by rw [hhs]; simp [List.getD_eq_getElem?_getD, hi']
    obtain ⟨n1, n2⟩ := G.negHalf
    have hb : |val (Arith.negHalf : F) * val (dv.getD i 0)| = |v i| / 2 := by
      rw [n2, abs_mul, abs_neg, abs_of_pos (by norm_num : (0 : ℝ) < 1 / 2), hv]; ring
    have hvi : |v i| ≤ V := by rw [hv]; exact hV i hi
    obtain ⟨f, r⟩ := h.mul Arith.negHalf (dv.getD i 0) n1 (hf _ (getD_mem hi')) (by
      rw [hb]
      have : 1 ≤ (d : ℝ) := by exact_mod_cast (by omega : 1 ≤ d)
      have := mul_le_mul_of_nonneg_right this hV0
      have := mul_le_mul_of_nonneg_right hc (show 0 ≤ d * V + 1 by linarith)
      linarith)
    rw [hb, n2] at r
    rw [e, ht]
    refine ⟨f, ?_⟩
    show |val (hs.getD i 0) + v i / 2| ≤ _
    rw [e]
    rw [hv] at r ⊢
    have e2 : val (Arith.negHalf * dv.getD i 0) + val (dv.getD i 0) / 2 =
        val (Arith.negHalf * dv.getD i 0) - -(1 / 2) * val (dv.getD i 0) := by ring
    show |val (Arith.negHalf * dv.getD i 0) + val (dv.getD i 0) / 2| ≤ _
    rw [e2]
    refine r.trans (le_of_eq ?_)
    ring
  have hu1 : u ≤ 1 := by linarith
  have htv : ∀ i < d, |t i| ≤ |v i| + η := by
    intro i hi
    have a1 := abs_add_le (t i + v i / 2) (-(v i / 2))
    rw [add_neg_cancel_right, abs_neg, abs_div, abs_two] at a1
    have a2 := mul_le_mul_of_nonneg_right hu1 (abs_nonneg (v i))
    linarith [(hhalf i hi).2]
  -- the products with the array
  obtain ⟨P1, hP1⟩ : ∃ P1, P1 = 2 * γ * (2 * c * (W + d * η)) + 2 * d * η + 2 * c * (u * W / 2 + d * η) := ⟨_, rfl⟩
  obtain ⟨r1, r0, r2⟩ := exponent_real (D := (d : ℝ)) hη hγ hγ1 hu hu0 hW0 hc hd hP1
  have hvm : ∀ j < d, fin (Arith.vm hs X j) ∧
      |val (Arith.vm hs X j) + (∑ i ∈ Finset.range d, v i * x i j) / 2| ≤ P1 := by
    intro j hj
    have hcol : (X.rows.map fun r => r.getD j 0).length = d := by rw [List.length_map, hX.2.1]
    have hget : ∀ i ∈ Finset.range d, val ((X.rows.map fun r => r.getD j 0).getD i 0) = x i j := fun i hi => by
      rw [col_getD hX (Finset.mem_range.mp hi), hx]
    have m1 : ∑ i ∈ Finset.range d, |val (hs.getD i 0) * val ((X.rows.map fun r => r.getD j 0).getD i 0)| ≤ 2 * c * (W + d * η) := by
      have : 2 * c * (W + d * η) = ∑ i ∈ Finset.range d, (|v i| + η) * (2 * c) := by
        rw [← Finset.sum_mul, Finset.sum_add_distrib, ← hW, Finset.sum_const, Finset.card_range, nsmul_eq_mul]; ring
      rw [this]
      refine Finset.sum_le_sum fun i hi => ?_
      rw [hget i hi, abs_mul]
      refine mul_le_mul ?_ (hxc i (Finset.mem_range.mp hi) j hj) (abs_nonneg _) (by have := abs_nonneg (v i); linarith)
      have := htv i (Finset.mem_range.mp hi)
      rwa [ht] at this
    have m2 : 2 * c * (W + d * η) ≤ Ω / 2 := by
      have := mul_le_mul_of_nonneg_left (show W + d * η ≤ d * V + 1 by linarith) (show 0 ≤ 2 * c by linarith)
      have := mul_nonneg hc0 (show 0 ≤ d * V + 1 by linarith)
      linarith
    obtain ⟨f, e⟩ := G.vm hs _ X j hlen (fun r hr => by rw [hX.2.2 r hr]; exact hj) rfl hcol
      (by
        intro a ha
        obtain ⟨i, hi, rfl⟩ := List.mem_iff_getElem.mp ha
        have := (hhalf i (hlen ▸ hi)).1
        simpa [List.getD_eq_getElem?_getD, hi] using this)
      (by
        intro a ha
        obtain ⟨i, hi, rfl⟩ := List.mem_iff_getElem.mp ha
        have := (hXc i (hcol ▸ hi) j hj).1
        rw [← col_getD hX (hcol ▸ hi)] at this
        rw [List.getD_eq_getElem?_getD, List.getElem?_eq_getElem hi, Option.getD_some] at this
        exact this) (m1.trans m2)
    refine ⟨f, ?_⟩
    have e2 : ∑ i ∈ Finset.range d, val (hs.getD i 0) * val ((X.rows.map fun r => r.getD j 0).getD i 0) =
        ∑ i ∈ Finset.range d, t i * x i j := Finset.sum_congr rfl fun i hi => by rw [hget i hi, ht]
    rw [e2] at e
    have e3 : ∑ i ∈ Finset.range d, t i * x i j + (∑ i ∈ Finset.range d, v i * x i j) / 2 =
        ∑ i ∈ Finset.range d, (t i + v i / 2) * x i j := by
      rw [sum_half, ← Finset.sum_add_distrib]
      exact Finset.sum_congr rfl fun i _ => by ring
    have e4 : |∑ i ∈ Finset.range d, (t i + v i / 2) * x i j| ≤ 2 * c * (u * W / 2 + d * η) := by
      have : 2 * c * (u * W / 2 + d * η) = ∑ i ∈ Finset.range d, (u * |v i| / 2 + η) * (2 * c) := by
        rw [← Finset.sum_mul, Finset.sum_add_distrib, ← sum_half, ← Finset.mul_sum, ← hW, Finset.sum_const, Finset.card_range,
          nsmul_eq_mul]; ring
      rw [this]
      refine (Finset.abs_sum_le_sum_abs _ _).trans (Finset.sum_le_sum fun i hi => ?_)
      rw [abs_mul]
      have := mul_nonneg hu0 (abs_nonneg (v i))
      exact mul_le_mul (hhalf i (Finset.mem_range.mp hi)).2 (hxc i (Finset.mem_range.mp hi) j hj) (abs_nonneg _) (by linarith)
    have a1 := abs_add_le (val (Arith.vm hs X j) - ∑ i ∈ Finset.range d, t i * x i j)
      (∑ i ∈ Finset.range d, t i * x i j + (∑ i ∈ Finset.range d, v i * x i j) / 2)
    rw [← add_assoc, sub_add_cancel] at a1
    rw [e3] at a1
    have a2 : 2 * (d * u) * ∑ i ∈ Finset.range d, |val (hs.getD i 0) * val ((X.rows.map fun r => r.getD j 0).getD i 0)| ≤
        2 * γ * (2 * c * (W + d * η)) := mul_le_mul (by linarith) m1 (Finset.sum_nonneg fun _ _ => abs_nonneg _) (by linarith)
    rw [hP1]
    linarith
  -- the last product
  have hpl : ((List.range d).map fun j => Arith.vm hs X j).length = d := by simp
  have hpj : ∀ j ∈ Finset.range d, val (((List.range d).map fun j => Arith.vm hs X j).getD j 0) = val (Arith.vm hs X j) := fun j hj => by
    rw [getD_range_map (Finset.mem_range.mp hj)]
  have hsumx : ∀ j < d, |(∑ i ∈ Finset.range d, v i * x i j) / 2| ≤ c * W := by
    intro j hj
    have : |∑ i ∈ Finset.range d, v i * x i j| ≤ W * (2 * c) := by
      rw [hW, Finset.sum_mul]
      refine (Finset.abs_sum_le_sum_abs _ _).trans (Finset.sum_le_sum fun i hi => ?_)
      rw [abs_mul]
      exact mul_le_mul_of_nonneg_left (hxc i (Finset.mem_range.mp hi) j hj) (abs_nonneg _)
    rw [abs_div, abs_two]
    linarith
  have hpb : ∀ j < d, |val (Arith.vm hs X j)| ≤ c * W + P1 := by
    intro j hj
    have a1 := abs_add_le (val (Arith.vm hs X j) + (∑ i ∈ Finset.range d, v i * x i j) / 2) (-((∑ i ∈ Finset.range d, v i * x i j) / 2))
    rw [add_neg_cancel_right, abs_neg] at a1
    linarith [(hvm j hj).2, hsumx j hj]
  have m1 : ∑ j ∈ Finset.range d, |val (((List.range d).map fun j => Arith.vm hs X j).getD j 0) * val (dv.getD j 0)| ≤ W * (c * W + P1) := by
    rw [hW, Finset.sum_mul]
    refine Finset.sum_le_sum fun j hj => ?_
    rw [hpj j hj, abs_mul, mul_comm, ← hW]
    have : |v j| = |val (dv.getD j 0)| := by rw [hv]
    rw [this]
    exact mul_le_mul_of_nonneg_left (hpb j (Finset.mem_range.mp hj)) (abs_nonneg _)
  have m2 : W * (c * W + P1) ≤ Ω / 2 := by
    have b1 : P1 ≤ c * W + 5 * c := by
      have := mul_le_mul_of_nonneg_right hγ1 (mul_nonneg hc0 hW0)
      have := mul_nonneg hγ (mul_nonneg hc0 hW0)
      have := mul_le_mul_of_nonneg_left hη1 (show 0 ≤ 5 * c by linarith)
      linarith
    have b2 := mul_le_mul_of_nonneg_left b1 hW0
    have b3 : (W + 1) ^ 2 ≤ (d * V + 1) ^ 2 := pow_le_pow_left₀ (by linarith) (by linarith) 2
    have b4 := mul_le_mul_of_nonneg_left b3 (show 0 ≤ 8 * c by linarith)
    have b5 := mul_nonneg hc0 hW0
    have b6 := mul_nonneg b5 hW0
    nlinarith
  obtain ⟨f, e⟩ := h.dot _ dv hpl hl (by
    intro a ha
    obtain ⟨j, hj, rfl⟩ := List.mem_map.mp ha
    exact (hvm j (List.mem_range.mp hj)).1) hf (m1.trans m2)
  rw [← hhs]
  refine ⟨f, ?_⟩
  have e2 : ∑ j ∈ Finset.range d, val (((List.range d).map fun j => Arith.vm hs X j).getD j 0) * val (dv.getD j 0) =
      ∑ j ∈ Finset.range d, val (Arith.vm hs X j) * v j := Finset.sum_congr rfl fun j hj => by rw [hpj j hj, hv]
  rw [e2] at e
  have e3 : ∑ j ∈ Finset.range d, val (Arith.vm hs X j) * v j + w ⬝ᵥ (mat val d X).mulVec w / 2 =
      ∑ j ∈ Finset.range d, (val (Arith.vm hs X j) + (∑ i ∈ Finset.range d, v i * x i j) / 2) * v j := by
    rw [hform, Finset.sum_comm, sum_half, ← Finset.sum_add_distrib]
    refine Finset.sum_congr rfl fun j _ => ?_
    rw [add_mul, div_mul_eq_mul_div, Finset.sum_mul]
  have e4 : |∑ j ∈ Finset.range d, (val (Arith.vm hs X j) + (∑ i ∈ Finset.range d, v i * x i j) / 2) * v j| ≤ W * P1 := by
    rw [hW, Finset.sum_mul]
    refine (Finset.abs_sum_le_sum_abs _ _).trans (Finset.sum_le_sum fun j hj => ?_)
    rw [abs_mul, mul_comm]
    exact mul_le_mul_of_nonneg_left (hvm j (Finset.mem_range.mp hj)).2 (abs_nonneg _)
  have a1 := abs_add_le (val (Arith.dot ((List.range d).map fun j => Arith.vm hs X j) dv) - ∑ j ∈ Finset.range d, val (Arith.vm hs X j) * v j)
    (∑ j ∈ Finset.range d, val (Arith.vm hs X j) * v j + w ⬝ᵥ (mat val d X).mulVec w / 2)
  rw [← add_assoc, sub_add_cancel, e3] at a1
  have a2 := mul_le_mul_of_nonneg_left m1 hγ
  rw [hWw]
  have a3 := mul_le_mul_of_nonneg_left hWV (show 0 ≤ 6 * c * d * η by positivity)
  linarith

/-- Perturbed matrices within the tolerance. -/
theorem _root_.Verif.Gen.Tolerance.perturbed (P : Tolerance u η Ω γ κ m β ε ω V θ d) {R A T : Matrix (Fin d) (Fin d) ℝ} (hR : Low m R)
    (hdet : m ^ d ≤ R.det) (hA : Perturb.Near ε R A) (hT : Perturb.Near (κ * β) A T) :
    |T.det - R.det| ≤ 2 * θ * R.det ∧ (10 : ℝ) ^ (-12 : ℤ) ≤ |T.det| ∧ T.det ≠ 0 ∧ ∀ i j, |T⁻¹ i j| ≤ 2 / m := by
  have hm := P.m0
  have hκβ := mul_nonneg P.κ0 P.β0
  have hε := add_nonneg P.ε0 hκβ
  have hθ0 : 0 ≤ θ := P.κ0.trans P.κθ
  have hd1 : (1 : ℝ) ≤ d := by exact_mod_cast P.d1
  have hd3 : (d : ℝ) ≤ d ^ 3 := by
    have := pow_le_pow_right₀ hd1 (show 1 ≤ 3 by norm_num)
    rwa [pow_one] at this
  have hN := hA.trans hT
  have h1 := mul_le_mul_of_nonneg_right P.θ1 hm.le
  have h2 := P.det
  have h3 := mul_le_mul_of_nonneg_right hd3 hε
  have hx : 0 < R.det := lt_of_lt_of_le (pow_pos hm d) hdet
  have h4 := hN.det hε hR (by linarith)
  rw [abs_of_pos hx] at h4
  have h5 : d ^ 3 * (ε + κ * β) / m ≤ θ := by rwa [div_le_iff₀ hm]
  have h6 := mul_le_mul_of_nonneg_right (mul_le_mul_of_nonneg_left h5 zero_le_two) hx.le
  have h7 := h4.trans h6
  have h8 := mul_le_mul_of_nonneg_right P.θ1 hx.le
  have hlow := hN.low hε hR (by linarith)
  refine ⟨h7, ?_, hlow.det_ne, fun i j => ?_⟩
  · have h9 := P.md
    have := (abs_le.mp h7).1
    have := le_abs_self T.det
    generalize (10 : ℝ) ^ (-12 : ℤ) = z at *
    linarith
  · refine (hlow.inv_entry i j).trans (le_of_eq ?_)
    field_simp

/-- `np.linalg.det` and `np.linalg.inv` do not raise. -/
theorem linalg_ok (G : StandardLinalg F val fin u η Ω κ d) (P : Tolerance u η Ω γ κ m β ε ω V θ d) {R : Matrix (Fin d) (Fin d) ℝ} (hR : Low m R)
    (hdet : m ^ d ≤ R.det) {A : Arr2 F} (hA : Sq d A) (hAf : ∀ i < d, ∀ j < d, fin (ent A i j) ∧ |val (ent A i j)| ≤ β)
    (hN : Perturb.Near ε R (mat val d A)) :
    (∃ D, Arith.det A = .ok D ∧ fin D ∧ |val D - R.det| ≤ 4 * θ * R.det) ∧
    ∃ X, Arith.inv A = .ok X ∧ Sq d X ∧ ∃ T : Fin d → Matrix (Fin d) (Fin d) ℝ, (∀ j, Perturb.Near (κ * β) (mat val d A) (T j)) ∧
      ∀ i j : Fin d, fin (ent X i j) ∧ |val (ent X i j) - (T j)⁻¹ i j| ≤ κ * (2 / m) ∧ |val (ent X i j)| ≤ 2 * (2 / m) := by
  have hm := P.m0
  have hθ0 : 0 ≤ θ := P.κ0.trans P.κθ
  have hx : 0 < R.det := lt_of_lt_of_le (pow_pos hm d) hdet
  have hp := fun T hT => P.perturbed hR hdet hN (T := T) hT
  have hc1 : 1 ≤ 2 / m := by rw [le_div_iff₀ hm]; linarith [P.m2]
  constructor
  · obtain ⟨D, h1, h2, T, h3, h4⟩ := G.det A β hA hAf P.range1 fun T hT => (hp T hT).2.1
    refine ⟨D, h1, h2, ?_⟩
    have h5 := (hp T h3).1
    have h6 : |T.det| ≤ (1 + 2 * θ) * R.det := by
      have := abs_add_le (T.det - R.det) R.det
      rw [sub_add_cancel, abs_of_pos hx] at this
      linarith
    have h7 : κ * |T.det| ≤ θ * ((1 + 2 * θ) * R.det) := mul_le_mul P.κθ h6 (abs_nonneg _) hθ0
    have h8 := abs_add_le (val D - T.det) (T.det - R.det)
    rw [sub_add_sub_cancel] at h8
    have h10 := mul_nonneg hθ0 hx.le
    have h9 := mul_le_mul_of_nonneg_left P.θ1 h10
    linarith
  · have hΩ : 2 * (2 / m) ≤ Ω := by
      refine le_trans ?_ P.range4
      rw [mul_div_assoc', div_le_div_iff_of_pos_right hm]
      have := mul_nonneg (Nat.cast_nonneg d) P.V0
      nlinarith
    obtain ⟨X, h1, h2, h3⟩ := G.inv A β (2 / m) hA hAf P.range1 hc1 hΩ fun T hT => (hp T hT).2.2
    choose T hT using h3
    refine ⟨X, h1, h2, T, fun j => (hT j).1, fun i j => ⟨((hT j).2 i).1, ((hT j).2 i).2, ?_⟩⟩
    have h4 := (hp _ (hT j).1).2.2.2 i j
    have h5 := abs_add_le (val (ent X i j) - (T j)⁻¹ i j) ((T j)⁻¹ i j)
    rw [sub_add_cancel] at h5
    have h6 := mul_le_mul_of_nonneg_right (show κ ≤ 1 by linarith [P.κθ, P.θ1]) (zero_le_one.trans hc1)
    linarith [((hT j).2 i).2]

theorem gauss_eq (R : Matrix (Fin d) (Fin d) ℝ) (w : Fin d → ℝ) :
    Spec.gauss R w = 1 / √((2 * Real.pi) ^ d) * (1 / √R.det) * Real.exp (-(energy R w / 2)) := by
  rw [Spec.gauss, energy, form_eq]
  congr 2
  ring

theorem gauss_zero (R : Matrix (Fin d) (Fin d) ℝ) : Spec.gauss R 0 = 1 / √((2 * Real.pi) ^ d) * (1 / √R.det) := by
  rw [gauss_eq, energy, zero_dotProduct]
  simp

/-- The overlap of two clusters whose summed covariance `A` is close to `R` and whose centroids differ by about `w`. -/
theorem overlap_near (h : StandardFull F val fin u η Ω N γ d) (h1 : fin (Arith.one : F) ∧ val (Arith.one : F) = 1)
    (hexp : ∀ a : F, fin a → val a ≤ 1 → fin (Arith.exp a) ∧ |val (Arith.exp a) - Real.exp (val a)| ≤ κ)
    (G : StandardLinalg F val fin u η Ω κ d) (P : Tolerance u η Ω γ κ m β ε ω V θ d) {R : Matrix (Fin d) (Fin d) ℝ} (hs : Rᵀ = R)
    (hR : Low m R) (hdet : m ^ d ≤ R.det) (hRβ : ∀ i j, |R i j| ≤ β) {A : Arr2 F} (hA : Sq d A)
    (hAf : ∀ i < d, ∀ j < d, fin (ent A i j) ∧ |val (ent A i j)| ≤ β) (hN : Perturb.Near ε R (mat val d A)) {dv : List F}
    (hl : dv.length = d) (hf : ∀ a ∈ dv, fin a) (hV : ∀ i < d, |val (dv.getD i 0)| ≤ V) {w : Fin d → ℝ}
    (hw : ∀ i : Fin d, |val (dv.getD i 0) - w i| ≤ ω) {k D : F} {X : Arr2 F} (hk : Arith.normConst d = .ok k)
    (hD : Arith.det A = .ok D) (hX : Arith.inv A = .ok X) :
    fin (k * (Arith.one / Arith.sqrt D) * Arith.exp (Arith.dot ((List.range d).map fun j => Arith.vm (dv.map (Arith.negHalf * ·)) X j) dv)) ∧
    |val (k * (Arith.one / Arith.sqrt D) * Arith.exp (Arith.dot ((List.range d).map fun j => Arith.vm (dv.map (Arith.negHalf * ·)) X j) dv)) -
      Spec.gauss R w| ≤ 164 * θ * Spec.gauss R 0 := by
  have hm := P.m0
  have hd1 : (1 : ℝ) ≤ d := by exact_mod_cast P.d1
  have hd0 : (0 : ℝ) ≤ d := by linarith
  have hθ0 : 0 ≤ θ := P.κ0.trans P.κθ
  have hθ1 := P.θ1
  have hγ0 : 0 ≤ γ := P.u0.trans P.uγ
  have huθ : u ≤ θ := P.uγ.trans P.γθ
  have hx : 0 < R.det := lt_of_lt_of_le (pow_pos hm d) hdet
  obtain ⟨⟨D', d1, d2, d3⟩, X', x1, x2, T, x3, x4⟩ := linalg_ok G P hR hdet hA hAf hN
  rw [hD] at d1
  injection d1 with d1
  subst d1
  rw [hX] at x1
  injection x1 with x1
  subst x1
  obtain ⟨k', k1, k2, k3⟩ := G.normConst P.range2
  rw [hk] at k1
  injection k1 with k1
  subst k1
  -- the exponent
  obtain ⟨v, hv⟩ : ∃ v : Fin d → ℝ, v = fun i : Fin d => val (dv.getD i 0) := ⟨_, rfl⟩
  obtain ⟨q1, hq1⟩ : ∃ q1, q1 = energy R v := ⟨_, rfl⟩
  obtain ⟨q, hq⟩ : ∃ q, q = energy R w := ⟨_, rfl⟩
  have hq10 : 0 ≤ q1 := hq1 ▸ energy_nonneg hR v
  have hq0 : 0 ≤ q := hq ▸ energy_nonneg hR w
  have hκβ := mul_nonneg P.κ0 P.β0
  have hcond : 2 * (d * (ε + κ * β)) ≤ m ∧ d * ε / m ≤ θ ∧ d ^ 2 * (κ * β) / m ≤ θ := by
    have hε := add_nonneg P.ε0 hκβ
    have e1 : (d : ℝ) ≤ d ^ 3 := by
      have := pow_le_pow_right₀ hd1 (show 1 ≤ 3 by norm_num)
      rwa [pow_one] at this
    have e2 : (d : ℝ) ^ 2 ≤ d ^ 3 := pow_le_pow_right₀ hd1 (by norm_num)
    have e3 := mul_le_mul_of_nonneg_right e1 hε
    have e4 := mul_le_mul_of_nonneg_right e1 P.ε0
    have e5 := mul_le_mul_of_nonneg_right e2 hκβ
    have e6 := mul_le_mul_of_nonneg_right hθ1 hm.le
    have e7 : 0 ≤ d ^ 3 * ε := mul_nonneg (by positivity) P.ε0
    have e8 : 0 ≤ d ^ 3 * (κ * β) := mul_nonneg (by positivity) hκβ
    have e9 := P.det
    refine ⟨by linarith, ?_, ?_⟩
    · rw [div_le_iff₀ hm]; linarith
    · rw [div_le_iff₀ hm]; linarith
  obtain ⟨g1, g2, g3⟩ := hcond
  have hXm : |v ⬝ᵥ (mat val d X).mulVec v - q1| ≤ 8 * θ * q1 := by
    have := columns_near hs hR P.ε0 hκβ (f := κ * (2 / m)) (mul_nonneg P.κ0 (by positivity)) P.β0 hRβ hN g1 x3
      (X := mat val d X) (fun i j => (x4 i j).2.1) v
    rw [← hq1] at this
    refine this.trans (mul_le_mul_of_nonneg_right ?_ hq10)
    have e1 : d ^ 2 * (κ * β) / m * √(β / m) ≤ θ := by
      rw [div_mul_eq_mul_div, div_le_iff₀ hm]; exact P.inv
    have e2 : κ * (2 / m) * (d ^ 2 * β) = 2 * (d ^ 2 * (κ * β) / m) := by ring
    rw [e2]
    linarith
  have hWq : (∑ i, |v i|) ^ 2 ≤ d * (d * β * q1) := by
    have a1 := pow_le_pow_left₀ (Finset.sum_nonneg fun i _ => abs_nonneg (v i)) (Perturb.sum_abs_le v) 2
    rw [mul_pow, Real.sq_sqrt hd0, sq (len v), len_mul_self] at a1
    have a2 := mul_le_mul_of_nonneg_left (len_le hs hR P.β0 hRβ v) hd0
    rw [← hq1] at a2
    exact a1.trans a2
  have hc1 : 1 ≤ 2 / m := by rw [le_div_iff₀ hm]; linarith [P.m2]
  have hdη : d * η ≤ 1 := by
    have a1 := P.tiny
    have a2 : 0 ≤ η * (12 * d * (d * V) / m) :=
      mul_nonneg P.η0 (div_nonneg (mul_nonneg (by linarith) (mul_nonneg hd0 P.V0)) hm.le)
    linarith
  obtain ⟨a, ha⟩ : ∃ a, a = Arith.dot ((List.range d).map fun j => Arith.vm (dv.map (Arith.negHalf * ·)) X j) dv := ⟨_, rfl⟩
  obtain ⟨fa, ea⟩ := exponent_near h.toStandardDot G x2 hc1 (fun i hi j hj => ⟨(x4 ⟨i, hi⟩ ⟨j, hj⟩).1, (x4 ⟨i, hi⟩ ⟨j, hj⟩).2.2⟩) hl hf P.u0 P.uγ
    P.du (by linarith [P.γθ]) P.η0 hdη P.V0 hV (by
      refine le_of_eq_of_le ?_ P.range4
      ring) (w := v) (fun i => by rw [hv])
  rw [← ha] at fa ea ⊢
  have hexpo : |val a + q / 2| ≤ 21 * θ * (1 + q) := by
    have a1 : 7 * γ * (2 / m) * (∑ i, |v i|) ^ 2 ≤ 14 * θ * q1 := by
      have b1 := mul_le_mul_of_nonneg_left hWq (show 0 ≤ 7 * γ * (2 / m) by positivity)
      have b2 : d ^ 2 * (γ * β) / m ≤ θ := by rw [div_le_iff₀ hm]; exact P.dot
      have b3 := mul_le_mul_of_nonneg_right b2 hq10
      have b4 : 7 * γ * (2 / m) * (d * (d * β * q1)) = 14 * (d ^ 2 * (γ * β) / m * q1) := by ring
      rw [b4] at b1
      linarith
    have a2 : (6 * (2 / m) * d * (d * V) + 2 * d) * η ≤ θ := by
      refine le_of_eq_of_le ?_ P.tiny
      ring
    have a3 : |val a + q1 / 2| ≤ 18 * θ * q1 + θ := by
      have b1 := abs_add_le (val a + v ⬝ᵥ (mat val d X).mulVec v / 2) ((q1 - v ⬝ᵥ (mat val d X).mulVec v) / 2)
      rw [show val a + v ⬝ᵥ (mat val d X).mulVec v / 2 + (q1 - v ⬝ᵥ (mat val d X).mulVec v) / 2 = val a + q1 / 2 by ring, abs_div, abs_two,
        abs_sub_comm q1] at b1
      linarith
    have a4 := energy_shift hs hR w v (fun i => by rw [hv]; exact hw i)
    rw [← hq1, ← hq] at a4
    have a5 : d * ω ^ 2 / m ≤ θ ^ 2 := by rw [div_le_iff₀ hm]; exact P.shift
    have a6 : √(d * ω ^ 2 / m) ≤ θ := by
      rw [← Real.sqrt_sq hθ0]
      exact Real.sqrt_le_sqrt a5
    have a7 : |q1 - q| ≤ 2 * θ * (1 + q) := by
      have b1 := mul_le_mul_of_nonneg_right a6 (show 0 ≤ 1 + q by linarith)
      have b2 := mul_le_mul_of_nonneg_left (show θ ≤ 1 by linarith) hθ0
      have b3 := mul_nonneg hθ0 hq0
      linarith
    have a8 : q1 ≤ 65 / 64 * (1 + q) := by
      have := mul_le_mul_of_nonneg_right hθ1 (show 0 ≤ 1 + q by linarith)
      linarith [(abs_le.mp a7).2]
    have a9 := mul_le_mul_of_nonneg_left a8 hθ0
    have b1 := abs_add_le (val a + q1 / 2) ((q - q1) / 2)
    rw [show val a + q1 / 2 + (q - q1) / 2 = val a + q / 2 by ring, abs_div, abs_two, abs_sub_comm q] at b1
    have b3 := mul_nonneg hθ0 hq0
    linarith
  have hE := Perturb.exp_near (θ := 21 * θ) hq0 (by linarith) (by linarith) hexpo
  obtain ⟨fe, ee⟩ := hexp a fa (by
    have := (abs_le.mp hexpo).2
    have b1 := mul_le_mul_of_nonneg_right hθ1 (show 0 ≤ 1 + q by linarith)
    linarith)
  have hEE : |val (Arith.exp a) - Real.exp (-(q / 2))| ≤ 127 * θ := by
    have := abs_add_le (val (Arith.exp a) - Real.exp (val a)) (Real.exp (val a) - Real.exp (-(q / 2)))
    rw [sub_add_sub_cancel] at this
    linarith [P.κθ]
  -- the factor
  obtain ⟨K, hK⟩ : ∃ K, K = 1 / √((2 * Real.pi) ^ d) := ⟨_, rfl⟩
  have hpi : (1 : ℝ) ≤ (2 * Real.pi) ^ d := one_le_pow₀ (by linarith [Real.pi_gt_three])
  have hsp : 1 ≤ √((2 * Real.pi) ^ d) := by rw [← Real.sqrt_one]; exact Real.sqrt_le_sqrt hpi
  have hK0 : 0 < K := by rw [hK]; positivity
  have hK1 : K ≤ 1 := by rw [hK, div_le_one (by linarith)]; exact hsp
  have hS0 : 0 < √R.det := Real.sqrt_pos.mpr hx
  have hxβ : R.det ≤ (d * β) ^ d := (le_abs_self _).trans (det_le hRβ)
  have hη : η ≤ θ * (K * (1 / √R.det)) := by
    have a1 := P.peak
    have a2 : √R.det ≤ √((d * β) ^ d) := Real.sqrt_le_sqrt hxβ
    have a3 := mul_le_mul_of_nonneg_left (mul_le_mul_of_nonneg_left a2 (by linarith : 0 ≤ √((2 * Real.pi) ^ d))) P.η0
    rw [hK, one_div_mul_one_div_rev, mul_one_div, le_div_iff₀ (mul_pos hS0 (by linarith))]
    linarith
  have hη' : η ≤ θ * (1 / √R.det) := hη.trans (mul_le_mul_of_nonneg_left (mul_le_of_le_one_left (by positivity) hK1) hθ0)
  have hR6 : 1 / √R.det ≤ 10 ^ 6 := by
    have a1 : (10 : ℝ) ^ (-12 : ℤ) ≤ R.det := by
      have := P.md
      have : (0 : ℝ) ≤ (10 : ℝ) ^ (-12 : ℤ) := by positivity
      linarith
    have a2 : (1 / 10 ^ 6 : ℝ) ≤ √R.det := by
      apply Real.le_sqrt_of_sq_le
      refine le_trans (le_of_eq ?_) a1
      norm_num
    rw [div_le_iff₀ hS0]
    have := mul_le_mul_of_nonneg_left a2 (show (0 : ℝ) ≤ 10 ^ 6 by norm_num)
    linarith
  have hΩ8 := P.range3
  obtain ⟨D0, D1⟩ := sqrt_near hx.le (by linarith) d3
  have D2 : val D ≤ Ω := by
    have a1 := (abs_le.mp d3).2
    have a2 := mul_le_mul_of_nonneg_right hθ1 hx.le
    have a3 := P.range1
    rw [mul_pow] at a3
    have a4 : (2 : ℝ) ≤ 2 ^ d := by
      have := pow_le_pow_right₀ (show (1 : ℝ) ≤ 2 by norm_num) P.d1
      rwa [pow_one] at this
    have a5 := mul_le_mul_of_nonneg_right a4 (hx.le.trans hxβ)
    linarith
  obtain ⟨fs, es⟩ := h.sqrt D d2 D0 D2
  obtain ⟨-, -, p1, p2, -⟩ := peak_near (u := u) (η := η) (θ := θ) (κ := κ) (K := K) (k := K) (p := K * (1 / val (Arith.sqrt D))) hθ0 hθ1 huθ P.κθ hx hK0.le hη hη' d3 es
    (g := 1 / val (Arith.sqrt D)) (by rw [sub_self, abs_zero]; exact add_nonneg (mul_nonneg P.u0 (abs_nonneg _)) P.η0)
    (by rw [sub_self, abs_zero]; exact mul_nonneg P.κ0 hK0.le) (by rw [sub_self, abs_zero]; exact add_nonneg (mul_nonneg P.u0 (abs_nonneg _)) P.η0)
  obtain ⟨fg, eg⟩ := h.div Arith.one (Arith.sqrt D) h1.1 fs (by linarith) (by rw [h1.2]; linarith)
  rw [h1.2] at eg
  rw [← hK] at k3
  obtain ⟨-, -, -, -, p3, -⟩ := peak_near (u := u) (κ := κ) (K := K) (p := val k * val (Arith.one / Arith.sqrt D)) hθ0 hθ1 huθ P.κθ hx hK0.le hη hη' d3 es eg k3
    (by rw [sub_self, abs_zero]; exact add_nonneg (mul_nonneg P.u0 (abs_nonneg _)) P.η0)
  have hPle : K * (1 / √R.det) ≤ 10 ^ 6 := (mul_le_of_le_one_left (by positivity) hK1).trans hR6
  obtain ⟨fp, ep⟩ := h.mul k (Arith.one / Arith.sqrt D) k2 fg (by linarith)
  obtain ⟨-, -, -, -, -, p4⟩ := peak_near hθ0 hθ1 huθ P.κθ hx hK0.le hη hη' d3 es eg k3 ep
  have hP0 : 0 ≤ K * (1 / √R.det) := by positivity
  have e0 := Real.exp_pos (-(q / 2))
  have e1 : Real.exp (-(q / 2)) ≤ 1 := Real.exp_le_one_iff.mpr (by linarith)
  obtain ⟨p5, -⟩ := overlap_real (u := u) (η := η) (r := val (k * (Arith.one / Arith.sqrt D)) * val (Arith.exp a)) hθ0 hθ1 huθ hP0 hη p4 e0.le e1 hEE
    (by rw [sub_self, abs_zero]; exact add_nonneg (mul_nonneg P.u0 (abs_nonneg _)) P.η0)
  obtain ⟨fr, er⟩ := h.mul _ _ fp fe (by linarith)
  obtain ⟨-, p6⟩ := overlap_real hθ0 hθ1 huθ hP0 hη p4 e0.le e1 hEE er
  refine ⟨fr, ?_⟩
  rw [gauss_zero, gauss_eq, ← hq, ← hK]
  exact p6

end Rounding
end Verif.Gen
