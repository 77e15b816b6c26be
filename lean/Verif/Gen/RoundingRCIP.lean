import Verif.Gen.RoundingOverlap
import Verif.Proofs.Bounds

/-! # Error analysis of rCIP -/

namespace Verif.Gen

/-- The sum of the largest overlaps: what rCIP would be if all centroids were the same. -/
noncomputable def peaks {d : ℕ} (S : Spec.Stream d) : ℝ :=
  ∑ a ∈ Spec.labels S, ∑ b ∈ (Spec.labels S).filter (fun b => a < b), Spec.gauss (Spec.regCov S a + Spec.regCov S b) 0

namespace Rounding
open Matrix

variable {F : Type} [Arith F] {val : F → ℝ} {fin : F → Prop} {u η Ω M γ κ κ' θ ε e : ℝ} {N K d : ℕ} {S : Samples F}

/-- Accurate statistics of cluster `c`. -/
structure Good (val : F → ℝ) (fin : F → Prop) (M ε e : ℝ) (d : ℕ) (S : Samples F) (c : ℤ) (s : Gauss F) : Prop where
  v : Near val fin M ε d s.v (own S c)
  sigma : CovNear val fin d e s.sigma (own S c)
  bound : ∀ i < d, ∀ j < d, |covOf val (own S c) i j| ≤ 4 * M ^ 2

/-- What is assumed about the sizes. -/
def Small (u η Ω M γ κ κ' θ : ℝ) (N d : ℕ) : Prop :=
  Tolerance u η Ω γ κ (2 * delta d) (12 * (M ^ 2 + delta d)) (218 * (γ * N * (M ^ 2 + 2 * delta d)) + 2 * (κ' * delta d))
    (17 * (γ * N * M)) (3 * M) θ d

theorem regCov_real (S : Samples F) (c : ℤ) (i j : Fin d) :
    Spec.regCov (real val d S) c i j = covOf val (own S c) i j + if (i : ℕ) = j then delta d else 0 := by
  rw [Spec.regCov, Matrix.add_apply, cov_real_eq, Matrix.smul_apply, Matrix.one_apply]
  by_cases hij : i = j
  · rw [if_pos hij, if_pos (congrArg _ hij), smul_eq_mul, mul_one]; rfl
  · rw [if_neg hij, if_neg (fun e => hij (Fin.ext e)), smul_zero]

theorem pair_eq (S : Spec.Stream d) (a b : ℤ) :
    Spec.regCov S a + Spec.regCov S b = (Spec.cov S a + Spec.cov S b) + (2 * delta d) • (1 : Matrix (Fin d) (Fin d) ℝ) := by
  have e : ∀ c, Spec.regCov S c = Spec.cov S c + delta d • (1 : Matrix (Fin d) (Fin d) ℝ) := fun _ => rfl
  rw [e, e, two_mul, add_smul]
  abel

theorem pair_low (S : Spec.Stream d) (a b : ℤ) : Perturb.Low (2 * delta d) (Spec.regCov S a + Spec.regCov S b) := by
  have hδ := delta_pos d
  refine ⟨by linarith, fun x => ?_⟩
  rw [pair_eq, Matrix.add_mulVec, dotProduct_add, Matrix.smul_mulVec, Matrix.one_mulVec, dotProduct_smul, smul_eq_mul]
  have := ((cov_posSemidef (S := S) (c := a)).add (cov_posSemidef (S := S) (c := b))).dotProduct_mulVec_nonneg x
  have h5 : star x = x := by ext; simp
  rw [h5] at this
  linarith

theorem pair_symm (S : Spec.Stream d) (a b : ℤ) : (Spec.regCov S a + Spec.regCov S b)ᵀ = Spec.regCov S a + Spec.regCov S b := by
  have := (pair_posDef S a b).isHermitian
  rwa [Matrix.IsHermitian, Matrix.conjTranspose_eq_transpose_of_trivial] at this

theorem pair_det (S : Spec.Stream d) (a b : ℤ) : (2 * delta d) ^ d ≤ (Spec.regCov S a + Spec.regCov S b).det := by
  rw [pair_eq]
  exact det_ge (cov_posSemidef.add cov_posSemidef) (by have := delta_pos d; linarith)

theorem peak_nonneg (S : Spec.Stream d) (a b : ℤ) (w : Spec.Pt d) : 0 ≤ Spec.gauss (Spec.regCov S a + Spec.regCov S b) w := by
  rw [Spec.gauss]
  positivity

theorem cip_le_peak (S : Spec.Stream d) (a b : ℤ) : Spec.cip S a b ≤ Spec.gauss (Spec.regCov S a + Spec.regCov S b) 0 := by
  rw [Spec.cip, gauss_zero, gauss_eq]
  refine mul_le_of_le_one_right (by positivity) (Real.exp_le_one_iff.mpr ?_)
  have := Perturb.energy_nonneg (pair_low S a b) fun i => Spec.centroid S a i - Spec.centroid S b i
  linarith

theorem peak_le (hd : 0 < d) (S : Spec.Stream d) (a b : ℤ) : Spec.gauss (Spec.regCov S a + Spec.regCov S b) 0 ≤ 10 ^ 6 := by
  rw [gauss_zero]
  have hpi : (1 : ℝ) ≤ (2 * Real.pi) ^ d := one_le_pow₀ (by linarith [Real.pi_gt_three])
  have hsp : 1 ≤ √((2 * Real.pi) ^ d) := by rw [← Real.sqrt_one]; exact Real.sqrt_le_sqrt hpi
  have hS0 := Real.sqrt_pos.mpr (pair_det_pos S a b)
  have a2 : (1 / 10 ^ 6 : ℝ) ≤ √(Spec.regCov S a + Spec.regCov S b).det := by
    apply Real.le_sqrt_of_sq_le
    refine le_trans ?_ (pair_det_ge hd S a b)
    have : (1 : ℝ) ≤ 2 ^ d := one_le_pow₀ (by norm_num)
    have := mul_le_mul_of_nonneg_right this (show (0 : ℝ) ≤ (10 : ℝ) ^ (-12 : ℤ) by positivity)
    refine le_trans (le_of_eq ?_) this
    norm_num
  have a3 : 1 / √(Spec.regCov S a + Spec.regCov S b).det ≤ 10 ^ 6 := by
    rw [div_le_iff₀ hS0]
    have := mul_le_mul_of_nonneg_left a2 (show (0 : ℝ) ≤ 10 ^ 6 by norm_num)
    linarith
  have a4 : 1 / √((2 * Real.pi) ^ d) ≤ 1 := by rw [div_le_one (by linarith)]; exact hsp
  exact (mul_le_of_le_one_left (by positivity) a4).trans a3

section
variable (h : Setting F val fin u η Ω M γ N d) (V : StandardCov F val fin u η Ω κ' N d) (hκ : 0 ≤ κ') (hκ1 : κ' ≤ 1) (hΩ : 100 ≤ Ω)
include h hκ hκ1 hΩ

theorem Setting.good (D : Inputs val fin M N d S) (V : StandardCov F val fin u η Ω κ' N d) {c : ℤ} (hc : c ∈ order S) :
    Good val fin M (γ * N) (104 * (γ * N * (M ^ 2 + 2 * delta d)) + κ' * delta d) d S c (gauss d S c) := by
  have hl := Inputs.own_ne hc
  have hN := (Inputs.own_le (S := S) (c := c)).trans D.length
  refine ⟨?_, h.covNear V hκ hκ1 hΩ hl D.own_dim D.own_bound hN, fun i hi j hj => ?_⟩
  · rw [gauss_v]
    exact h.centroid hl D.own_dim D.own_bound hN
  · have hx : ∀ i < d, ∀ x ∈ own S c, |val (x.getD i 0)| ≤ M := fun i hi x hx =>
      (D.own_bound x hx _ (getD_mem (by rw [D.own_dim x hx]; exact hi))).2
    exact covOf_abs hl (hx i hi) (hx j hj)

theorem Setting.goodBatch (D : Inputs val fin M N d S) (B : StandardBatch F val fin u Ω N d) (V : StandardCov F val fin u η Ω κ' N d) {c : ℤ}
    (hc : c ∈ order S) :
    Good val fin M (γ * N) (104 * (γ * N * (M ^ 2 + 2 * delta d)) + κ' * delta d) d S c (Batch.gauss d (own S c)) := by
  have hl := Inputs.own_ne hc
  have hN := (Inputs.own_le (S := S) (c := c)).trans D.length
  refine ⟨⟨by simp [Batch.gauss, colMeans], fun j hj => ?_⟩, h.batchCovNear V B hκ hκ1 hΩ hl D.own_dim D.own_bound hN, fun i hi j hj => ?_⟩
  · obtain ⟨h1, h2, h3, -⟩ := h.colMean B hl D.own_dim D.own_bound hN hj
    refine ⟨h1, h2.trans ?_, h3⟩
    have := mul_nonneg h.eps.2.2.1 h.moderate.M0
    linarith
  · have hx : ∀ i < d, ∀ x ∈ own S c, |val (x.getD i 0)| ≤ M := fun i hi x hx =>
      (D.own_bound x hx _ (getD_mem (by rw [D.own_dim x hx]; exact hi))).2
    exact covOf_abs hl (hx i hi) (hx j hj)

variable {a b : ℤ} {s t : Gauss F}
  (hs : Good val fin M (γ * N) (104 * (γ * N * (M ^ 2 + 2 * delta d)) + κ' * delta d) d S a s)
  (ht : Good val fin M (γ * N) (104 * (γ * N * (M ^ 2 + 2 * delta d)) + κ' * delta d) d S b t)
include hs ht

omit hκ in
/-- The sum of two covariances. -/
theorem Setting.summed : Sq d (zip2 (· + ·) s.sigma t.sigma) ∧
    (∀ i < d, ∀ j < d, fin (ent (zip2 (· + ·) s.sigma t.sigma) i j) ∧
      |val (ent (zip2 (· + ·) s.sigma t.sigma) i j)| ≤ 12 * (M ^ 2 + delta d)) ∧
    Perturb.Near (218 * (γ * N * (M ^ 2 + 2 * delta d)) + 2 * (κ' * delta d))
      (Spec.regCov (real val d S) a + Spec.regCov (real val d S) b) (mat val d (zip2 (· + ·) s.sigma t.sigma)) ∧
    ∀ i j, |(Spec.regCov (real val d S) a + Spec.regCov (real val d S) b) i j| ≤ 12 * (M ^ 2 + delta d) := by
  obtain ⟨u0, uγ, γN, η0, ηu, ηγ, ηM, M0, Ω1, Ω2⟩ := h.moderate
  obtain ⟨e1, e2, e3, e4, -⟩ := h.eps
  have hδ0 := delta_pos d
  have hδ1 := delta_le d
  have hN1 : (1 : ℝ) ≤ N := by exact_mod_cast h.N1
  have hd1 : (1 : ℝ) ≤ d := by exact_mod_cast h.d1
  have hMM : 0 ≤ M ^ 2 := by positivity
  have hMΩ : 73 * M ^ 2 ≤ Ω := by
    refine le_trans ?_ Ω2
    have a1 := mul_le_mul_of_nonneg_right hd1 hMM
    have a2 := mul_le_mul_of_nonneg_right hN1 (show 0 ≤ d * M ^ 2 by positivity)
    linarith
  obtain ⟨W, hW⟩ : ∃ W, W = M ^ 2 + 2 * delta d := ⟨_, rfl⟩
  have hW0 : 0 ≤ W := by rw [hW]; positivity
  obtain ⟨E, hE⟩ : ∃ E, E = 104 * (γ * N * W) + κ' * delta d := ⟨_, rfl⟩
  have hEW : E ≤ W + delta d := by
    have a1 := mul_le_mul_of_nonneg_right e2 hW0
    have a2 := mul_le_mul_of_nonneg_right hκ1 hδ0.le
    have a3 := mul_nonneg e3 hW0
    linarith
  rw [← hW, ← hE] at hs ht
  rw [← hW]
  have key : ∀ i < d, ∀ j < d, fin (ent (zip2 (· + ·) s.sigma t.sigma) i j) ∧
      |val (ent (zip2 (· + ·) s.sigma t.sigma) i j)| ≤ 12 * (M ^ 2 + delta d) ∧
      |val (ent (zip2 (· + ·) s.sigma t.sigma) i j) - ((covOf val (own S a) i j + if i = j then delta d else 0) +
        (covOf val (own S b) i j + if i = j then delta d else 0))| ≤ 218 * (γ * N * W) + 2 * (κ' * delta d) ∧
      |(covOf val (own S a) i j + if i = j then delta d else 0) + (covOf val (own S b) i j + if i = j then delta d else 0)| ≤
        12 * (M ^ 2 + delta d) := by
    intro i hi j hj
    rw [ent_zip2 hi hj hs.sigma.1 ht.sigma.1]
    obtain ⟨f1, p1⟩ := hs.sigma.2 i hi j hj
    obtain ⟨f2, p2⟩ := ht.sigma.2 i hi j hj
    have c1 := hs.bound i hi j hj
    have c2 := ht.bound i hi j hj
    obtain ⟨r, hr, hr1⟩ : ∃ r, r = (if i = j then delta d else 0) ∧ |r| ≤ delta d := by
      refine ⟨_, rfl, ?_⟩
      split
      · rw [abs_of_pos hδ0]
      · rw [abs_zero]; exact hδ0.le
    rw [← hr] at p1 p2 ⊢
    generalize covOf val (own S a) i j = x at *
    generalize covOf val (own S b) i j = y at *
    obtain ⟨p3, p4⟩ := abs_le.mp p1
    obtain ⟨p5, p6⟩ := abs_le.mp p2
    obtain ⟨c3, c4⟩ := abs_le.mp c1
    obtain ⟨c5, c6⟩ := abs_le.mp c2
    obtain ⟨r3, r4⟩ := abs_le.mp hr1
    have hs10 : |val (ent s.sigma i j) + val (ent t.sigma i j)| ≤ 10 * (M ^ 2 + delta d) := abs_le.mpr ⟨by linarith, by linarith⟩
    obtain ⟨f3, q1⟩ := h.full.add _ _ f1 f2 (hs10.trans (by linarith))
    have q2 : u * |val (ent s.sigma i j) + val (ent t.sigma i j)| ≤ 10 * (γ * N * W) := by
      have a1 := mul_le_mul e1 hs10 (abs_nonneg _) e3
      have a2 := mul_le_mul_of_nonneg_left (show M ^ 2 + delta d ≤ W by linarith) e3
      linarith
    have q3 : γ * N * W ≤ (M ^ 2 + 2 * delta d) / 128 := by
      have a1 := mul_le_mul_of_nonneg_right e2 hW0
      linarith
    obtain ⟨q4, q5⟩ := abs_le.mp q1
    obtain ⟨q6, q7⟩ := abs_le.mp hs10
    refine ⟨f3, abs_le.mpr ⟨by linarith, by linarith⟩, abs_le.mpr ⟨by linarith, by linarith⟩, abs_le.mpr ⟨by linarith, by linarith⟩⟩
  refine ⟨zip2_sq hs.sigma.1 ht.sigma.1, fun i hi j hj => ⟨(key i hi j hj).1, (key i hi j hj).2.1⟩, fun i j => ?_, fun i j => ?_⟩
  · rw [Matrix.add_apply, regCov_real, regCov_real]
    exact (key i i.2 j j.2).2.2.1
  · rw [Matrix.add_apply, regCov_real, regCov_real]
    exact (key i i.2 j j.2).2.2.2

variable (G : StandardLinalg F val fin u η Ω κ d) (P : Small u η Ω M γ κ κ' θ N d)
include G P

omit hκ in
/-- The libraries do not raise. -/
theorem Setting.pair_ok : (∃ k : F, Arith.normConst d = .ok k) ∧ (∃ D, Arith.det (zip2 (· + ·) s.sigma t.sigma) = .ok D) ∧
    ∃ X, Arith.inv (zip2 (· + ·) s.sigma t.sigma) = .ok X := by
  obtain ⟨h1, h2, h3, h4⟩ := h.summed hκ1 hΩ hs ht
  obtain ⟨k, hk, -⟩ := G.normConst P.range2
  obtain ⟨⟨D, hD, -⟩, X, hX, -⟩ := linalg_ok G P (pair_low _ a b) (pair_det _ a b) h1 h2 h3
  exact ⟨⟨k, hk⟩, ⟨D, hD⟩, X, hX⟩

omit hκ in
/-- The overlap of two clusters. -/
theorem Setting.pair_near (h1 : fin (Arith.one : F) ∧ val (Arith.one : F) = 1)
    (hexp : ∀ a : F, fin a → val a ≤ 1 → fin (Arith.exp a) ∧ |val (Arith.exp a) - Real.exp (val a)| ≤ κ) {r : F} (hr : Overlap d s t r) :
    fin r ∧ |val r - Spec.cip (real val d S) a b| ≤
      164 * θ * Spec.gauss (Spec.regCov (real val d S) a + Spec.regCov (real val d S) b) 0 := by
  obtain ⟨k, D, B, hk, hD, hB, hr⟩ := hr
  obtain ⟨g1, g2, g3, g4⟩ := h.summed hκ1 hΩ hs ht
  obtain ⟨u0, uγ, γN, η0, ηu, ηγ, ηM, M0, Ω1, Ω2⟩ := h.moderate
  obtain ⟨e1, e2, e3, e4, -⟩ := h.eps
  have hN1 : (1 : ℝ) ≤ N := by exact_mod_cast h.N1
  have hMΩ : 17 * M ≤ Ω := by
    have := mul_le_mul_of_nonneg_right hN1 M0
    linarith
  have hl : (List.zipWith (· - ·) s.v t.v).length = d := by simp [hs.v.len, ht.v.len]
  have key : ∀ j < d, fin ((List.zipWith (· - ·) s.v t.v).getD j 0) ∧ |val ((List.zipWith (· - ·) s.v t.v).getD j 0)| ≤ 3 * M ∧
      |val ((List.zipWith (· - ·) s.v t.v).getD j 0) - (mean val (own S a) j - mean val (own S b) j)| ≤ 17 * (γ * N * M) := by
    intro j hj
    rw [getD_zip (by rw [hs.v.len]; exact hj) (by rw [ht.v.len]; exact hj)]
    obtain ⟨f1, p1, q1⟩ := hs.v.near j hj
    obtain ⟨f2, p2, q2⟩ := ht.v.near j hj
    generalize mean val (own S a) j = x at *
    generalize mean val (own S b) j = y at *
    have hM1 := mul_le_mul_of_nonneg_right e2 M0
    have hM2 := mul_nonneg e3 M0
    obtain ⟨p3, p4⟩ := abs_le.mp p1
    obtain ⟨p5, p6⟩ := abs_le.mp p2
    obtain ⟨q3, q4⟩ := abs_le.mp q1
    obtain ⟨q5, q6⟩ := abs_le.mp q2
    have i1 : |val (s.v.getD j 0) - val (t.v.getD j 0)| ≤ 5 / 2 * M := abs_le.mpr ⟨by linarith, by linarith⟩
    obtain ⟨f3, i2⟩ := h.full.sub _ _ f1 f2 (i1.trans (by linarith))
    have i3 : u * |val (s.v.getD j 0) - val (t.v.getD j 0)| ≤ 5 / 2 * (γ * N * M) := by
      have a1 := mul_le_mul e1 i1 (abs_nonneg _) e3
      linarith
    obtain ⟨i4, i5⟩ := abs_le.mp i2
    obtain ⟨i6, i7⟩ := abs_le.mp i1
    exact ⟨f3, abs_le.mpr ⟨by linarith, by linarith⟩, abs_le.mpr ⟨by linarith, by linarith⟩⟩
  have hmem : ∀ x ∈ List.zipWith (· - ·) s.v t.v, fin x := fun x hx => by
    obtain ⟨j, hj, rfl⟩ := List.getElem_of_mem hx
    have := (key j (by rw [← hl]; exact hj)).1
    rwa [List.getD_eq_getElem?_getD, List.getElem?_eq_getElem hj] at this
  have := overlap_near h.full h1 hexp G P (pair_symm _ a b) (pair_low _ a b) (pair_det _ a b) g4 g1 g2 g3 hl hmem
    (fun i hi => (key i hi).2.1) (w := fun i => Spec.centroid (real val d S) a i - Spec.centroid (real val d S) b i)
    (fun i => by rw [centroid_real, centroid_real]; exact (key i i.2).2.2) hk hD hB
  rw [hr]
  exact this

end

/-- The sum over all pairs. -/
theorem sum_peaks (S : Spec.Stream d) {ks : List ℤ} (hn : ks.Nodup) (hk : ∀ c, c ∈ ks ↔ c ∈ Spec.labels S) (f : ℤ → ℤ → ℝ)
    (hf : ∀ a b, f a b = f b a) :
    ((pairs ks).map fun p => f p.1 p.2).sum = ∑ a ∈ Spec.labels S, ∑ b ∈ (Spec.labels S).filter (fun b => a < b), f a b := by
  have h1 := sum_upperVals (ks := ks) (S := S) ⟨hn, hk⟩ f hf
  rw [upperVals_eq, XR.sum_fin (pairs ks) fun p => f p.1 p.2] at h1
  exact XR.fin.inj h1

theorem pairs_length {α : Type} (l : List α) : (pairs l).length ≤ l.length ^ 2 := by
  induction l with
  | nil => simp [pairs]
  | cons a l ih =>
    simp only [pairs, List.length_append, List.length_map, List.length_cons]
    nlinarith

theorem list_near {ι : Type} {l : List ι} {f c g : ι → ℝ} {k : ℝ} (h : ∀ p ∈ l, |f p - c p| ≤ k * g p) :
    |(l.map f).sum - (l.map c).sum| ≤ k * (l.map g).sum := by
  induction l with
  | nil => simp
  | cons p l ih =>
    simp only [List.map_cons, List.sum_cons]
    have h1 := ih fun q hq => h q (List.mem_cons_of_mem _ hq)
    have h2 := h p List.mem_cons_self
    have h3 := abs_add_le (f p - c p) ((l.map f).sum - (l.map c).sum)
    rw [add_sub_add_comm]
    linarith

/-- The sum of the overlaps. -/
theorem sum_overlaps (hd : 0 < d) (hsum : Sums val fin u Ω K (Arith.npSum : List F → F)) {ks : List ℤ} (hn : ks.Nodup)
    (hk : ∀ c, c ∈ ks ↔ c ∈ Spec.labels (real val d S)) (hK : ks.length ^ 2 ≤ K) (hu : 0 ≤ u) (hKu : K * u ≤ θ) (hθ : 128 * θ ≤ 1)
    (hΩ : 10 ^ 7 * (K : ℝ) ≤ Ω) {g : ℤ × ℤ → F}
    (hg : ∀ p ∈ pairs ks, fin (g p) ∧ |val (g p) - Spec.cip (real val d S) p.1 p.2| ≤
      168 * θ * Spec.gauss (Spec.regCov (real val d S) p.1 + Spec.regCov (real val d S) p.2) 0) :
    ∃ y, Spec.rCIP (real val d S) = .fin y ∧ fin (Arith.npSum ((pairs ks).map g)) ∧
      |val (Arith.npSum ((pairs ks).map g)) - y| ≤ 174 * θ * peaks (real val d S) := by
  have hθ0 : 0 ≤ θ := le_trans (by positivity) hKu
  refine ⟨_, rfl, ?_⟩
  have hpk : peaks (real val d S) = ((pairs ks).map fun p => Spec.gauss (Spec.regCov (real val d S) p.1 + Spec.regCov (real val d S) p.2) 0).sum := by
    rw [peaks, sum_peaks _ hn hk (fun a b => Spec.gauss (Spec.regCov (real val d S) a + Spec.regCov (real val d S) b) 0) fun a b => by
      rw [add_comm]]
  rw [← sum_peaks _ hn hk _ (cip_comm _), hpk]
  have hlen : (pairs ks).length ≤ K := (pairs_length ks).trans hK
  have hlen' : ((pairs ks).length : ℝ) ≤ K := by exact_mod_cast hlen
  generalize pairs ks = ps at *
  have hterm : ∀ p ∈ ps, |val (g p)| ≤ 3 * Spec.gauss (Spec.regCov (real val d S) p.1 + Spec.regCov (real val d S) p.2) 0 := fun p hp => by
    have h1 := abs_le_of_err (hg p hp).2
    have h2 := cip_le_peak (real val d S) p.1 p.2
    rw [abs_of_nonneg (show 0 ≤ Spec.cip (real val d S) p.1 p.2 from peak_nonneg ..)] at h1
    have h4 := peak_nonneg (real val d S) p.1 p.2 0
    have h3 := mul_le_mul_of_nonneg_right hθ h4
    linarith
  have hsz : ((ps.map g).map fun a => |val a|).sum ≤
      3 * (ps.map fun p => Spec.gauss (Spec.regCov (real val d S) p.1 + Spec.regCov (real val d S) p.2) 0).sum := by
    rw [List.map_map, ← List.sum_map_mul_left]
    exact List.sum_le_sum hterm
  have hpl : (ps.map fun p => Spec.gauss (Spec.regCov (real val d S) p.1 + Spec.regCov (real val d S) p.2) 0).sum ≤ K * 10 ^ 6 := by
    have : (ps.map fun p => Spec.gauss (Spec.regCov (real val d S) p.1 + Spec.regCov (real val d S) p.2) 0).sum ≤
        (ps.map fun _ => (10 : ℝ) ^ 6).sum := List.sum_le_sum fun p _ => peak_le hd _ _ _
    rw [map_sum_const] at this
    have h2 := mul_le_mul_of_nonneg_right hlen' (show (0 : ℝ) ≤ 10 ^ 6 by norm_num)
    linarith
  have hp0 : 0 ≤ (ps.map fun p => Spec.gauss (Spec.regCov (real val d S) p.1 + Spec.regCov (real val d S) p.2) 0).sum :=
    List.sum_nonneg fun x hx => by
      obtain ⟨p, -, rfl⟩ := List.mem_map.mp hx
      exact peak_nonneg ..
  obtain ⟨f, e⟩ := hsum (ps.map g) (by rw [List.length_map]; exact hlen) (fun a ha => by
    obtain ⟨p, hp, rfl⟩ := List.mem_map.mp ha
    exact (hg p hp).1) (by linarith)
  refine ⟨f, ?_⟩
  have e2 : |((ps.map g).map val).sum - (ps.map fun p => Spec.cip (real val d S) p.1 p.2).sum| ≤
      168 * θ * (ps.map fun p => Spec.gauss (Spec.regCov (real val d S) p.1 + Spec.regCov (real val d S) p.2) 0).sum := by
    rw [List.map_map]
    exact list_near fun p hp => (hg p hp).2
  have e3 : 2 * ((ps.map g).length : ℝ) * u * ((ps.map g).map fun a => |val a|).sum ≤
      6 * θ * (ps.map fun p => Spec.gauss (Spec.regCov (real val d S) p.1 + Spec.regCov (real val d S) p.2) 0).sum := by
    rw [List.length_map]
    have h1 : (ps.length : ℝ) * u ≤ θ := (mul_le_mul_of_nonneg_right hlen' hu).trans hKu
    have h2 := mul_le_mul_of_nonneg_left hsz (show 0 ≤ (ps.length : ℝ) * u by positivity)
    have h3 := mul_le_mul_of_nonneg_right h1 hp0
    linarith
  have e4 := abs_add_le (val (Arith.npSum (ps.map g)) - ((ps.map g).map val).sum)
    (((ps.map g).map val).sum - (ps.map fun p => Spec.cip (real val d S) p.1 p.2).sum)
  rw [sub_add_sub_cancel] at e4
  linarith

end Rounding
end Verif.Gen
