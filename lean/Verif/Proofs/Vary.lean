import Verif.Proofs.Bounds
import Verif.Proofs.Similar
import Verif.Proofs.CSIL
import Verif.SpecCSIL

/-!
# Varying one feature of one sample

Which quantities of a data set depend on the feature `i` of one sample: the quantities from which the indices are computed
are non-constant functions of that feature.
-/

namespace Verif
open Spec

variable {d : ℕ}

/-- A polynomial of degree two. -/
def Quadr (f : ℝ → ℝ) : Prop := ∃ A B C : ℝ, A ≠ 0 ∧ ∀ r, f r = A * r ^ 2 + B * r + C

theorem Quadr.ne {f : ℝ → ℝ} (h : Quadr f) : ∃ r s, f r ≠ f s := by
  obtain ⟨A, B, C, hA, h⟩ := h
  by_contra hc
  push Not at hc
  have h1 := hc 1 0
  have h2 := hc (-1) 0
  rw [h, h] at h1 h2
  apply hA
  linarith

/-- The data set with the feature `i` of one sample set to `r`. -/
noncomputable def vary (P : Stream d) (x : Pt d) (c : ℤ) (Q : Stream d) (i : Fin d) (r : ℝ) : Stream d :=
  P ++ (Function.update x i r, c) :: Q

section
variable (P Q : Stream d) (x : Pt d) (c : ℤ) (i : Fin d)

theorem vary_perm (r : ℝ) : ((P ++ Q) ++ [(Function.update x i r, c)]).Perm (vary P x c Q i r) := by
  rw [vary, List.append_assoc]
  refine List.Perm.append_left P ?_
  simp

theorem vary_snd (r : ℝ) : (vary P x c Q i r).map Prod.snd = (vary P x c Q i 0).map Prod.snd := by simp [vary]

theorem vary_keys (r : ℝ) : keys (vary P x c Q i r) = keys (vary P x c Q i 0) := by
  rw [keys, keys, vary_snd]

theorem vary_labels (r : ℝ) : labels (vary P x c Q i r) = labels (vary P x c Q i 0) := by
  rw [labels, labels, vary_snd]

theorem vary_length (r : ℝ) : (vary P x c Q i r).length = (P ++ Q).length + 1 := by simp [vary]; omega

theorem vary_size (r : ℝ) : size (vary P x c Q i r) c = size (P ++ Q) c + 1 := by
  rw [size_perm (vary_perm P Q x c i r), size_append_self]

theorem vary_size_ne {b : ℤ} (h : b ≠ c) (r : ℝ) : size (vary P x c Q i r) b = size (P ++ Q) b := by
  rw [size_perm (vary_perm P Q x c i r), size_append_ne _ _ h]

theorem vary_centroid_ne {b : ℤ} (h : b ≠ c) (r : ℝ) : centroid (vary P x c Q i r) b = centroid (P ++ Q) b := by
  rw [centroid_perm (vary_perm P Q x c i r), centroid_append_ne _ _ h]

theorem vary_cluster_ne {b : ℤ} (h : b ≠ c) (r : ℝ) : cluster (vary P x c Q i r) b = cluster (P ++ Q) b := by
  simp [vary, cluster, h.symm]

/-- `w` moved by `t` along the feature `i`. -/
def bump (i : Fin d) (w : Pt d) (t : ℝ) : Pt d := fun j => w j + if j = i then t else 0

theorem update_bump (r : ℝ) : Function.update x i r = bump i (Function.update x i 0) r := by
  funext j
  by_cases h : j = i
  · subst h; simp [bump]
  · simp [bump, h]

theorem vary_centroid (r : ℝ) :
    centroid (vary P x c Q i r) c = bump i (centroid (vary P x c Q i 0) c) (r / ((size (P ++ Q) c + 1 : ℕ) : ℝ)) := by
  funext j
  rw [centroid_perm (vary_perm P Q x c i r), bump, centroid_perm (vary_perm P Q x c i 0), centroid_append_self,
    centroid_append_self, update_bump x i r, bump]
  split <;> ring

theorem vary_mean (r : ℝ) :
    mean (vary P x c Q i r) = bump i (mean (vary P x c Q i 0)) (r / (((P ++ Q).length + 1 : ℕ) : ℝ)) := by
  funext j
  rw [mean_perm (vary_perm P Q x c i r), bump, mean_perm (vary_perm P Q x c i 0), mean_append, mean_append, update_bump x i r,
    bump]
  split <;> ring

theorem dist2_bump (u w : Pt d) (t t' : ℝ) :
    dist2 (bump i u t) (bump i w t') = dist2 u w + 2 * (t - t') * (u i - w i) + (t - t') ^ 2 := by
  have : ∀ j, (bump i u t j - bump i w t' j) ^ 2 =
      (u j - w j) ^ 2 + if j = i then 2 * (t - t') * (u i - w i) + (t - t') ^ 2 else 0 := by
    intro j
    by_cases h : j = i
    · subst h; simp [bump]; ring
    · simp [bump, h]
  simp only [dist2, this, Finset.sum_add_distrib]
  simp
  ring

theorem bump_zero (w : Pt d) : bump i w 0 = w := by funext j; simp [bump]

variable {b : ℤ}

theorem vary_sep (h : b ≠ c) : Quadr fun r => sep (vary P x c Q i r) c b := by
  have hn : ((size (P ++ Q) c + 1 : ℕ) : ℝ) ≠ 0 := by positivity
  refine ⟨1 / ((size (P ++ Q) c + 1 : ℕ) : ℝ) ^ 2,
    2 * (centroid (vary P x c Q i 0) c i - centroid (P ++ Q) b i) / ((size (P ++ Q) c + 1 : ℕ) : ℝ),
    dist2 (centroid (vary P x c Q i 0) c) (centroid (P ++ Q) b), by positivity, fun r => ?_⟩
  beta_reduce
  rw [sep, vary_centroid, vary_centroid_ne P Q x c i h]
  have := dist2_bump i (centroid (vary P x c Q i 0) c) (centroid (P ++ Q) b) (r / ((size (P ++ Q) c + 1 : ℕ) : ℝ)) 0
  rw [bump_zero] at this
  rw [this]
  field_simp
  ring

theorem size_lt_length (S : Stream d) {a c : ℤ} (ha : a ∈ labels S) (h : a ≠ c) : size S c < S.length := by
  rw [size, cluster, List.length_map]
  refine List.length_filter_lt_length_iff_exists.2 ?_
  obtain ⟨p, hp, rfl⟩ : ∃ p ∈ S, p.2 = a := by simpa [labels] using ha
  exact ⟨p, hp, by simpa using h⟩

theorem vary_toMean (h : b ≠ c) (hb : b ∈ labels (vary P x c Q i 0)) :
    Quadr fun r => (size (vary P x c Q i r) c : ℝ) * dist2 (centroid (vary P x c Q i r) c) (mean (vary P x c Q i r)) := by
  have hlt := size_lt_length _ hb h
  rw [vary_size, vary_length] at hlt
  set n : ℝ := ((size (P ++ Q) c + 1 : ℕ) : ℝ) with hn
  set N : ℝ := (((P ++ Q).length + 1 : ℕ) : ℝ) with hN
  have hn0 : 0 < n := by rw [hn]; positivity
  have hN0 : 0 < N := by rw [hN]; positivity
  have hnN : n < N := by rw [hn, hN]; exact_mod_cast hlt
  set u := centroid (vary P x c Q i 0) c
  set w := mean (vary P x c Q i 0)
  refine ⟨n * (1 / n - 1 / N) ^ 2, n * (2 * (1 / n - 1 / N) * (u i - w i)), n * dist2 u w, ?_, fun r => ?_⟩
  · have : 1 / n - 1 / N ≠ 0 := by
      have := one_div_lt_one_div_of_lt hn0 hnN
      linarith
    positivity
  · beta_reduce
    rw [vary_size, vary_centroid, vary_mean, dist2_bump]
    field_simp
    ring

theorem vary_scatter (h : 1 ≤ size (P ++ Q) c) : ∃ A B C : ℝ, 0 < A ∧ ∀ r, scatter (vary P x c Q i r) c = A * r ^ 2 + B * r + C := by
  have hc : c ∈ labels (P ++ Q) := by
    rw [← cluster_ne_nil, ← List.length_pos_iff]
    exact h
  have e : ∀ r, scatter (vary P x c Q i r) c = _ := fun r =>
    (by rw [scatter, centroid_perm (vary_perm P Q x c i r), scatter, ((cluster_perm (vary_perm P Q x c i r) c).map _).sum_eq] :
      scatter (vary P x c Q i r) c = scatter ((P ++ Q) ++ [(Function.update x i r, c)]) c).trans
        (scatter_append_old (P ++ Q) (Function.update x i r) hc)
  set m : ℝ := (size (P ++ Q) c : ℝ) with hm
  have hm1 : 1 ≤ m := by rw [hm]; exact_mod_cast h
  set n : ℝ := ((size (P ++ Q) c + 1 : ℕ) : ℝ) with hn
  have hnm : n = m + 1 := by rw [hn, hm]; push_cast; ring
  set w := centroid (vary P x c Q i 0) c
  set y := Function.update x i 0
  set v := centroid (P ++ Q) c
  refine ⟨(1 - 1 / n) ^ 2 + m * (1 / n) ^ 2, 2 * (1 - 1 / n) * (y i - w i) - m * (2 * (1 / n) * (v i - w i)),
    scatter (P ++ Q) c + dist2 y w + m * dist2 v w, ?_, fun r => ?_⟩
  · have : 0 < m * (1 / n) ^ 2 := by rw [hnm]; positivity
    positivity
  · rw [e, ← centroid_perm (vary_perm P Q x c i r), vary_centroid, update_bump x i r, dist2_bump]
    have := dist2_bump i v w 0 (r / n)
    rw [bump_zero] at this
    rw [this]
    ring

theorem vary_quadr_scatter (h : 1 ≤ size (P ++ Q) c) : Quadr fun r => scatter (vary P x c Q i r) c := by
  obtain ⟨A, B, C, hA, h⟩ := vary_scatter P Q x c i h
  exact ⟨A, B, C, hA.ne', h⟩

theorem vary_scatter_ne (h : b ≠ c) (r : ℝ) : scatter (vary P x c Q i r) b = scatter (P ++ Q) b := by
  rw [scatter, vary_cluster_ne P Q x c i h, vary_centroid_ne P Q x c i h, scatter]

/-! ## cSIL -/

theorem vary_cross (h : b ≠ c) (hb : b ∈ labels (P ++ Q)) (r : ℝ) :
    crossScatter (vary P x c Q i r) b c = meanScatter (P ++ Q) b + sep (vary P x c Q i r) c b := by
  rw [crossScatter, vary_cluster_ne P Q x c i h, vary_size_ne P Q x c i h, sum_dist2_cluster hb, meanScatter, sep,
    vary_centroid_ne P Q x c i h, dist2_comm (centroid (vary P x c Q i r) c)]
  have := size_pos_real hb
  field_simp

theorem dot_bump (y w : Pt d) (t : ℝ) : CSIL.dot y (bump i w t) = CSIL.dot y w + y i * t := by
  have : ∀ j, y j * bump i w t j = y j * w j + if j = i then y i * t else 0 := by
    intro j
    by_cases h : j = i
    · subst h; simp [bump]; ring
    · simp [bump, h]
  simp only [CSIL.dot, this, Finset.sum_add_distrib]
  simp

theorem vary_lastOf (b : ℤ) : (∀ r, ∃ y, CSIL.lastOf (vary P x c Q i r) b c = some (y, c)) ∨
    ∃ p, ∀ r, CSIL.lastOf (vary P x c Q i r) b c = some p := by
  have e : ∀ r, CSIL.lastOf (vary P x c Q i r) b c =
      some (((Q.filter fun p => decide (p.2 = b ∨ p.2 = c)).getLast?).getD (Function.update x i r, c)) := by
    intro r
    simp only [CSIL.lastOf, vary, List.filter_append, List.getLast?_append]
    rw [List.filter_cons_of_pos (by simp), List.getLast?_cons]
    simp
  cases hq : (Q.filter fun p => decide (p.2 = b ∨ p.2 = c)).getLast? with
  | none => exact .inl fun r => ⟨_, by rw [e, hq]; rfl⟩
  | some p => exact .inr ⟨p, fun r => by rw [e, hq]; rfl⟩

theorem vary_csilErr (h : b ≠ c) : ∃ A B : ℝ, ∀ r, CSIL.csilErr (vary P x c Q i r) b c = A * r + B := by
  rcases vary_lastOf P Q x c i b with hl | ⟨⟨y, e⟩, hl⟩
  · refine ⟨0, 0, fun r => ?_⟩
    obtain ⟨y, hy⟩ := hl r
    simp [CSIL.csilErr, hy]
  · by_cases he : e = c
    · exact ⟨0, 0, fun r => by simp [CSIL.csilErr, hl, he]⟩
    · by_cases h1 : size (P ++ Q) b = 1
      · refine ⟨y i / ((size (P ++ Q) c + 1 : ℕ) : ℝ), CSIL.dot y (centroid (vary P x c Q i 0) c), fun r => ?_⟩
        rw [CSIL.csilErr, if_neg h, hl]
        simp only [if_neg he, vary_size_ne P Q x c i h, if_pos h1]
        rw [vary_centroid, dot_bump]
        ring
      · refine ⟨-(2 * (y i / ((size (P ++ Q) c + 1 : ℕ) : ℝ))) / size (P ++ Q) b,
          -(2 * CSIL.dot y (centroid (vary P x c Q i 0) c)) / size (P ++ Q) b, fun r => ?_⟩
        rw [CSIL.csilErr, if_neg h, hl]
        simp only [if_neg he, vary_size_ne P Q x c i h, if_neg h1]
        rw [vary_centroid, dot_bump]
        ring

theorem vary_mem (h : b ≠ c) (hb : b ∈ labels (vary P x c Q i 0)) : b ∈ labels (P ++ Q) := by
  simpa [vary, labels, h] using hb

theorem vary_entry (h : b ≠ c) (hb : b ∈ labels (vary P x c Q i 0)) : Quadr fun r => CSIL.entry (vary P x c Q i r) b c := by
  obtain ⟨A, B, C, hA, h1⟩ := vary_sep P Q x c i h
  obtain ⟨A', B', h2⟩ := vary_csilErr P Q x c i h
  refine ⟨A, B + A', C + meanScatter (P ++ Q) b + B', hA, fun r => ?_⟩
  have h1 := h1 r
  beta_reduce at h1 ⊢
  rw [CSIL.entry, vary_cross P Q x c i h (vary_mem P Q x c i h hb), h2, h1]
  ring

theorem vary_quadr_cross (h : b ≠ c) (hb : b ∈ labels (vary P x c Q i 0)) :
    Quadr fun r => crossScatter (vary P x c Q i r) b c := by
  obtain ⟨A, B, C, hA, h1⟩ := vary_sep P Q x c i h
  refine ⟨A, B, C + meanScatter (P ++ Q) b, hA, fun r => ?_⟩
  have h1 := h1 r
  beta_reduce at h1 ⊢
  rw [vary_cross P Q x c i h (vary_mem P Q x c i h hb), h1]
  ring

/-! ## rCIP -/

theorem vary_cov_ne (h : b ≠ c) (r : ℝ) : cov (vary P x c Q i r) b = cov (P ++ Q) b := by
  ext j k
  simp only [cov, Matrix.of_apply, vary_cluster_ne P Q x c i h, vary_centroid_ne P Q x c i h, vary_size_ne P Q x c i h]

theorem cov_singleton {S : Stream d} {a : ℤ} (h : size S a = 1) : cov S a = 0 := by
  obtain ⟨p, hp⟩ := List.length_eq_one_iff.mp h
  ext j k
  simp [cov, centroid, hp, meanOf_singleton]

theorem trace_cov (S : Stream d) (a : ℤ) : (cov S a).trace = scatter S a / ((size S a : ℝ) - 1) := by
  simp only [Matrix.trace, Matrix.diag, cov, Matrix.of_apply]
  rw [← Finset.sum_div, scatter]
  congr 1
  generalize cluster S a = l
  induction l with
  | nil => simp
  | cons p l ih =>
    simp only [List.map_cons, List.sum_cons, Finset.sum_add_distrib, ih, dist2]
    congr 1
    exact Finset.sum_congr rfl fun j _ => by ring

/-- The quadratic form of a matrix along the feature `i`. -/
theorem form_bump (M : Matrix (Fin d) (Fin d) ℝ) (w : Pt d) (t : ℝ) :
    ∑ j, ∑ k, bump i w t j * M j k * bump i w t k =
      M i i * t ^ 2 + (∑ k, M i k * w k + ∑ j, w j * M j i) * t + ∑ j, ∑ k, w j * M j k * w k := by
  have e : ∀ j k, bump i w t j * M j k * bump i w t k =
      w j * M j k * w k + (if j = i then t * (M i k * w k) else 0) + (if k = i then t * (w j * M j i) else 0) +
        if j = i then (if k = i then t ^ 2 * M i i else 0) else 0 := by
    intro j k
    by_cases hj : j = i <;> by_cases hk : k = i
    · subst hj; subst hk; simp [bump]; ring
    · subst hj; simp [bump, hk]; ring
    · subst hk; simp [bump, hj]; ring
    · simp [bump, hj, hk]
  simp only [e, Finset.sum_add_distrib, Finset.sum_ite_eq', Finset.mem_univ, if_true]
  have e2 : ∑ j : Fin d, ∑ k : Fin d, (if j = i then t * (M i k * w k) else 0) = t * ∑ k, M i k * w k := by
    rw [Finset.sum_comm]
    simp [Finset.mul_sum]
  have e3 : ∑ j : Fin d, ∑ k : Fin d, (if j = i then (if k = i then t ^ 2 * M i i else 0) else 0) = t ^ 2 * M i i := by
    rw [Finset.sum_comm]
    simp
  rw [e2, e3, ← Finset.mul_sum]
  ring

theorem vary_cip_single (h : b ≠ c) (h0 : size (P ++ Q) c = 0) : ∃ r s, cip (vary P x c Q i r) c b ≠ cip (vary P x c Q i s) c b := by
  set A := regCov (vary P x c Q i 0) c + regCov (vary P x c Q i 0) b with hA
  have hreg : ∀ r, regCov (vary P x c Q i r) c + regCov (vary P x c Q i r) b = A := by
    intro r
    have : ∀ r, cov (vary P x c Q i r) c = 0 := fun r => cov_singleton (by rw [vary_size, h0])
    rw [hA, regCov, regCov, regCov, regCov, this, this, vary_cov_ne P Q x c i h, vary_cov_ne P Q x c i h]
  have hpd : A.PosDef := pair_posDef _ _ _
  have hii : 0 < A⁻¹ i i := hpd.inv.diag_pos
  have hdet : 0 < A.det := pair_det_pos _ _ _
  set w : Pt d := fun j => centroid (vary P x c Q i 0) c j - centroid (P ++ Q) b j
  have hw : ∀ r, (fun j => centroid (vary P x c Q i r) c j - centroid (vary P x c Q i r) b j) = bump i w r := by
    intro r
    funext j
    rw [vary_centroid, vary_centroid_ne P Q x c i h, h0]
    simp only [bump, w]
    push_cast
    ring_nf
  have hq : Quadr fun r => ∑ j, ∑ k, bump i w r j * A⁻¹ j k * bump i w r k :=
    ⟨_, _, _, hii.ne', fun r => form_bump i A⁻¹ w r⟩
  obtain ⟨r, s, hrs⟩ := hq.ne
  refine ⟨r, s, fun e => hrs ?_⟩
  rw [cip, cip, hreg, hreg, hw, hw] at e
  simp only [gauss] at e
  have hk : 1 / Real.sqrt ((2 * Real.pi) ^ d) * (1 / Real.sqrt A.det) ≠ 0 := by
    have := Real.pi_pos
    have h1 : 0 < Real.sqrt ((2 * Real.pi) ^ d) := Real.sqrt_pos.2 (by positivity)
    have h2 : 0 < Real.sqrt A.det := Real.sqrt_pos.2 hdet
    positivity
  have e' := Real.exp_injective (mul_left_cancel₀ hk e)
  linarith

theorem cip_le_det (S : Stream d) (a b : ℤ) :
    cip S a b ≤ 1 / Real.sqrt ((2 * Real.pi) ^ d) * (1 / Real.sqrt (regCov S a + regCov S b).det) := by
  have hpi := Real.pi_pos
  have hpos := pair_det_pos S a b
  have hq : 0 ≤ ∑ i, ∑ j, (centroid S a i - centroid S b i) * (regCov S a + regCov S b)⁻¹ i j *
      (centroid S a j - centroid S b j) := by
    have := (pair_posDef S a b).inv.posSemidef.dotProduct_mulVec_nonneg (fun i => centroid S a i - centroid S b i)
    refine this.trans (le_of_eq ?_)
    simp only [dotProduct, Matrix.mulVec, star_trivial, Finset.mul_sum, mul_assoc, Pi.star_apply]
  have hexp : Real.exp (-(1 / 2) * ∑ i, ∑ j, (centroid S a i - centroid S b i) * (regCov S a + regCov S b)⁻¹ i j *
      (centroid S a j - centroid S b j)) ≤ 1 := by
    rw [Real.exp_le_one_iff]; linarith
  rw [cip, gauss]
  refine mul_le_of_le_one_right ?_ hexp
  positivity

/-- The determinant of the covariances of a pair grows with the scatter of the first cluster. -/
theorem pair_det_ge_scatter (S : Stream d) (a b : ℤ) :
    (2 * delta d) ^ (d - 1) * (scatter S a / ((size S a : ℝ) - 1)) ≤ d * (regCov S a + regCov S b).det := by
  have e : regCov S a + regCov S b = (cov S a + cov S b) + (2 * delta d) • (1 : Matrix (Fin d) (Fin d) ℝ) := by
    rw [regCov_eq, regCov_eq, two_mul, add_smul]; abel
  have hδ := delta_pos d
  rw [e]
  refine le_trans ?_ (det_ge_trace (cov_posSemidef.add cov_posSemidef) (by linarith))
  refine mul_le_mul_of_nonneg_left ?_ (by positivity)
  rw [Matrix.trace_add, ← trace_cov]
  have : 0 ≤ (cov S b).trace := cov_posSemidef.trace_nonneg
  linarith

theorem vary_cip_many (b : ℤ) (h1 : 1 ≤ size (P ++ Q) c) : ∃ r s, cip (vary P x c Q i r) c b ≠ cip (vary P x c Q i s) c b := by
  by_contra hc
  push Not at hc
  set q := cip (vary P x c Q i 0) c b
  have hq : 0 < q := cip_pos _ _ _
  have hpi := Real.pi_pos
  have hδ := delta_pos d
  set K := 1 / Real.sqrt ((2 * Real.pi) ^ d)
  have hK : 0 < K := by
    have : 0 < Real.sqrt ((2 * Real.pi) ^ d) := Real.sqrt_pos.2 (by positivity)
    positivity
  have hm : (1 : ℝ) ≤ size (P ++ Q) c := by exact_mod_cast h1
  -- the determinants are bounded
  have hb : ∀ r, (regCov (vary P x c Q i r) c + regCov (vary P x c Q i r) b).det ≤ (K / q) ^ 2 := by
    intro r
    have h2 := cip_le_det (vary P x c Q i r) c b
    rw [hc r 0] at h2
    have hpos := pair_det_pos (vary P x c Q i r) c b
    set D := (regCov (vary P x c Q i r) c + regCov (vary P x c Q i r) b).det
    have h3 : 0 < Real.sqrt D := Real.sqrt_pos.2 hpos
    change q ≤ K * (1 / Real.sqrt D) at h2
    have h4 : Real.sqrt D ≤ K / q := by
      rw [le_div_iff₀ hq]
      rw [mul_one_div, le_div_iff₀ h3] at h2
      linarith
    calc D = Real.sqrt D ^ 2 := (Real.sq_sqrt hpos.le).symm
      _ ≤ (K / q) ^ 2 := by gcongr
  -- hence the scatters are bounded
  have hs : ∀ r, scatter (vary P x c Q i r) c ≤ size (P ++ Q) c * (d * (K / q) ^ 2) / (2 * delta d) ^ (d - 1) := by
    intro r
    have h2 := pair_det_ge_scatter (vary P x c Q i r) c b
    rw [vary_size] at h2
    push_cast at h2
    rw [add_sub_cancel_right] at h2
    have h3 : (d : ℝ) * (regCov (vary P x c Q i r) c + regCov (vary P x c Q i r) b).det ≤ d * (K / q) ^ 2 :=
      mul_le_mul_of_nonneg_left (hb r) (by positivity)
    rw [le_div_iff₀ (by positivity)]
    have h4 := h2.trans h3
    rw [mul_div_assoc', div_le_iff₀ (by linarith)] at h4
    linarith
  obtain ⟨A, B, C, hA, hsc⟩ := vary_scatter P Q x c i h1
  set M := size (P ++ Q) c * (d * (K / q) ^ 2) / (2 * delta d) ^ (d - 1)
  have h2 : ∀ r, A * r ^ 2 + B * r + C ≤ M := fun r => by rw [← hsc]; exact hs r
  set r := (|B| + |C| + |M| + 1) / A + 1
  have hr1 : 1 ≤ r := by
    have : 0 ≤ (|B| + |C| + |M| + 1) / A := by positivity
    simp only [r]; linarith
  have hr2 : |B| + |C| + |M| + 1 ≤ A * r := by
    simp only [r]
    rw [mul_add, mul_div_cancel₀ _ hA.ne']
    linarith
  have h3 := h2 r
  have h4 : (|B| + |C| + |M| + 1) * r ≤ A * r * r := mul_le_mul_of_nonneg_right hr2 (by linarith)
  have h5 : -(|B| * r) ≤ B * r := by
    have := neg_abs_le B
    have := mul_le_mul_of_nonneg_right this (by linarith : (0 : ℝ) ≤ r)
    linarith
  have h6 : |C| * 1 ≤ |C| * r := mul_le_mul_of_nonneg_left hr1 (abs_nonneg _)
  have h7 : |M| * 1 ≤ |M| * r := mul_le_mul_of_nonneg_left hr1 (abs_nonneg _)
  have h8 := neg_abs_le C
  have h9 := le_abs_self M
  nlinarith

theorem vary_cip (h : b ≠ c) : ∃ r s, cip (vary P x c Q i r) c b ≠ cip (vary P x c Q i s) c b := by
  rcases Nat.eq_zero_or_pos (size (P ++ Q) c) with h0 | h0
  · exact vary_cip_single P Q x c i h h0
  · exact vary_cip_many P Q x c i b h0

end

end Verif
