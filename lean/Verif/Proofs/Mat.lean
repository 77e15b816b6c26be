import Verif.Proofs.SpecStep
import Verif.Linalg
import Mathlib.Analysis.Matrix.PosDef
import Mathlib.Algebra.Order.Star.Real

/-! # Arrays holding real matrices, and covariance matrices -/

namespace Verif
open Spec

variable {d : ℕ}

namespace Arr2
variable {n m l : ℕ}

@[simp] theorem ofMatrix_cols (A : Matrix (Fin n) (Fin m) ℝ) : (ofMatrix A).cols = m := rfl
@[simp] theorem ofMatrix_rows_length (A : Matrix (Fin n) (Fin m) ℝ) : (ofMatrix A).rows.length = n := by simp [ofMatrix]

theorem broadcastTo_ofMatrix (A : Matrix (Fin n) (Fin m) ℝ) : (ofMatrix A).broadcastTo n m = .ok (ofMatrix A) := by
  simp only [broadcastTo, ofMatrix_rows_length, if_true, except_bind_ok, ofMatrix_cols, except_pure]
  rfl

theorem bin_ofMatrix (f : XR → XR → XR) (g : ℝ → ℝ → ℝ) (h : ∀ a b, f (.fin a) (.fin b) = .fin (g a b))
    (A B : Matrix (Fin n) (Fin m) ℝ) :
    bin f (ofMatrix A) (ofMatrix B) = .ok (ofMatrix (Matrix.of fun i j => g (A i j) (B i j))) := by
  have e1 : (if (ofMatrix A).rows.length = 1 then (ofMatrix B).rows.length else (ofMatrix A).rows.length) = n := by
    simp
  have e2 : (if (ofMatrix A).cols = 1 then (ofMatrix B).cols else (ofMatrix A).cols) = m := ite_self _
  unfold bin
  simp only [e1, e2, broadcastTo_ofMatrix, except_bind_ok, except_pure]
  simp only [ofMatrix, zipWith_ofFn, h, Matrix.of_apply]

theorem add_ofMatrix (A B : Matrix (Fin n) (Fin m) ℝ) : add (ofMatrix A) (ofMatrix B) = .ok (ofMatrix (A + B)) :=
  bin_ofMatrix _ (· + ·) (fun _ _ => rfl) A B

theorem sub_ofMatrix (A B : Matrix (Fin n) (Fin m) ℝ) : sub (ofMatrix A) (ofMatrix B) = .ok (ofMatrix (A - B)) :=
  bin_ofMatrix _ (· - ·) (fun a b => XR.fin_sub a b) A B

theorem smul_ofMatrix (r : ℝ) (A : Matrix (Fin n) (Fin m) ℝ) : smul (.fin r) (ofMatrix A) = ofMatrix (r • A) := by
  simp [smul, ofMatrix, List.map_ofFn, Function.comp_def, Vec.smul]

theorem outer_enc (x y : Pt d) : outer (enc x) (enc y) = ofMatrix (Matrix.of fun i j => x i * y j) := by
  simp [outer, ofMatrix, enc, List.map_ofFn, Function.comp_def]

theorem allFin_ofMatrix (A : Matrix (Fin n) (Fin m) ℝ) : (ofMatrix A).allFin = true := by
  simp [allFin, ofMatrix, XR.isFin]

theorem toMatrix_ofMatrix (A : Matrix (Fin n) (Fin n) ℝ) : (ofMatrix A).toMatrix n = A := by
  ext i j
  simp [toMatrix, ofMatrix]

theorem det_ofMatrix (A : Matrix (Fin n) (Fin n) ℝ) : (ofMatrix A).det = .ok (.fin A.det) := by
  rw [det, if_pos (by simp), if_pos (allFin_ofMatrix A)]
  simp only [ofMatrix_cols, toMatrix_ofMatrix]

theorem inv_ofMatrix {A : Matrix (Fin n) (Fin n) ℝ} (h : A.det ≠ 0) : (ofMatrix A).inv = .ok (ofMatrix A⁻¹) := by
  rw [inv, if_pos (by simp), if_pos (allFin_ofMatrix A)]
  simp only [ofMatrix_cols, toMatrix_ofMatrix]
  rw [if_neg h]
  rfl

theorem vecMul_ofMatrix (x : Pt n) (A : Matrix (Fin n) (Fin m) ℝ) :
    vecMul (enc x) (ofMatrix A) = .ok (enc fun j => ∑ i, x i * A i j) := by
  rw [vecMul, if_pos (by simp)]
  congr 1
  rw [ofMatrix_cols, range_map_eq_ofFn, enc]
  congr 1
  funext j
  have : (ofMatrix A).rows.map (fun s : Vec => s.getD (j : ℕ) 0) = List.ofFn fun i => XR.fin (A i j) := by
    simp [ofMatrix, List.map_ofFn, Function.comp_def]
  rw [this]
  rw [zipWith_ofFn]
  exact sum_ofFn_fin fun i => x i * A i j

theorem matmul_transpose_encRows (l : List (Pt d)) :
    matmul (encRows l).transpose (encRows l) = .ok (ofMatrix (Matrix.of fun i j => (l.map fun p => p i * p j).sum)) := by
  rw [matmul, if_pos (by simp [transpose])]
  congr 1
  simp only [transpose, encRows_cols, encRows_rows, range_map_eq_ofFn, List.map_ofFn, ofMatrix, Function.comp_def]
  congr 2
  funext i
  congr 1
  funext j
  have e : ∀ k : Fin d, (l.map enc).map (fun r : Vec => r.getD (k : ℕ) 0) = l.map fun p => XR.fin (p k) := by
    intro k
    rw [List.map_map]
    exact List.map_congr_left fun p _ => enc_getD p k
  rw [e, e, List.zipWith_map, List.zipWith_self]
  simp only [XR.fin_mul, Matrix.of_apply]
  exact XR.sum_fin l fun p => p i * p j

end Arr2

/-! ## Covariance -/

/-- Scatter matrix about an arbitrary point. -/
theorem sum_outer (l : List (Pt d)) (h : l ≠ []) (w : Pt d) (i j : Fin d) :
    (l.map fun p => (p i - w i) * (p j - w j)).sum =
      (l.map fun p => (p i - meanOf l i) * (p j - meanOf l j)).sum
        + l.length * ((meanOf l i - w i) * (meanOf l j - w j)) := by
  have h0 := sum_sub_mean l h i
  have h1 := sum_sub_mean l h j
  have : ∀ p : Pt d, (p i - w i) * (p j - w j) =
      (p i - meanOf l i) * (p j - meanOf l j) + ((meanOf l i - w i) * (meanOf l j - w j)
        + ((meanOf l i - w i) * (p j - meanOf l j) + (meanOf l j - w j) * (p i - meanOf l i))) := by
    intro p; ring
  rw [List.map_congr_left fun p _ => this p]
  rw [List.sum_map_add, List.sum_map_add, List.sum_map_add, List.sum_map_mul_left (f := fun p : Pt d => p j - meanOf l j),
    List.sum_map_mul_left (f := fun p : Pt d => p i - meanOf l i), h0, h1]
  simp

/-- `10 ^ (-12 / d)` -/
noncomputable def delta (d : ℕ) : ℝ := (10 : ℝ) ^ (-(12 : ℝ) / (d : ℝ))

theorem delta_pos (d : ℕ) : 0 < delta d := Real.rpow_pos_of_pos (by norm_num) _

theorem regCov_eq (S : Stream d) (c : ℤ) : regCov S c = cov S c + delta d • (1 : Matrix (Fin d) (Fin d) ℝ) := rfl

theorem cov_append_ne (S : Stream d) (x : Pt d) {c a : ℤ} (h : a ≠ c) : cov (S ++ [(x, c)]) a = cov S a := by
  simp only [cov, cluster_append_ne S x h, centroid_append_ne S x h, size_append_ne S x h]

theorem regCov_append_ne (S : Stream d) (x : Pt d) {c a : ℤ} (h : a ≠ c) : regCov (S ++ [(x, c)]) a = regCov S a := by
  rw [regCov, cov_append_ne S x h, ← regCov]

theorem cov_append_new (S : Stream d) (x : Pt d) {c : ℤ} (h : c ∉ labels S) : cov (S ++ [(x, c)]) c = 0 := by
  ext i j
  simp [cov, centroid_append_new S x h, cluster_append_self, cluster_eq_nil h]

theorem regCov_append_new (S : Stream d) (x : Pt d) {c : ℤ} (h : c ∉ labels S) :
    regCov (S ++ [(x, c)]) c = delta d • (1 : Matrix (Fin d) (Fin d) ℝ) := by
  rw [regCov_eq, cov_append_new S x h, zero_add]

/-- The recurrence of the code for the covariance of an existing cluster. -/
theorem cov_append_old (S : Stream d) (x : Pt d) {c : ℤ} (h : c ∈ labels S) :
    cov (S ++ [(x, c)]) c = (((size S c : ℝ) - 1) / size S c) • cov S c
      + (1 / ((size S c + 1 : ℕ) : ℝ)) •
        Matrix.of fun i j => (x i - centroid S c i) * (x j - centroid S c j) := by
  have hn := size_pos h
  have hr := size_pos_real h
  ext i j
  simp only [cov, Matrix.of_apply, Matrix.add_apply, Matrix.smul_apply, smul_eq_mul, cluster_append_self, size_append_self]
  have key := sum_outer (cluster S c) (cluster_ne_nil.mpr h) (centroid (S ++ [(x, c)]) c) i j
  rw [List.map_append, List.sum_append, key]
  simp only [List.map_cons, List.map_nil, List.sum_cons, List.sum_nil, add_zero]
  have hm : meanOf (cluster S c) = centroid S c := rfl
  have hl : ((cluster S c).length : ℝ) = size S c := rfl
  rw [hm, hl, centroid_append_self, centroid_append_self]
  push_cast
  rcases Nat.eq_or_lt_of_le hn with h1 | h1
  · have h1' : size S c = 1 := h1.symm
    have hz : ((cluster S c).map fun p => (p i - centroid S c i) * (p j - centroid S c j)).sum = 0 := by
      obtain ⟨p, hp⟩ := List.length_eq_one_iff.mp h1'
      simp [centroid, hp, meanOf_singleton]
    rw [hz, h1']
    norm_num
    ring
  · have h2 : (size S c : ℝ) - 1 ≠ 0 := by
      have : (1 : ℝ) < size S c := by exact_mod_cast h1
      linarith
    have h3 : (size S c : ℝ) + 1 ≠ 0 := by positivity
    have h4 := hr.ne'
    have h5 : (size S c : ℝ) + 1 - 1 ≠ 0 := by simpa using h4
    field_simp
    ring

theorem cov_posSemidef {S : Stream d} {c : ℤ} : (cov S c).PosSemidef := by
  have hsym : (cov S c).IsHermitian := by
    ext i j
    simp only [Matrix.conjTranspose_apply, cov, Matrix.of_apply, star_trivial]
    congr 3
    funext p
    ring
  refine Matrix.PosSemidef.of_dotProduct_mulVec_nonneg hsym fun w => ?_
  have e : star w ⬝ᵥ ((cov S c).mulVec w) =
      ((cluster S c).map fun p => (∑ i, w i * (p i - centroid S c i)) ^ 2).sum / ((size S c : ℝ) - 1) := by
    simp only [dotProduct, Matrix.mulVec, cov, Matrix.of_apply, star_trivial]
    rw [List.map_congr_left fun (p : Pt d) _ => show (∑ i, w i * (p i - centroid S c i)) ^ 2 =
      ∑ i, ∑ j, w i * (p i - centroid S c i) * (w j * (p j - centroid S c j)) by rw [pow_two, Finset.sum_mul_sum]]
    rw [list_sum_finset, Finset.sum_div]
    apply Finset.sum_congr rfl
    intro i _
    rw [list_sum_finset, Finset.sum_div, Finset.mul_sum]
    apply Finset.sum_congr rfl
    intro j _
    rw [div_mul_eq_mul_div, mul_div_assoc', ← List.sum_map_mul_right, ← List.sum_map_mul_left]
    congr 3
    funext p
    ring
  rw [e]
  by_cases h : size S c = 0
  · have : cluster S c = [] := List.length_eq_zero_iff.mp h
    simp [this]
  · apply div_nonneg
    · apply List.sum_nonneg
      intro r hr
      obtain ⟨p, _, rfl⟩ := List.mem_map.mp hr
      exact sq_nonneg _
    · have : (1 : ℝ) ≤ size S c := by exact_mod_cast Nat.one_le_iff_ne_zero.mpr h
      linarith

theorem regCov_posDef (S : Stream d) (c : ℤ) : (regCov S c).PosDef := by
  rw [regCov_eq]
  exact Matrix.PosDef.posSemidef_add cov_posSemidef (Matrix.PosDef.one.smul (delta_pos d))

theorem pair_posDef (S : Stream d) (a b : ℤ) : (regCov S a + regCov S b).PosDef :=
  (regCov_posDef S a).add (regCov_posDef S b)

theorem pair_det_pos (S : Stream d) (a b : ℤ) : 0 < (regCov S a + regCov S b).det := (pair_posDef S a b).det_pos

theorem gauss_neg (A : Matrix (Fin d) (Fin d) ℝ) (w : Pt d) : gauss A (fun i => -w i) = gauss A w := by
  simp [gauss]

theorem cip_comm (S : Stream d) (a b : ℤ) : cip S a b = cip S b a := by
  unfold cip
  rw [add_comm, ← gauss_neg]
  congr 1
  funext i
  ring

/-! ## Sum over unordered pairs -/

/-- A symmetric function summed over ordered pairs counts every unordered pair twice. -/
theorem sum_pairs {α : Type} [LinearOrder α] (s : Finset α) (g : α → α → ℝ) (hs : ∀ a b, g a b = g b a) :
    ∑ a ∈ s, ∑ b ∈ s with a ≠ b, g a b = 2 * ∑ a ∈ s, ∑ b ∈ s with a < b, g a b := by
  have h1 : ∀ a, ∑ b ∈ s with a ≠ b, g a b = ∑ b ∈ s with a < b, g a b + ∑ b ∈ s with b < a, g a b := by
    intro a
    rw [← Finset.sum_union]
    · apply Finset.sum_congr _ fun _ _ => rfl
      ext b
      simp only [Finset.mem_filter, Finset.mem_union, ne_eq]
      constructor
      · rintro ⟨h, hab⟩
        rcases lt_or_gt_of_ne hab with h' | h'
        · exact Or.inl ⟨h, h'⟩
        · exact Or.inr ⟨h, h'⟩
      · rintro (⟨h, h'⟩ | ⟨h, h'⟩)
        · exact ⟨h, h'.ne⟩
        · exact ⟨h, h'.ne'⟩
    · rw [Finset.disjoint_left]
      intro b hb hb'
      simp only [Finset.mem_filter] at hb hb'
      exact lt_asymm hb.2 hb'.2
  simp only [h1, Finset.sum_add_distrib]
  have h2 : ∑ a ∈ s, ∑ b ∈ s with b < a, g a b = ∑ a ∈ s, ∑ b ∈ s with a < b, g a b := by
    rw [Finset.sum_comm' (t' := s) (s' := fun b => s.filter fun a => b < a)]
    · apply Finset.sum_congr rfl
      intro a _
      apply Finset.sum_congr rfl
      intro b _
      exact hs b a
    · intro a b
      simp only [Finset.mem_filter]
      tauto
  rw [h2]; ring

theorem sum_triuPairs (n : ℕ) (g : ℕ → ℕ → ℝ) :
    ((Arr2.triuPairs n).map fun p => g p.1 p.2).sum = ∑ i ∈ Finset.range n, ∑ j ∈ Finset.range n with i < j, g i j := by
  have h1 : ∀ l : List ℕ, ((l.flatMap fun i => ((List.range n).filter fun j => decide (i < j)).map fun j => (i, j)).map
      fun p => g p.1 p.2).sum = (l.map fun i => ∑ j ∈ Finset.range n with i < j, g i j).sum := by
    intro l
    induction l with
    | nil => rfl
    | cons a l ih =>
      rw [List.flatMap_cons, List.map_append, List.sum_append, ih, List.map_cons, List.sum_cons]
      congr 1
      rw [List.map_map]
      have hn : ((List.range n).filter fun j => decide (a < j)).Nodup := List.nodup_range.filter _
      have := List.sum_toFinset (fun j => g a j) hn
      have e : ((List.range n).filter fun j => decide (a < j)).toFinset = (Finset.range n).filter fun j => a < j := by
        ext j; simp
      rw [e] at this
      rw [this]
      rfl
  rw [Arr2.triuPairs, h1]
  have := List.sum_toFinset (fun i => ∑ j ∈ Finset.range n with i < j, g i j) (List.nodup_range (n := n))
  rw [← this]
  congr 1
  ext; simp

/-- The sum of the entries above the diagonal, in any numbering of the labels, is the sum over unordered pairs. -/
theorem sum_upperVals {ks : List ℤ} {S : Stream d} (hks : KeysOf ks S) (g : ℤ → ℤ → ℝ) (hs : ∀ a b, g a b = g b a) :
    (upperVals ks fun a b => XR.fin (g a b)).sum = .fin (∑ a ∈ labels S, ∑ b ∈ labels S with a < b, g a b) := by
  rw [upperVals, XR.sum_fin (Arr2.triuPairs ks.length) fun p => g (ks.getD p.1 0) (ks.getD p.2 0)]
  congr 1
  rw [sum_triuPairs ks.length fun i j => g (ks.getD i 0) (ks.getD j 0)]
  have h1 := sum_pairs (Finset.range ks.length) (fun i j => g (ks.getD i 0) (ks.getD j 0)) fun _ _ => hs _ _
  have h2 := sum_pairs (labels S) g hs
  have hbij : ∀ f : ℤ → ℝ, ∑ i ∈ Finset.range ks.length, f (ks.getD i 0) = ∑ c ∈ labels S, f c := by
    intro f
    have := List.sum_toFinset (fun i => f (ks.getD i 0)) (List.nodup_range (n := ks.length))
    have e : (List.range ks.length).toFinset = Finset.range ks.length := by ext; simp
    rw [e] at this
    rw [this, ← hks.sum f]
    congr 1
    apply List.ext_getElem
    · simp
    · intro i hi hi'
      have : i < ks.length := by simpa using hi
      simp [this]
  have e : ∑ i ∈ Finset.range ks.length, ∑ j ∈ Finset.range ks.length with i ≠ j, g (ks.getD i 0) (ks.getD j 0) =
      ∑ a ∈ labels S, ∑ b ∈ labels S with a ≠ b, g a b := by
    rw [← hbij]
    apply Finset.sum_congr rfl
    intro i hi
    rw [Finset.sum_filter, Finset.sum_filter, ← hbij]
    apply Finset.sum_congr rfl
    intro j hj
    have hi := Finset.mem_range.mp hi
    have hj := Finset.mem_range.mp hj
    have e1 : ks.getD i 0 = ks[i] := by simp [hi]
    have e2 : ks.getD j 0 = ks[j] := by simp [hj]
    have : ks.getD i 0 ≠ ks.getD j 0 ↔ i ≠ j := by
      rw [e1, e2]; exact (List.Nodup.getElem_inj_iff hks.nodup).not
    simp only [this]
  rw [e, h2] at h1
  linarith

end Verif
