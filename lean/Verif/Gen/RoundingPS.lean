import Verif.Gen.RoundingBatch
import Mathlib.Analysis.Complex.ExponentialBounds

/-!
# Error of the value of PS

As in `RoundingIndex`, for any accurate statistics of the clusters.  The contributions of the clusters may cancel, so the error is absolute.
-/

set_option linter.unusedSectionVars false

namespace Verif.Gen

/-- The standard model for PS: negation is exact, a quotient of two sizes has error `u`, and `np.exp` of a number up to one has error `κ`. -/
structure StandardExp (F : Type) [Arith F] (val : F → ℝ) (fin : F → Prop) (u κ : ℝ) (N : ℕ) : Prop where
  neg : ∀ a, fin a → fin (-a) ∧ val (-a) = -val a
  ratio : ∀ m n : ℕ, 1 ≤ m → m ≤ n → n ≤ N → fin (Arith.intDiv m n : F) ∧ |val (Arith.intDiv m n : F) - (m : ℝ) / n| ≤ u
  exp : ∀ a, fin a → val a ≤ 1 → fin (Arith.exp a) ∧ |val (Arith.exp a) - Real.exp (val a)| ≤ κ

section
variable {F : Type} [Arith F] (d : ℕ) (ks : List ℤ) (st : ℤ → Stat F) (t : ℤ → ℤ → F)

/-- The mean of the centroids -/
def psBar : List F := colMeans d (ks.map fun c => (st c).v)

/-- The mean squared distance of the centroids to their mean -/
def psBeta : F :=
  Arith.pySum (ks.map fun c => Arith.dot (List.zipWith (· - ·) (st c).v (psBar d ks st)) (List.zipWith (· - ·) (st c).v (psBar d ks st))) /
    Arith.ofNat ks.length

/-- The contribution of a cluster -/
def psPart (c : ℤ) : F :=
  Arith.intDiv (st c).n ((ks.map fun c => (st c).n).foldl max 0 : ℕ) -
    Arith.exp (-low ((ks.filter (· ≠ c)).map fun b => t c b) / psBeta d ks st)

end

namespace Rounding

/-- The exponential of a number that is known up to an error. -/
theorem exp_near {p q δ : ℝ} (hq : 0 ≤ q) (hδ0 : 0 ≤ δ) (hδ : 2 * δ ≤ 1) (h : |p - q| ≤ δ * (1 + q)) :
    |Real.exp (-p) - Real.exp (-q)| ≤ 4 * δ := by
  have key : ∀ a b : ℝ, b ≤ a → a ≤ 1 / 2 - q / 2 → a - b ≤ δ * (1 + q) → |Real.exp a - Real.exp b| ≤ 4 * δ := by
    intro a b hab ha hd
    rw [abs_of_nonneg (sub_nonneg.mpr (Real.exp_le_exp.mpr hab))]
    have h1 : Real.exp a - Real.exp b ≤ Real.exp a * (a - b) := by
      have e : Real.exp b = Real.exp a * Real.exp (b - a) := by rw [← Real.exp_add]; congr 1; ring
      have h2 := mul_le_mul_of_nonneg_left (Real.add_one_le_exp (b - a)) (Real.exp_pos a).le
      rw [e]
      linarith
    have h2 : Real.exp a ≤ Real.exp (1 / 2) * Real.exp (-(q / 2)) := by
      rw [← Real.exp_add]
      exact Real.exp_le_exp.mpr (by linarith)
    have h3 : (1 + q) * Real.exp (-(q / 2)) ≤ 2 := by
      have e : Real.exp (-(q / 2)) = 1 / Real.exp (q / 2) := by rw [Real.exp_neg, one_div]
      rw [e, mul_one_div, div_le_iff₀ (Real.exp_pos _)]
      have := Real.add_one_le_exp (q / 2)
      linarith
    have h4 : Real.exp (1 / 2) ≤ 2 := by
      have h5 : Real.exp (1 / 2) * Real.exp (1 / 2) ≤ 2 * 2 := by
        rw [← Real.exp_add]
        norm_num
        have := Real.exp_one_lt_d9
        linarith
      exact abs_le_of_sq_le_sq' (by linarith [sq (Real.exp (1 / 2))]) (by norm_num) |>.2
    have h5 := mul_le_mul h2 hd (by linarith) (by positivity)
    have h6 := mul_le_mul_of_nonneg_left h3 (show 0 ≤ Real.exp (1 / 2) * δ by positivity)
    have h7 := mul_le_mul_of_nonneg_right h4 (show 0 ≤ 2 * δ by positivity)
    linarith
  have h1 := abs_le.mp h
  have h2 := mul_le_mul_of_nonneg_right hδ (show 0 ≤ 1 + q by linarith)
  rcases le_total p q with hpq | hpq
  · exact key _ _ (by linarith) (by linarith [h1.1]) (by linarith [h1.1])
  · rw [abs_sub_comm]
    exact key _ _ (by linarith) (by linarith) (by linarith [h1.2])

/-- A quotient of two numbers that are known up to an error, the numerator possibly small. -/
theorem quot_near {x a b A B : ℝ} (hx0 : 0 ≤ x) (hx : 1000 * x ≤ 1) (ha : 0 ≤ a) (hb : 0 < b) (hA : |A - a| ≤ 110 * (x * b))
    (hB : |B - b| ≤ 143 * (x * b)) : 0 < B ∧ |A / B - a / b| ≤ 167 * x * (1 + a / b) := by
  have hxb : 1000 * (x * b) ≤ b := by have := mul_le_mul_of_nonneg_right hx hb.le; linarith
  have hxb0 : 0 ≤ x * b := by positivity
  have hB0 : 857 / 1000 * b ≤ B := by linarith [(abs_le.mp hB).1]
  have hBp : 0 < B := by linarith
  refine ⟨hBp, ?_⟩
  obtain ⟨q, hq⟩ : ∃ q, q = a / b := ⟨_, rfl⟩
  have hqb : q * b = a := by rw [hq]; field_simp
  have hq0 : 0 ≤ q := by rw [hq]; positivity
  rw [← hq]
  have e : A / B - q = ((A - a) - q * (B - b)) / B := by
    rw [← hqb]; field_simp; ring
  rw [e, abs_div, abs_of_pos hBp, div_le_iff₀ hBp]
  have h1 := abs_sub (A - a) (q * (B - b))
  rw [abs_mul, abs_of_nonneg hq0] at h1
  have h2 := mul_le_mul_of_nonneg_left hB hq0
  have h3 := mul_le_mul_of_nonneg_left hB0 (show 0 ≤ 167 * x * (1 + q) by positivity)
  have h4 : 0 ≤ q * (x * b) := by positivity
  linarith

theorem abs_list_sum (l : List ℝ) : |l.sum| ≤ (l.map abs).sum := by
  induction l with
  | nil => simp
  | cons a l ih =>
    rw [List.sum_cons, List.map_cons, List.sum_cons]
    have := abs_add_le a l.sum
    linarith

variable {F : Type} [Arith F] {val : F → ℝ} {fin : F → Prop} {u η Ω M γ κ : ℝ} {N d : ℕ}
variable {S : Samples F} {ks : List ℤ} {st : ℤ → Stat F} {w : List F}
variable (h : Setting F val fin u η Ω M γ N d) (B : StandardBatch F val fin u Ω N d) (D : Inputs val fin M N d S)
  (T : Tables val fin M (γ * N) d S ks st w)
include h B D T

/-- One feature of the mean of the centroids. -/
theorem Setting.psBar (hk : ks ≠ []) {j : ℕ} (hj : j < d) :
    fin ((psBar d ks st).getD j 0) ∧
    |val ((Gen.psBar d ks st).getD j 0) - (ks.map fun c => mean val (own S c) j).sum / ks.length| ≤ 13 * (γ * N * M) ∧
    |(ks.map fun c => mean val (own S c) j).sum / ks.length| ≤ M := by
  obtain ⟨u0, uγ, γN, η0, ηu, ηγ, ηM, M0, Ω1, Ω2⟩ := h.moderate
  obtain ⟨e1, e2, e3, e4, -⟩ := h.eps
  have hkN : ks.length ≤ N := by
    rw [T.length]
    exact (Inputs.clusters_le (S := S)).trans D.length
  have hlN : (ks.length : ℝ) ≤ N := by exact_mod_cast hkN
  have hn1 : (1 : ℝ) ≤ ks.length := by exact_mod_cast List.length_pos_iff.mpr hk
  have hn0 : (0 : ℝ) < ks.length := by linarith
  have hNM : ks.length * M ≤ N * M := mul_le_mul_of_nonneg_right hlN M0
  have hM1 : M ≤ ks.length * M := by have := mul_le_mul_of_nonneg_right hn1 M0; linarith
  have hεM : 128 * (γ * N * M) ≤ M := by have := mul_le_mul_of_nonneg_right e2 M0; linarith
  have hεM0 : 0 ≤ γ * N * M := by positivity
  have hv := fun c (hc : c ∈ ks) => (T.v c hc).near j hj
  have hm : |(ks.map fun c => mean val (own S c) j).sum / ks.length| ≤ M := by
    rw [abs_div, abs_of_pos hn0, div_le_iff₀ hn0]
    have h1 := abs_list_sum (ks.map fun c => mean val (own S c) j)
    have h2 : ((ks.map fun c => mean val (own S c) j).map abs).sum ≤ (ks.map fun _ => M).sum := by
      rw [List.map_map]
      exact List.sum_le_sum fun c hc => (hv c hc).2.2
    rw [map_sum_const] at h2
    linarith
  obtain ⟨sum, hsum, hc⟩ := B.colMean
  obtain ⟨f1, i1⟩ := sum_near hsum u0 ks hkN (f := fun c => (st c).v.getD j 0) (A := fun c => mean val (own S c) j)
    (e := fun _ => 7 * (γ * N * M)) (b := fun _ => 17 / 16 * M)
    (fun c hc => ⟨(hv c hc).1, (hv c hc).2.1⟩) (fun c hc => by linarith [(hv c hc).2.2])
    (by rw [map_sum_const]; linarith)
  rw [map_sum_const, map_sum_const] at i1
  obtain ⟨g1, g2⟩ := h.full.ofNat _ hkN
  rw [Gen.psBar, colMeans_getD hj, hc, List.length_map, List.length_map, List.map_map, show ((fun x : List F => x.getD j 0) ∘ fun c => (st c).v) =
    fun c => (st c).v.getD j 0 from rfl]
  generalize sum (ks.map fun c => (st c).v.getD j 0) = s at *
  have hnu : ks.length * u ≤ γ * N := by
    have := mul_le_mul hlN uγ u0 (by linarith)
    linarith
  have i2 : |val s / ks.length - (ks.map fun c => mean val (own S c) j).sum / ks.length| ≤ 37 / 4 * (γ * N * M) := by
    rw [← sub_div, abs_div, abs_of_pos hn0, div_le_iff₀ hn0]
    have h1 := mul_le_mul_of_nonneg_right hnu (show 0 ≤ 17 / 8 * (ks.length * M) by positivity)
    have h2 : 0 ≤ γ * N * M * ks.length := by positivity
    linarith
  have i3 : |val s / ks.length| ≤ 3 / 2 * M := by have := abs_le_of_err i2; linarith
  obtain ⟨f2, i4⟩ := h.full.div s (Arith.ofNat ks.length) f1 g1 (by rw [g2]; exact hn0.ne') (by rw [g2]; linarith)
  rw [g2] at i4
  have huM := mul_le_mul_of_nonneg_right e1 M0
  refine ⟨f2, ?_, hm⟩
  have h1 := abs_add_le (val (s / Arith.ofNat ks.length) - val s / ks.length)
    (val s / ks.length - (ks.map fun c => mean val (own S c) j).sum / ks.length)
  rw [sub_add_sub_cancel] at h1
  have h2 := mul_le_mul_of_nonneg_left i3 u0
  linarith

/-- The real quantity -/
noncomputable def psDist (val : F → ℝ) (d : ℕ) (S : Samples F) (ks : List ℤ) (c : ℤ) : ℝ :=
  ∑ j ∈ Finset.range d, (mean val (own S c) j - (ks.map fun c => mean val (own S c) j).sum / ks.length) ^ 2

/-- The squared distance of a centroid to the mean of the centroids. -/
theorem Setting.psDot {c : ℤ} (hc : c ∈ ks) :
    fin (Arith.dot (List.zipWith (· - ·) (st c).v (Gen.psBar d ks st)) (List.zipWith (· - ·) (st c).v (Gen.psBar d ks st))) ∧
    |val (Arith.dot (List.zipWith (· - ·) (st c).v (Gen.psBar d ks st)) (List.zipWith (· - ·) (st c).v (Gen.psBar d ks st))) -
      psDist val d S ks c| ≤ 126 * (γ * N * (d * M ^ 2)) ∧ 0 ≤ psDist val d S ks c ∧ psDist val d S ks c ≤ 4 * (d * M ^ 2) := by
  obtain ⟨u0, uγ, γN, η0, ηu, ηγ, ηM, M0, Ω1, Ω2⟩ := h.moderate
  obtain ⟨e1, e2, e3, e4, -⟩ := h.eps
  have hk : ks ≠ [] := List.ne_nil_of_mem hc
  have hN1 : (1 : ℝ) ≤ N := by exact_mod_cast h.N1
  have hεM : 128 * (γ * N * M) ≤ M := by have := mul_le_mul_of_nonneg_right e2 M0; linarith
  have hεM0 : 0 ≤ γ * N * M := by positivity
  have hNM : M ≤ N * M := by have := mul_le_mul_of_nonneg_right hN1 M0; linarith
  have huM := mul_le_mul_of_nonneg_right e1 M0
  obtain ⟨m, hm⟩ : ∃ m : ℕ → ℝ, m = fun j => mean val (own S c) j - (ks.map fun c => mean val (own S c) j).sum / ks.length := ⟨_, rfl⟩
  have hbar : (Gen.psBar d ks st).length = d := by simp [Gen.psBar, colMeans]
  have hv := (T.v c hc).len
  obtain ⟨D', hD'⟩ : ∃ D', D' = List.zipWith (· - ·) (st c).v (Gen.psBar d ks st) := ⟨_, rfl⟩
  have hlen : D'.length = d := by simp [hD', hv, hbar]
  have hj : ∀ j < d, fin (D'.getD j 0) ∧ |val (D'.getD j 0) - m j| ≤ 23 * (γ * N * M) ∧ |m j| ≤ 2 * M := by
    intro j hj
    obtain ⟨a1, a2, a3⟩ := (T.v c hc).near j hj
    obtain ⟨b1, b2, b3⟩ := h.psBar B D T hk hj
    rw [hD', getD_zip (by rw [hv]; exact hj) (by rw [hbar]; exact hj), hm]
    simp only
    generalize (ks.map fun c => mean val (own S c) j).sum / ks.length = r at *
    generalize (st c).v.getD j 0 = a at *
    generalize (Gen.psBar d ks st).getD j 0 = b at *
    generalize mean val (own S c) j = p at *
    have h1 : |val a - val b - (p - r)| ≤ 20 * (γ * N * M) := by
      have := abs_sub (val a - p) (val b - r)
      rw [show val a - p - (val b - r) = val a - val b - (p - r) by ring] at this
      linarith
    have h2 : |p - r| ≤ 2 * M := by have := abs_sub p r; linarith
    have h3 : |val a - val b| ≤ 3 * M := by have := abs_le_of_err h1; linarith
    obtain ⟨f, i⟩ := h.full.sub a b a1 b1 (by linarith)
    refine ⟨f, ?_, h2⟩
    have h4 := abs_add_le (val (a - b) - (val a - val b)) (val a - val b - (p - r))
    rw [sub_add_sub_cancel] at h4
    have h5 := mul_le_mul_of_nonneg_left h3 u0
    linarith
  have hs : psDist val d S ks c = ∑ j ∈ Finset.range d, m j ^ 2 := by rw [psDist, hm]
  have hMM : 0 ≤ M ^ 2 := by positivity
  have hdM : 0 ≤ d * M ^ 2 := by positivity
  have hNd : d * M ^ 2 ≤ N * (d * M ^ 2) := by have := mul_le_mul_of_nonneg_right hN1 hdM; linarith
  have hm4 : ∀ j < d, m j ^ 2 ≤ 4 * M ^ 2 := by
    intro j hj'
    have := pow_le_pow_left₀ (abs_nonneg _) (hj j hj').2.2 2
    rw [sq_abs] at this
    linarith
  have hD3 : ∀ j < d, |val (D'.getD j 0)| ≤ 5 / 2 * M := by
    intro j hj'
    have := abs_le_of_err (hj j hj').2.1
    linarith [(hj j hj').2.2]
  have hsq : ∀ j < d, |val (D'.getD j 0) * val (D'.getD j 0)| ≤ 25 / 4 * M ^ 2 := by
    intro j hj'
    rw [abs_mul]
    have := mul_le_mul (hD3 j hj') (hD3 j hj') (abs_nonneg _) (by linarith)
    linarith
  have hsum0 : 0 ≤ ∑ j ∈ Finset.range d, |val (D'.getD j 0) * val (D'.getD j 0)| := Finset.sum_nonneg fun j _ => abs_nonneg _
  have hsum : ∑ j ∈ Finset.range d, |val (D'.getD j 0) * val (D'.getD j 0)| ≤ d * (25 / 4 * M ^ 2) := by
    have := Finset.sum_le_card_nsmul (Finset.range d) _ _ fun j hj' => hsq j (Finset.mem_range.mp hj')
    simpa using this
  have hfin := fin_of_getD hlen fun j hj' => (hj j hj').1
  obtain ⟨f, i⟩ := h.full.dot D' D' hlen hlen hfin hfin (by linarith)
  have hdiff : |∑ j ∈ Finset.range d, val (D'.getD j 0) * val (D'.getD j 0) - ∑ j ∈ Finset.range d, m j ^ 2| ≤ d * (207 / 2 * (γ * N * M ^ 2)) := by
    rw [← Finset.sum_sub_distrib]
    refine (Finset.abs_sum_le_sum_abs _ _).trans ?_
    have : ∀ j ∈ Finset.range d, |val (D'.getD j 0) * val (D'.getD j 0) - m j ^ 2| ≤ 207 / 2 * (γ * N * M ^ 2) := by
      intro j hj'
      obtain ⟨-, h1, h2⟩ := hj j (Finset.mem_range.mp hj')
      have h3 := hD3 j (Finset.mem_range.mp hj')
      rw [show val (D'.getD j 0) * val (D'.getD j 0) - m j ^ 2 = (val (D'.getD j 0) - m j) * (val (D'.getD j 0) + m j) by ring, abs_mul]
      have h4 := abs_add_le (val (D'.getD j 0)) (m j)
      have h5 := mul_le_mul h1 (show |val (D'.getD j 0) + m j| ≤ 9 / 2 * M by linarith) (abs_nonneg _) (by linarith)
      linarith
    have := Finset.sum_le_card_nsmul (Finset.range d) _ _ this
    simpa using this
  rw [← hD', hs]
  refine ⟨f, ?_, Finset.sum_nonneg fun j _ => by positivity, ?_⟩
  · have h1 := abs_add_le (val (Arith.dot D' D') - ∑ j ∈ Finset.range d, val (D'.getD j 0) * val (D'.getD j 0))
      (∑ j ∈ Finset.range d, val (D'.getD j 0) * val (D'.getD j 0) - ∑ j ∈ Finset.range d, m j ^ 2)
    rw [sub_add_sub_cancel] at h1
    have hγ0 : 0 ≤ γ := u0.trans uγ
    have hγN1 : γ ≤ γ * N := by have := mul_le_mul_of_nonneg_left hN1 hγ0; linarith
    have h2 := mul_le_mul hγN1 hsum hsum0 e3
    have h3 := mul_le_mul_of_nonneg_left e4 (show (0 : ℝ) ≤ d by positivity)
    have h4 : 0 ≤ γ * N * (d * M ^ 2) := by positivity
    linarith
  · have := Finset.sum_le_card_nsmul (Finset.range d) _ _ fun j hj' => hm4 j (Finset.mem_range.mp hj')
    simp at this
    linarith

omit h B D in
theorem Tables.beta_real : Spec.beta (real val d S) = (ks.map (psDist val d S ks)).sum / ks.length := by
  have e : ∀ f : ℤ → ℝ, ∑ c ∈ Spec.labels (real val d S), f c = (ks.map f).sum := by
    intro f
    rw [labels_real, List.sum_toFinset _ (order_nodup S)]
    exact ((T.perm.map f).sum_eq).symm
  rw [Spec.beta, numClusters_real, ← T.length, e]
  congr 3
  funext c
  rw [psDist, Spec.dist2, Finset.sum_range]
  refine Finset.sum_congr rfl fun i _ => ?_
  rw [Spec.centroidMean, numClusters_real, ← T.length, e, centroid_real]
  simp only [centroid_real]

/-- The mean squared distance of the centroids to their mean. -/
theorem Setting.psBeta (hk : ks ≠ []) :
    fin (psBeta d ks st) ∧ |val (Gen.psBeta d ks st) - Spec.beta (real val d S)| ≤ 143 * (γ * N * (d * M ^ 2)) ∧
    0 ≤ Spec.beta (real val d S) ∧ Spec.beta (real val d S) ≤ 4 * (d * M ^ 2) := by
  obtain ⟨u0, uγ, γN, η0, ηu, ηγ, ηM, M0, Ω1, Ω2⟩ := h.moderate
  obtain ⟨e1, e2, e3, e4, -⟩ := h.eps
  have hkN : ks.length ≤ N := by
    rw [T.length]
    exact (Inputs.clusters_le (S := S)).trans D.length
  have hlN : (ks.length : ℝ) ≤ N := by exact_mod_cast hkN
  have hn1 : (1 : ℝ) ≤ ks.length := by exact_mod_cast List.length_pos_iff.mpr hk
  have hn0 : (0 : ℝ) < ks.length := by linarith
  have hdM : 0 ≤ d * M ^ 2 := by positivity
  have hd1 : (1 : ℝ) ≤ d := by exact_mod_cast h.d1
  have hMd : M ^ 2 ≤ d * M ^ 2 := by have := mul_le_mul_of_nonneg_right hd1 (show 0 ≤ M ^ 2 by positivity); linarith
  have hNd : ks.length * (d * M ^ 2) ≤ N * (d * M ^ 2) := mul_le_mul_of_nonneg_right hlN hdM
  have hd2 : d * M ^ 2 ≤ ks.length * (d * M ^ 2) := by have := mul_le_mul_of_nonneg_right hn1 hdM; linarith
  have hεd : 128 * (γ * N * (d * M ^ 2)) ≤ d * M ^ 2 := by have := mul_le_mul_of_nonneg_right e2 hdM; linarith
  have hεd0 : 0 ≤ γ * N * (d * M ^ 2) := by positivity
  have hp := fun c (hc : c ∈ ks) => h.psDot B D T hc
  obtain ⟨f1, i1⟩ := sum_near (pySums h.full u0 h.du1.2) u0 ks hkN (A := psDist val d S ks)
    (e := fun _ => 126 * (γ * N * (d * M ^ 2))) (b := fun _ => 5 * (d * M ^ 2))
    (fun c hc => ⟨(hp c hc).1, (hp c hc).2.1⟩) (fun c hc => by
      rw [abs_of_nonneg (hp c hc).2.2.1]
      linarith [(hp c hc).2.2.2]) (by rw [map_sum_const]; linarith)
  rw [map_sum_const, map_sum_const] at i1
  obtain ⟨g1, g2⟩ := h.full.ofNat _ hkN
  rw [Gen.psBeta, T.beta_real]
  have hr0 : 0 ≤ (ks.map (psDist val d S ks)).sum := List.sum_nonneg (by
    intro x hx
    obtain ⟨c, hc, rfl⟩ := List.mem_map.mp hx
    exact (hp c hc).2.2.1)
  have hr4 : (ks.map (psDist val d S ks)).sum ≤ ks.length * (4 * (d * M ^ 2)) := by
    rw [← map_sum_const ks]
    exact List.sum_le_sum fun c hc => (hp c hc).2.2.2
  generalize Arith.pySum (ks.map fun c => Arith.dot (List.zipWith (· - ·) (st c).v (Gen.psBar d ks st))
    (List.zipWith (· - ·) (st c).v (Gen.psBar d ks st))) = s at *
  generalize (ks.map (psDist val d S ks)).sum = r at *
  have hnu : ks.length * u ≤ γ * N := by
    have := mul_le_mul hlN uγ u0 (by linarith)
    linarith
  have b0 : 0 ≤ r / ks.length := by positivity
  have b4 : r / ks.length ≤ 4 * (d * M ^ 2) := by rw [div_le_iff₀ hn0]; linarith
  have i2 : |val s / ks.length - r / ks.length| ≤ 136 * (γ * N * (d * M ^ 2)) := by
    rw [← sub_div, abs_div, abs_of_pos hn0, div_le_iff₀ hn0]
    have h1 := mul_le_mul_of_nonneg_right hnu (show 0 ≤ 10 * (ks.length * (d * M ^ 2)) by positivity)
    linarith
  have i3 : |val s / ks.length| ≤ 41 / 8 * (d * M ^ 2) := by
    have := abs_le_of_err i2
    rw [abs_of_nonneg b0] at this
    linarith
  obtain ⟨f2, i4⟩ := h.full.div s (Arith.ofNat ks.length) f1 g1 (by rw [g2]; exact hn0.ne') (by rw [g2]; linarith)
  rw [g2] at i4
  refine ⟨f2, ?_, b0, b4⟩
  have h1 := abs_add_le (val (s / Arith.ofNat ks.length) - val s / ks.length) (val s / ks.length - r / ks.length)
  rw [sub_add_sub_cancel] at h1
  have h2 := mul_le_mul e1 i3 (abs_nonneg _) e3
  have h3 := mul_le_mul_of_nonneg_left hMd e3
  linarith

/-- `t` has the squared distances of the clusters in `ks`, in both orders of the arguments. -/
def IsTable2 (ks : List ℤ) (st : ℤ → Stat F) (t : ℤ → ℤ → F) : Prop :=
  ∀ a ∈ ks, ∀ b ∈ ks, a ≠ b → Entry (t a b) (between .PS (st a) (st b)) ∨ Entry (t a b) (between .PS (st b) (st a))

omit h B D in
/-- The minimum over the other clusters is attained. -/
theorem Tables.sInf_other (g : ℤ → ℝ) (hk : 1 < ks.length) (c : ℤ) : ks.filter (· ≠ c) ≠ [] ∧
    (∃ b ∈ ks.filter (· ≠ c), g b = sInf (Spec.otherValues (real val d S) c g)) ∧
    ∀ b ∈ ks.filter (· ≠ c), sInf (Spec.otherValues (real val d S) c g) ≤ g b := by
  have hne : ks.filter (· ≠ c) ≠ [] := by
    intro e
    rw [List.filter_eq_nil_iff] at e
    have h1 : ∀ b ∈ ks, b = c := fun b hb => by simpa using e b hb
    have h2 := (List.eq_replicate_iff.mpr ⟨rfl, h1⟩ : ks = List.replicate ks.length c)
    have h3 := T.nodup
    rw [h2, List.nodup_replicate] at h3
    omega
  have hset : Spec.otherValues (real val d S) c g = g '' {b | b ∈ ks.filter (· ≠ c)} := by
    ext r
    simp only [Spec.otherValues, labels_real, List.mem_toFinset, ← T.mem, Set.mem_image, Set.mem_ofPred_eq, List.mem_filter,
      decide_eq_true_eq]
    constructor
    · rintro ⟨b, hb, hbc, rfl⟩
      exact ⟨b, ⟨hb, hbc⟩, rfl⟩
    · rintro ⟨b, ⟨hb, hbc⟩, rfl⟩
      exact ⟨b, hb, hbc, rfl⟩
  have hfin : (Spec.otherValues (real val d S) c g).Finite := by
    rw [hset]
    exact (List.finite_toSet _).image _
  have hnon : (Spec.otherValues (real val d S) c g).Nonempty := by
    obtain ⟨b, hb⟩ := List.exists_mem_of_ne_nil _ hne
    rw [hset]
    exact ⟨_, b, hb, rfl⟩
  refine ⟨hne, ?_, fun b hb => csInf_le hfin.bddBelow ?_⟩
  · have h1 := hnon.csInf_mem hfin
    conv at h1 => lhs; rw [hset]
    exact h1
  · rw [hset]
    exact ⟨b, hb, rfl⟩

omit B D in
/-- The squared distance to the nearest centroid. -/
theorem Setting.psLow {t : ℤ → ℤ → F} (ht : IsTable2 ks st t) (hk : 1 < ks.length) {c : ℤ} (hc : c ∈ ks) :
    fin (low ((ks.filter (· ≠ c)).map fun b => t c b)) ∧
    |val (low ((ks.filter (· ≠ c)).map fun b => t c b)) - sInf (Spec.otherValues (real val d S) c fun b => Spec.sep (real val d S) c b)| ≤
      110 * (γ * N * (d * M ^ 2)) ∧
    0 ≤ sInf (Spec.otherValues (real val d S) c fun b => Spec.sep (real val d S) c b) ∧
    sInf (Spec.otherValues (real val d S) c fun b => Spec.sep (real val d S) c b) ≤ 4 * (d * M ^ 2) := by
  have hmem : ∀ b, b ∈ ks.filter (· ≠ c) ↔ b ∈ ks ∧ b ≠ c := by simp
  obtain ⟨hne, ⟨b, hb, e⟩, hle⟩ := T.sInf_other (fun b => Spec.sep (real val d S) c b) hk c
  have ht' : ∀ b ∈ ks.filter (· ≠ c), fin (t c b) ∧ |val (t c b) - Spec.sep (real val d S) c b| ≤ 110 * (γ * N * (d * M ^ 2)) := by
    intro b hb
    obtain ⟨hb1, hb2⟩ := (hmem b).mp hb
    rcases ht c hc b hb1 (Ne.symm hb2) with hE | hE
    · exact h.sep_entry T hc hb1 hE
    · rw [sep_comm]
      exact h.sep_entry T hb1 hc hE
  obtain ⟨h1, h2⟩ := low_near h.full hne ht' ⟨b, hb, e⟩ hle
  have h3 := h.sep T hc ((hmem b).mp hb).1
  rw [e] at h3
  exact ⟨h1, h2, h3.2.2.1, h3.2.2.2⟩

omit h B D in
/-- The largest cluster. -/
theorem Tables.largest (D : Inputs val fin M N d S) : (ks.map fun c => (st c).n).foldl max 0 = Spec.maxSize (real val d S) ∧
    ∀ c ∈ ks, (st c).n = Spec.size (real val d S) c ∧ 1 ≤ (st c).n ∧ (st c).n ≤ Spec.maxSize (real val d S) ∧
      Spec.maxSize (real val d S) ≤ N := by
  have hn : ∀ c ∈ ks, (st c).n = Spec.size (real val d S) c := fun c hc => by rw [size_real, T.n c hc]
  have hfold : ∀ (l : List ℤ) (a : ℕ), (l.map fun c => (st c).n).foldl max a = max a (l.toFinset.sup fun c => (st c).n) := by
    intro l
    induction l with
    | nil => simp
    | cons c l ih =>
      intro a
      rw [List.map_cons, List.foldl_cons, ih, List.toFinset_cons, Finset.sup_insert, max_assoc]
  have hlab : Spec.labels (real val d S) = ks.toFinset := by
    rw [labels_real]
    exact (List.toFinset_eq_of_perm _ _ T.perm).symm
  have h1 : (ks.map fun c => (st c).n).foldl max 0 = Spec.maxSize (real val d S) := by
    rw [hfold, Spec.maxSize, hlab, Nat.zero_max]
    exact Finset.sup_congr rfl fun c hc => hn c (List.mem_toFinset.mp hc)
  refine ⟨h1, fun c hc => ⟨hn c hc, ?_, ?_, ?_⟩⟩
  · rw [T.n c hc]
    exact List.length_pos_iff.mpr (Inputs.own_ne (T.mem.mp hc))
  · rw [hn c hc, Spec.maxSize]
    exact Finset.le_sup (f := Spec.size (real val d S)) (by rw [hlab]; exact List.mem_toFinset.mpr hc)
  · rw [Spec.maxSize]
    refine Finset.sup_le fun b _ => ?_
    rw [size_real]
    exact Inputs.own_le.trans D.length

variable (E : StandardExp F val fin u κ N) (hu : 0 < u) (hη : η ≤ u ^ 2) (hΩ : 1 ≤ u * Ω) (hΩ5 : 5 * N ≤ Ω) (hκ : 2 * κ ≤ 1) (hM : 0 < M) {β : ℝ}
  (hβ : 1000 * (γ * N) ≤ β) (hS : β * (d * M ^ 2) ≤ Spec.beta (real val d S))
include E hu hη hΩ hΩ5 hκ hM hβ hS

/-- The contribution of a cluster. -/
theorem Setting.psPart {t : ℤ → ℤ → F} (ht : IsTable2 ks st t) (hk : 1 < ks.length) {c : ℤ} (hc : c ∈ ks) :
    fin (psPart d ks st t c) ∧
    |val (Gen.psPart d ks st t c) - ((Spec.size (real val d S) c : ℝ) / Spec.maxSize (real val d S) -
      Real.exp (-sInf (Spec.otherValues (real val d S) c fun b => Spec.sep (real val d S) c b) / Spec.beta (real val d S)))| ≤
      724 * (γ * N / β) + κ ∧
    |(Spec.size (real val d S) c : ℝ) / Spec.maxSize (real val d S) -
      Real.exp (-sInf (Spec.otherValues (real val d S) c fun b => Spec.sep (real val d S) c b) / Spec.beta (real val d S))| ≤ 1 := by
  have u0 := hu.le
  obtain ⟨e1, e2, e3, e4, -⟩ := h.eps
  have hd1 : (1 : ℝ) ≤ d := by exact_mod_cast h.d1
  have hN1 : (1 : ℝ) ≤ N := by exact_mod_cast h.N1
  have hT : 0 < d * M ^ 2 := by positivity
  obtain ⟨f1, i1, l0, l4⟩ := h.psLow T ht hk hc
  obtain ⟨f2, i2, b0, b4⟩ := h.psBeta B D T (List.ne_nil_of_mem hc)
  obtain ⟨hn, hs⟩ := T.largest D
  obtain ⟨s1, s2, s3, s4⟩ := hs c hc
  rw [Gen.psPart, hn, ← s1]
  have hβ4 : β ≤ 4 := le_of_mul_le_mul_right (hS.trans b4) hT
  obtain ⟨hβ0, hε, hx0, hx1, hux, hxβ⟩ := h.beta hu hβ hβ4
  generalize (st c).n = m at *
  generalize Spec.maxSize (real val d S) = n at *
  generalize low ((ks.filter (· ≠ c)).map fun b => t c b) = A at *
  generalize Gen.psBeta d ks st = b' at *
  generalize Spec.beta (real val d S) = b at *
  generalize sInf (Spec.otherValues (real val d S) c fun b => Spec.sep (real val d S) c b) = a at *
  generalize γ * N / β = x at *
  have hb0 : 0 < b := (mul_pos hβ0 hT).trans_le hS
  have hxT : γ * N * (d * M ^ 2) ≤ x * b := by
    have := mul_le_mul_of_nonneg_left hS hx0.le
    rw [← hxβ]
    linarith
  obtain ⟨hB0, i3⟩ := quot_near hx0.le hx1 l0 hb0 (i1.trans (by linarith)) (i2.trans (by linarith))
  obtain ⟨g1, g2⟩ := E.neg A f1
  have hq0 : 0 ≤ a / b := by positivity
  have hqx : a / b * (250 * u) ≤ 1 := by
    have h1 : a / b * (β * (d * M ^ 2)) ≤ 4 * (d * M ^ 2) := by
      have h2 := mul_le_mul_of_nonneg_left hS hq0
      have h3 : a / b * b = a := by field_simp
      linarith
    have h2 : a / b * β ≤ 4 := le_of_mul_le_mul_right (by linarith) hT
    have h3 := mul_le_mul_of_nonneg_left (show 1000 * u ≤ β by linarith) hq0
    linarith
  obtain ⟨q, hq⟩ : ∃ q, q = a / b := ⟨_, rfl⟩
  rw [show -a / b = -(a / b) by ring]
  rw [← hq] at i3 hq0 hqx ⊢
  have hqx' : 1000 * (x * q) ≤ q := by have := mul_le_mul_of_nonneg_right hx1 hq0; linarith
  have hxq0 : 0 ≤ x * q := by positivity
  have i4 : |val A / val b'| ≤ 6 / 5 * (1 + q) := by
    have := abs_le_of_err i3
    rw [abs_of_nonneg hq0] at this
    linarith
  have hu128 : 128 * u ≤ 1 := by linarith
  have hΩq : 6 / 5 * (1 + q) ≤ Ω := by
    refine le_of_mul_le_mul_left (a := u) ?_ hu
    linarith
  obtain ⟨g3, i5⟩ := h.full.div (-A) b' g1 f2 hB0.ne' (by rw [g2, neg_div, abs_neg]; linarith)
  rw [g2, neg_div, abs_neg] at i5
  have hη4 : η ≤ u := by
    refine hη.trans ?_
    have := mul_le_mul_of_nonneg_left (show u ≤ 1 by linarith) u0
    linarith
  have i6 : |-val (-A / b') - q| ≤ 176 * x * (1 + q) := by
    have h1 := abs_add_le (-val (-A / b') - val A / val b') (val A / val b' - q)
    rw [sub_add_sub_cancel, show -val (-A / b') - val A / val b' = -(val (-A / b') - -(val A / val b')) by ring, abs_neg] at h1
    have h2 := mul_le_mul hux i4 (abs_nonneg _) (by linarith)
    linarith
  have hδ : 176 * x * (1 + q) ≤ 22 / 125 * (1 + q) := mul_le_mul_of_nonneg_right (by linarith) (by linarith)
  obtain ⟨g4, i7⟩ := E.exp (-A / b') g3 (by linarith [(abs_le.mp i6).1])
  have i8 := exp_near hq0 (show 0 ≤ 176 * x by linarith) (by linarith) i6
  rw [neg_neg] at i8
  obtain ⟨g5, i9⟩ := E.ratio m n s2 s3 s4
  have hn0 : (0 : ℝ) < n := by exact_mod_cast (by omega : 0 < n)
  have hmn : (m : ℝ) / n ≤ 1 := by rw [div_le_one hn0]; exact_mod_cast s3
  have hmn0 : 0 < (m : ℝ) / n := by
    have : (0 : ℝ) < m := by exact_mod_cast s2
    positivity
  have hexp0 := Real.exp_pos (-q)
  have hexp1 : Real.exp (-q) ≤ 1 := Real.exp_le_one_iff.mpr (by linarith)
  generalize (m : ℝ) / n = y at *
  generalize Arith.exp (-A / b') = e' at *
  generalize Real.exp (val (-A / b')) = z at *
  generalize Real.exp (-q) = e at *
  generalize (Arith.intDiv m n : F) = y' at *
  have j1 : |y - e| ≤ 1 := abs_le.mpr ⟨by linarith, by linarith⟩
  have j2 : |val e' - e| ≤ 704 * x + κ := by
    have := abs_add_le (val e' - z) (z - e)
    rw [sub_add_sub_cancel] at this
    linarith
  have j3 : |val y' - val e' - (y - e)| ≤ 704 * x + κ + u := by
    have := abs_sub (val y' - y) (val e' - e)
    rw [show val y' - y - (val e' - e) = val y' - val e' - (y - e) by ring] at this
    linarith
  have j4 : |val y' - val e'| ≤ 1 + (704 * x + κ + u) := by have := abs_le_of_err j3; linarith
  obtain ⟨g6, j5⟩ := h.full.sub y' e' g5 g4 (by linarith)
  refine ⟨g6, ?_, j1⟩
  have h1 := abs_add_le (val (y' - e') - (val y' - val e')) (val y' - val e' - (y - e))
  rw [sub_add_sub_cancel] at h1
  have h2 := mul_le_mul_of_nonneg_left (j4.trans (show 1 + (704 * x + κ + u) ≤ 5 / 2 by linarith)) u0
  linarith

/-- PS -/
theorem Setting.near_PS {t : ℤ → ℤ → F} (ht : IsTable2 ks st t) (hk : 1 < ks.length) :
    fin (Arith.npSum (ks.map (Gen.psPart d ks st t))) ∧ ∃ y, Spec.value .PS (real val d S) = .fin y ∧
      |val (Arith.npSum (ks.map (Gen.psPart d ks st t))) - y| ≤ ks.length * (750 * (γ * N / β) + κ) := by
  have hkN : ks.length ≤ N := by
    rw [T.length]
    exact (Inputs.clusters_le (S := S)).trans D.length
  have hlN : (ks.length : ℝ) ≤ N := by exact_mod_cast hkN
  have hd1 : (1 : ℝ) ≤ d := by exact_mod_cast h.d1
  have hT : 0 < d * M ^ 2 := by positivity
  obtain ⟨-, -, -, b4⟩ := h.psBeta B D T (fun e => by rw [e] at hk; simp at hk)
  have hβ4 : β ≤ 4 := le_of_mul_le_mul_right (hS.trans b4) hT
  obtain ⟨hβ0, hε, hx0, hx1, hux, hxβ⟩ := h.beta hu hβ hβ4
  have hp := fun c (hc : c ∈ ks) => h.psPart B D T E hu hη hΩ hΩ5 hκ hM hβ hS ht hk hc
  have hb0 : 0 < Spec.beta (real val d S) := (mul_pos hβ0 hT).trans_le hS
  have hsum : Sums val fin u Ω N (Arith.npSum : List F → F) := fun l hl => h.full.npSum l (hl.trans (le_max_left ..))
  generalize γ * N / β = x at *
  obtain ⟨f, i⟩ := sum_near hsum hu.le ks hkN (fun c hc => ⟨(hp c hc).1, (hp c hc).2.1⟩) (b := fun _ => 9 / 4)
    (fun c hc => by linarith [(hp c hc).2.2]) (by rw [map_sum_const]; linarith)
  rw [map_sum_const, map_sum_const] at i
  refine ⟨f, _, ?_, i.trans ?_⟩
  · have hk' : 1 < Spec.numClusters (real val d S) := by rwa [numClusters_real, ← T.length]
    rw [Spec.value, Spec.PS, if_neg (by omega), if_neg hb0.ne', labels_real, List.sum_toFinset _ (order_nodup S)]
    exact congrArg _ (((T.perm.map _).sum_eq).symm)
  · have hku : ks.length * u ≤ 4 * x := by
      have h1 := mul_le_mul hlN h.moderate.uγ hu.le (by positivity)
      have h2 := mul_le_mul_of_nonneg_left hβ4 hx0.le
      linarith
    have := mul_le_mul_of_nonneg_left hku (show (0 : ℝ) ≤ 9 / 2 * ks.length by positivity)
    have h3 : 0 ≤ ks.length * x := by positivity
    linarith

omit h B D T E hu hη hΩ hΩ5 hκ hM hβ hS

/-! ## In incremental and in batch mode -/

theorem value_PS (hk : 1 < (order S).length) : value d .PS S = Arith.npSum ((order S).map (Gen.psPart d (order S) (stat S) (Gen.table .PS S))) := by
  have e : Gen.psBar d (order S) (stat S) = vBar S d := by
    simp only [Gen.psBar, colMeans, vBar, List.map_map, Function.comp_def]
  have e' : Gen.psBeta d (order S) (stat S) = betaT S d := by rw [Gen.psBeta, e, betaT]
  rw [value, if_neg (by omega)]
  congr 2
  funext c
  rw [psTerm, Gen.psPart, e']

theorem isTable2_inc : IsTable2 (order S) (stat S) (Gen.table .PS S) := by
  intro a _ b _ hab
  rw [Gen.table, if_neg hab]
  split
  · exact .inl (.inl rfl)
  · exact .inr (.inl rfl)

theorem batch_PS {k : ℕ} (rows : List (List F)) : Batch.value d k (rowsOf S) rows .PS = Arith.npSum ((labelRange k).map
    (Gen.psPart d (labelRange k) (fun c => Stat.batch d (own S c)) (batchTable d S .PS))) := by
  have e : Gen.psBar d (labelRange k) (fun c => Stat.batch d (own S c)) = Batch.vBar d k (rowsOf S) := by
    simp only [Gen.psBar, Batch.vBar, labelRange, List.map_map, Function.comp_def, Stat.batch, rowsOf]
  have e' : Gen.psBeta d (labelRange k) (fun c => Stat.batch d (own S c)) = Batch.betaT d k (rowsOf S) := by
    rw [Gen.psBeta, e, Batch.betaT]
    simp only [labelRange, List.map_map, List.length_map, List.length_range, Function.comp_def, Stat.batch, rowsOf]
  rw [Batch.value]
  rw [labelRange, List.map_map]
  congr 2
  funext i
  rw [Function.comp, Gen.psPart, ← labelRange, e', Batch.psTerm]
  have hf : (labelRange k).filter (fun b => decide (b ≠ (i : ℤ))) = ((List.range k).filter (fun j => decide (j ≠ i))).map (fun j : ℕ => (j : ℤ)) := by
    rw [labelRange, List.filter_map]
    congr 1
    refine List.filter_congr fun j _ => ?_
    simp
  rw [hf]
  simp only [labelRange, List.map_map, Function.comp_def, Stat.batch, rowsOf, batchTable, Int.toNat_natCast, Batch.largest]

theorem batch_isTable2 {k : ℕ} : IsTable2 (labelRange k) (fun c => Stat.batch d (own S c)) (batchTable d S .PS) := by
  intro a ha b hb hab
  simp only [labelRange, List.mem_map] at ha hb
  obtain ⟨i, -, rfl⟩ := ha
  obtain ⟨j, -, rfl⟩ := hb
  have hij : i ≠ j := fun e => hab (by rw [e])
  simp only [batchTable, Int.toNat_natCast, Batch.table, Batch.both, rowsOf]
  rw [if_neg (by simp)]
  rcases lt_or_gt_of_ne hij with hlt | hlt
  · exact .inl (.inr (.inl (by rw [if_pos hlt, if_neg hlt.not_gt])))
  · exact .inr (.inr (.inr (by rw [if_pos hlt, if_neg hlt.not_gt])))

end Rounding
end Verif.Gen
