import Verif.Gen.RoundingCP

/-!
# Error analysis of WGSS and BGSS

`StandardFull` adds to the standard model: division, `(n - k) / (k - 1)`, square roots, minimum and maximum, `np.sum` in any order.
Python's `sum` adds from left to right and `x ** 2` is `x * x`.
-/

namespace Verif.Gen

/-- `s` is the sum of the numbers in `l`, with relative error `2 * u` per number. -/
def SumsTo {F : Type} (val : F → ℝ) (fin : F → Prop) (u Ω : ℝ) (l : List F) (s : F) : Prop :=
  (∀ a ∈ l, fin a) → 2 * (l.map fun a => |val a|).sum ≤ Ω →
    fin s ∧ |val s - (l.map val).sum| ≤ 2 * l.length * u * (l.map fun a => |val a|).sum

/-- A summation of up to `K` numbers with relative error `2 * u` per number. -/
def Sums {F : Type} (val : F → ℝ) (fin : F → Prop) (u Ω : ℝ) (K : ℕ) (sum : List F → F) : Prop :=
  ∀ l : List F, l.length ≤ K → SumsTo val fin u Ω l (sum l)

/-- The standard model with division. -/
structure StandardFull (F : Type) [Arith F] (val : F → ℝ) (fin : F → Prop) (u η Ω : ℝ) (N : ℕ) (γ : ℝ) (d : ℕ) : Prop extends
    StandardDot F val fin u η Ω N γ d where
  pySum : ∀ l : List F, Arith.pySum l = l.foldl (· + ·) 0
  sq : ∀ a : F, Arith.sq a = a * a
  div : ∀ a b, fin a → fin b → val b ≠ 0 → |val a / val b| ≤ Ω →
    fin (a / b) ∧ |val (a / b) - val a / val b| ≤ u * |val a / val b| + η
  npSum : Sums val fin u Ω (max N d) Arith.npSum
  sqrt : ∀ a, fin a → 0 ≤ val a → val a ≤ Ω → fin (Arith.sqrt a) ∧ |val (Arith.sqrt a) - √(val a)| ≤ 2 * u * √(val a)
  minOf : ∀ a l, (∀ x ∈ a :: l, fin x) → fin (Arith.minOf a l) ∧ (∃ x ∈ a :: l, val (Arith.minOf a l) = val x) ∧
    ∀ x ∈ a :: l, val (Arith.minOf a l) ≤ val x
  maxOf : ∀ a l, (∀ x ∈ a :: l, fin x) → fin (Arith.maxOf a l) ∧ (∃ x ∈ a :: l, val (Arith.maxOf a l) = val x) ∧
    ∀ x ∈ a :: l, val x ≤ val (Arith.maxOf a l)
  chFactor : ∀ n k, 2 ≤ k → k ≤ n → n ≤ N → fin (Arith.chFactor n k : F) ∧
    |val (Arith.chFactor n k : F) - ((n : ℝ) - k) / ((k : ℝ) - 1)| ≤ u * (((n : ℝ) - k) / ((k : ℝ) - 1))

namespace Rounding

variable {F : Type} [Arith F] {val : F → ℝ} {fin : F → Prop} {u η Ω M γ : ℝ} {N d : ℕ}

theorem pow_le_of {n : ℕ} (hu : 0 ≤ u) (h : 2 * n * u ≤ 1) : (1 + u) ^ n ≤ 1 + 2 * n * u := by
  induction n with
  | zero => simp
  | succ n ih =>
    push_cast at h ⊢
    have hn : (0 : ℝ) ≤ n := Nat.cast_nonneg n
    have h1 : 2 * (n : ℝ) * u ≤ 1 := by linarith
    have h2 := mul_le_mul_of_nonneg_right (ih h1) (show 0 ≤ 1 + u by linarith)
    have h3 := mul_le_mul_of_nonneg_right h1 hu
    rw [pow_succ]
    linarith

/-- Adding from left to right. -/
theorem foldl_sum (h : Standard F val fin u η Ω N) (hu : 0 ≤ u) : ∀ (l : List F) (s : F), (∀ a ∈ l, fin a) → fin s →
    (1 + u) ^ l.length * (|val s| + (l.map fun a => |val a|).sum) ≤ Ω →
    fin (l.foldl (· + ·) s) ∧ |val (l.foldl (· + ·) s) - (val s + (l.map val).sum)| ≤
      ((1 + u) ^ l.length - 1) * (|val s| + (l.map fun a => |val a|).sum)
  | [], s, _, hs, _ => ⟨hs, by simp⟩
  | a :: l, s, hl, hs, hΩ => by
    simp only [List.map_cons, List.sum_cons, List.length_cons, List.foldl_cons] at hΩ ⊢
    obtain ⟨Z, hZ⟩ : ∃ Z, Z = (l.map fun a => |val a|).sum := ⟨_, rfl⟩
    have hZ0 : 0 ≤ Z := by
      rw [hZ]
      exact List.sum_nonneg (by
        intro x hx
        obtain ⟨p, -, rfl⟩ := List.mem_map.mp hx
        exact abs_nonneg _)
    obtain ⟨P, hP⟩ : ∃ P, P = (1 + u) ^ l.length := ⟨_, rfl⟩
    have hP1 : 1 ≤ P := by rw [hP]; exact one_le_pow₀ (by linarith)
    rw [pow_succ, ← hP, ← hZ] at hΩ ⊢
    have hs0 := abs_nonneg (val s)
    have ha0 := abs_nonneg (val a)
    have hsa := abs_add_le (val s) (val a)
    have hPu : P ≤ P * (1 + u) := by have := mul_nonneg (show 0 ≤ P by linarith) hu; linarith
    have h1 : |val s + val a| ≤ Ω := by
      have h2 : 1 * (|val s| + (|val a| + Z)) ≤ P * (1 + u) * (|val s| + (|val a| + Z)) :=
        mul_le_mul_of_nonneg_right (by linarith) (by linarith)
      linarith
    obtain ⟨f1, e1⟩ := h.add s a hs (hl a (by simp)) h1
    have e2 : |val (s + a)| ≤ (1 + u) * (|val s| + |val a|) := by
      have h2 := abs_add_le (val (s + a) - (val s + val a)) (val s + val a)
      rw [sub_add_cancel] at h2
      have h3 := mul_le_mul_of_nonneg_left hsa hu
      linarith
    have e3 : |val (s + a)| + Z ≤ (1 + u) * (|val s| + (|val a| + Z)) := by
      have := mul_nonneg hu hZ0
      linarith
    have e4 := mul_le_mul_of_nonneg_left e3 (show 0 ≤ P by linarith)
    have ih := foldl_sum h hu l (s + a) (fun b hb => hl b (by simp [hb])) f1 (by rw [← hP, ← hZ]; linarith)
    rw [← hP, ← hZ] at ih
    refine ⟨ih.1, ?_⟩
    have e5 := abs_add_le (val (l.foldl (· + ·) (s + a)) - (val (s + a) + (l.map val).sum)) (val (s + a) - (val s + val a))
    rw [show val (l.foldl (· + ·) (s + a)) - (val (s + a) + (l.map val).sum) + (val (s + a) - (val s + val a)) =
      val (l.foldl (· + ·) (s + a)) - (val s + (val a + (l.map val).sum)) by ring] at e5
    have e6 := mul_le_mul_of_nonneg_left e2 (show 0 ≤ P - 1 by linarith)
    have e7 := mul_le_mul_of_nonneg_left hsa hu
    have e8 := mul_le_mul_of_nonneg_right hPu hZ0
    have e9 := ih.2
    linarith

/-- Python's `sum`. -/
theorem pySums (h : StandardFull F val fin u η Ω N γ d) (hu : 0 ≤ u) {K : ℕ} (hK : 2 * K * u ≤ 1) : Sums val fin u Ω K Arith.pySum := by
  intro l hl hf hΩ
  have hz := h.zero
  have hsum0 : 0 ≤ (l.map fun a => |val a|).sum := List.sum_nonneg (by
    intro x hx
    obtain ⟨p, -, rfl⟩ := List.mem_map.mp hx
    exact abs_nonneg _)
  have hlK : (l.length : ℝ) ≤ K := by exact_mod_cast hl
  have hp := pow_le_of (n := l.length) hu (by have := mul_le_mul_of_nonneg_right hlK hu; linarith)
  have h2 : 2 * l.length * u ≤ 1 := by have := mul_le_mul_of_nonneg_right hlK hu; linarith
  obtain ⟨i1, i2⟩ := foldl_sum h.toStandard hu l 0 hf hz.1 (by
      rw [hz.2, abs_zero, zero_add]
      have := mul_le_mul_of_nonneg_right (show (1 + u) ^ l.length ≤ 2 by linarith) hsum0
      linarith)
  rw [h.pySum]
  refine ⟨i1, ?_⟩
  rw [hz.2, abs_zero, zero_add, zero_add] at i2
  exact i2.trans (mul_le_mul_of_nonneg_right (by linarith) hsum0)

omit [Arith F] in
/-- The sum of numbers that are known up to an error. -/
theorem sumTo_near {ι : Type} {l : List ι} {f : ι → F} {s : F} (h : SumsTo val fin u Ω (l.map f) s) (hu : 0 ≤ u)
    {A e b : ι → ℝ} (hf : ∀ i ∈ l, fin (f i) ∧ |val (f i) - A i| ≤ e i) (hb : ∀ i ∈ l, |A i| + e i ≤ b i)
    (hΩ : 2 * (l.map b).sum ≤ Ω) :
    fin s ∧ |val s - (l.map A).sum| ≤ (l.map e).sum + 2 * l.length * u * (l.map b).sum := by
  have hle : ∀ i ∈ l, |val (f i)| ≤ b i := by
    intro i hi
    have h1 := abs_add_le (val (f i) - A i) (A i)
    rw [sub_add_cancel] at h1
    linarith [(hf i hi).2, hb i hi]
  have hsum : ((l.map f).map fun a => |val a|).sum ≤ (l.map b).sum := by
    rw [List.map_map]
    exact List.sum_le_sum hle
  have hl : (l.map f).length = l.length := List.length_map ..
  obtain ⟨i1, i2⟩ := h (by
      intro a ha
      obtain ⟨i, hi, rfl⟩ := List.mem_map.mp ha
      exact (hf i hi).1) (by linarith)
  refine ⟨i1, ?_⟩
  rw [hl] at i2
  have h1 : ∀ l : List ι, (∀ i ∈ l, fin (f i) ∧ |val (f i) - A i| ≤ e i) → |((l.map f).map val).sum - (l.map A).sum| ≤ (l.map e).sum := by
    intro l hf
    induction l with
    | nil => simp
    | cons i l ih =>
      have ih := ih fun j hj => hf j (by simp [hj])
      have h2 := (hf i (by simp)).2
      simp only [List.map_cons, List.sum_cons]
      have h3 := abs_add_le (val (f i) - A i) (((l.map f).map val).sum - (l.map A).sum)
      rw [show val (f i) - A i + (((l.map f).map val).sum - (l.map A).sum) =
        val (f i) + ((l.map f).map val).sum - (A i + (l.map A).sum) by ring] at h3
      linarith
  have h2 := mul_le_mul_of_nonneg_left hsum (show 0 ≤ 2 * l.length * u by positivity)
  have h3 := abs_add_le (val s - ((l.map f).map val).sum) (((l.map f).map val).sum - (l.map A).sum)
  rw [sub_add_sub_cancel] at h3
  linarith [h1 l hf]

omit [Arith F] in
/-- The sum of numbers that are known up to an error. -/
theorem sum_near {ι : Type} {K : ℕ} {sum : List F → F} (h : Sums val fin u Ω K sum) (hu : 0 ≤ u) (l : List ι) (hK : l.length ≤ K)
    {f : ι → F} {A e b : ι → ℝ} (hf : ∀ i ∈ l, fin (f i) ∧ |val (f i) - A i| ≤ e i) (hb : ∀ i ∈ l, |A i| + e i ≤ b i)
    (hΩ : 2 * (l.map b).sum ≤ Ω) :
    fin (sum (l.map f)) ∧ |val (sum (l.map f)) - (l.map A).sum| ≤ (l.map e).sum + 2 * l.length * u * (l.map b).sum :=
  sumTo_near (h _ (by rwa [List.length_map])) hu hf hb hΩ

/-- The arithmetic of a squared difference of two centroids. -/
theorem sq_real {ε A B m q D R : ℝ} (hu : 0 ≤ u) (huε : u ≤ ε) (hε : 128 * ε ≤ 1) (hM : 0 ≤ M) (hη : η ≤ ε * M ^ 2)
    (hA : |A - m| ≤ 7 * (ε * M)) (hB : |B - q| ≤ 7 * (ε * M)) (hm : |m| ≤ M) (hq : |q| ≤ M) (hD : |D - (A - B)| ≤ u * |A - B|)
    (hR : |R - D * D| ≤ u * |D * D| + η) :
    |A - B| ≤ 3 * M ∧ |D * D| ≤ 9 * M ^ 2 ∧ |R - (m - q) ^ 2| ≤ 95 * (ε * M ^ 2) ∧ (m - q) ^ 2 ≤ 4 * M ^ 2 := by
  have hε0 : 0 ≤ ε := hu.trans huε
  have hεM : 0 ≤ ε * M := mul_nonneg hε0 hM
  have hεM1 : 128 * (ε * M) ≤ M := by have := mul_le_mul_of_nonneg_right hε hM; linarith
  have h1 : |A - B - (m - q)| ≤ 14 * (ε * M) := by
    have := abs_sub (A - m) (B - q)
    rw [show A - m - (B - q) = A - B - (m - q) by ring] at this
    linarith
  have h2 : |m - q| ≤ 2 * M := by have := abs_sub m q; linarith
  have h3 : |A - B| ≤ 3 * M := by
    have := abs_add_le (A - B - (m - q)) (m - q)
    rw [sub_add_cancel] at this
    linarith
  have h4 : |D - (m - q)| ≤ 17 * (ε * M) := by
    have e1 := abs_add_le (D - (A - B)) (A - B - (m - q))
    rw [sub_add_sub_cancel] at e1
    have e2 := mul_le_mul huε h3 (abs_nonneg _) hε0
    linarith
  have h5 : |D| ≤ 5 / 2 * M := by
    have := abs_add_le (D - (m - q)) (m - q)
    rw [sub_add_cancel] at this
    linarith
  have h6 : |D * D| ≤ 25 / 4 * M ^ 2 := by
    rw [abs_mul]
    have := mul_le_mul h5 h5 (abs_nonneg _) (by linarith)
    linarith
  have hMM : 0 ≤ M ^ 2 := by positivity
  have hεMM : 0 ≤ ε * M ^ 2 := mul_nonneg hε0 hMM
  refine ⟨h3, by linarith, ?_, ?_⟩
  · have e1 : D * D - (m - q) ^ 2 = (D - (m - q)) * (D + (m - q)) := by ring
    have e2 : |D + (m - q)| ≤ 9 / 2 * M := by have := abs_add_le D (m - q); linarith
    have e3 : |D * D - (m - q) ^ 2| ≤ 17 * (ε * M) * (9 / 2 * M) := by
      rw [e1, abs_mul]; exact mul_le_mul h4 e2 (abs_nonneg _) (by linarith)
    have e4 := abs_add_le (R - D * D) (D * D - (m - q) ^ 2)
    rw [sub_add_sub_cancel] at e4
    have e5 := mul_le_mul huε h6 (abs_nonneg _) hε0
    linarith
  · have := pow_le_pow_left₀ (abs_nonneg _) h2 2
    rw [sq_abs] at this
    linarith

/-- `v` is the mean of the samples in `l` up to an error, and the mean is not larger than `M`. -/
structure Near (val : F → ℝ) (fin : F → Prop) (M ε : ℝ) (d : ℕ) (v : List F) (l : List (List F)) : Prop where
  len : v.length = d
  near : ∀ j < d, fin (v.getD j 0) ∧ |val (v.getD j 0) - mean val l j| ≤ 7 * (ε * M) ∧ |mean val l j| ≤ M

/-- What is assumed from here on. -/
structure Setting (F : Type) [Arith F] (val : F → ℝ) (fin : F → Prop) (u η Ω M γ : ℝ) (N d : ℕ) : Prop where
  full : StandardFull F val fin u η Ω N γ d
  moderate : Moderate u η Ω M γ N d
  d1 : 1 ≤ d
  N1 : 1 ≤ N
  du : d * u ≤ γ

variable (h : Setting F val fin u η Ω M γ N d)
include h

theorem Setting.eps : u ≤ γ * N ∧ 128 * (γ * N) ≤ 1 ∧ 0 ≤ γ * N ∧ η ≤ γ * N * M ^ 2 ∧ 0 ≤ M := by
  obtain ⟨u0, uγ, γN, η0, ηu, ηγ, ηM, M0, Ω1, Ω2⟩ := h.moderate
  have hN : (1 : ℝ) ≤ N := by exact_mod_cast h.N1
  have hγ0 : 0 ≤ γ := u0.trans uγ
  have h1 : γ ≤ γ * N := by have := mul_le_mul_of_nonneg_left hN hγ0; linarith
  have h2 : η ≤ N * η := by have := mul_le_mul_of_nonneg_right hN η0; linarith
  have h3 := mul_le_mul_of_nonneg_right h1 (show 0 ≤ M ^ 2 by positivity)
  exact ⟨by linarith, by linarith, by positivity, by linarith, M0⟩

/-- The centroid of a list of samples. -/
theorem Setting.centroid {l : List (List F)} (hl : l ≠ []) (hd : ∀ x ∈ l, x.length = d)
    (hx : ∀ x ∈ l, ∀ a ∈ x, fin a ∧ |val a| ≤ M) (hN : l.length ≤ N) : Near val fin M (γ * N) d (Stat.of l).v l := by
  refine ⟨(Stat.of_length hl hd).2.1, fun j hj => ?_⟩
  obtain ⟨u0, uγ, γN, η0, ηu, ηγ, ηM, M0, Ω1, Ω2⟩ := h.moderate
  have hN1 : (1 : ℝ) ≤ N := by exact_mod_cast h.N1
  have hlN : (l.length : ℝ) ≤ N := by exact_mod_cast hN
  have hγ0 : 0 ≤ γ := u0.trans uγ
  have huN : u * N ≤ γ * N := mul_le_mul_of_nonneg_right uγ (by linarith)
  have hγN0 : 0 ≤ γ * N := by positivity
  have hu1 : u ≤ u * N := by have := mul_le_mul_of_nonneg_left hN1 u0; linarith
  have hΩ : 4 * M + (6 * N + 3) * η ≤ Ω := by
    have h1 : η ≤ N * η := by have := mul_le_mul_of_nonneg_right hN1 η0; linarith
    have h2 : M ≤ N * M := by have := mul_le_mul_of_nonneg_right hN1 M0; linarith
    linarith
  obtain ⟨a, h1, h2, h3⟩ := Rounding.centroid h.full.toStandard u0 (by linarith) η0 (by linarith) hΩ M0 hl hd hx hN hj
  have e : (Stat.of l).v.getD j 0 = a := by simp [List.getD_eq_getElem?_getD, h1]
  rw [e]
  refine ⟨h2, h3.trans ?_, mean_abs (fun x hx' => ?_) hl⟩
  · have h4 : 4 * u * M + 3 * η ≤ 7 * (u * M) := by linarith
    have h5 := mul_le_mul (show (l.length : ℝ) - 1 ≤ N by linarith) h4 (by positivity) (by positivity)
    have h6 := mul_le_mul_of_nonneg_right huN M0
    linarith
  · have hjx : j < x.length := by rw [hd x hx']; exact hj
    have : x.getD j 0 ∈ x := by
      rw [List.getD_eq_getElem?_getD, List.getElem?_eq_getElem hjx]
      exact List.getElem_mem hjx
    exact (hx x hx' _ this).2

/-- The squared difference of two features. -/
theorem Setting.sqDiff {a b : F} {m q : ℝ} (a1 : fin a) (a2 : |val a - m| ≤ 7 * (γ * N * M)) (a3 : |m| ≤ M)
    (b1 : fin b) (b2 : |val b - q| ≤ 7 * (γ * N * M)) (b3 : |q| ≤ M) :
    fin (Arith.sq (a - b)) ∧ |val (Arith.sq (a - b)) - (m - q) ^ 2| ≤ 95 * (γ * N * M ^ 2) ∧ (m - q) ^ 2 ≤ 4 * M ^ 2 := by
  obtain ⟨u0, uγ, γN, η0, ηu, ηγ, ηM, M0, Ω1, Ω2⟩ := h.moderate
  obtain ⟨e1, e2, e3, e4, -⟩ := h.eps
  have hN1 : (1 : ℝ) ≤ N := by exact_mod_cast h.N1
  have hd1 : (1 : ℝ) ≤ d := by exact_mod_cast h.d1
  have hNM : M ≤ N * M := by have := mul_le_mul_of_nonneg_right hN1 M0; linarith
  have hNMM : M ^ 2 ≤ N * (d * M ^ 2) := by
    have h1 := mul_le_mul_of_nonneg_right hd1 (show 0 ≤ M ^ 2 by positivity)
    have h2 := mul_le_mul_of_nonneg_right hN1 (show 0 ≤ d * M ^ 2 by positivity)
    linarith
  have hMM : 0 ≤ M ^ 2 := by positivity
  have z : ∀ y : ℝ, |y - y| ≤ u * |y| := fun y => by rw [sub_self, abs_zero]; positivity
  have zη : ∀ y : ℝ, |y - y| ≤ u * |y| + η := fun y => (z y).trans (by linarith)
  obtain ⟨i1, -⟩ := sq_real u0 e1 e2 M0 e4 a2 b2 a3 b3 (z _) (zη _)
  obtain ⟨f1, hD⟩ := h.full.sub _ _ a1 b1 (by linarith)
  obtain ⟨-, i2, -⟩ := sq_real u0 e1 e2 M0 e4 a2 b2 a3 b3 hD (zη _)
  obtain ⟨f2, hR⟩ := h.full.mul _ _ f1 f1 (by linarith)
  obtain ⟨-, -, i3, i4⟩ := sq_real u0 e1 e2 M0 e4 a2 b2 a3 b3 hD hR
  rw [h.full.sq]
  exact ⟨f2, i3, i4⟩

/-- The squared distance of two centroids, up to the error of the sum. -/
theorem Setting.sqDist {v w : List F} {l l' : List (List F)} (hv : Near val fin M (γ * N) d v l) (hw : Near val fin M (γ * N) d w l')
    {j : ℕ} (hj : j < d) :
    fin (Arith.sq (v.getD j 0 - w.getD j 0)) ∧
      |val (Arith.sq (v.getD j 0 - w.getD j 0)) - (mean val l j - mean val l' j) ^ 2| ≤
        95 * (γ * N * M ^ 2) ∧ (mean val l j - mean val l' j) ^ 2 ≤ 4 * M ^ 2 := by
  obtain ⟨a1, a2, a3⟩ := hv.near j hj
  obtain ⟨b1, b2, b3⟩ := hw.near j hj
  exact h.sqDiff a1 a2 a3 b1 b2 b3

end Rounding
end Verif.Gen
