import Verif.Gen.Uniform
import Mathlib.Tactic.Linarith
import Mathlib.Tactic.Positivity
import Mathlib.Tactic.FieldSimp
import Mathlib.Algebra.Order.BigOperators.Group.List

/-!
# The standard model of float arithmetic

What is known about IEEE floats: every operation on finite numbers has a small relative error, unless it overflows; a product that
underflows has a small absolute error.
-/

namespace Verif.Gen

/-- `val a` is the number the float `a` stands for, `fin a` says that it is finite.  `u` is the unit roundoff, `η` the largest error of a
product that underflows, `Ω` the largest finite number, `N` the largest count in use.
float64: `u = 2 ^ -53`, `η = 2 ^ -1075`, `Ω = (2 - 2 ^ -52) * 2 ^ 1023`. -/
structure Standard (F : Type) [Arith F] (val : F → ℝ) (fin : F → Prop) (u η Ω : ℝ) (N : ℕ) : Prop where
  add : ∀ a b, fin a → fin b → |val a + val b| ≤ Ω → fin (a + b) ∧ |val (a + b) - (val a + val b)| ≤ u * |val a + val b|
  mul : ∀ a b, fin a → fin b → |val a * val b| ≤ Ω → fin (a * b) ∧ |val (a * b) - val a * val b| ≤ u * |val a * val b| + η
  /-- `1 / n` -/
  inv : ∀ n, 1 ≤ n → n ≤ N → fin (Arith.invNat n) ∧ |val (Arith.invNat n) - 1 / n| ≤ u * (1 / n)
  /-- `1 - 1 / n`: two operations -/
  oneMinus : ∀ n, 1 ≤ n → n ≤ N → fin (Arith.oneMinusInv n) ∧
    |val (Arith.oneMinusInv n) - (1 - val (Arith.invNat n))| ≤ u * |1 - val (Arith.invNat n)|

namespace Rounding

/-- The arithmetic of the error of a running mean. -/
theorem step_real {u η M E A X m a b P Q R : ℝ} {k : ℕ} (hk : 2 ≤ k) (hu : 0 ≤ u) (hu1 : u ≤ 1 / 16) (hη : 0 ≤ η)
    (huk : 4 * u * k ≤ 1) (hE : 0 ≤ E) (hA : |A - m| ≤ E) (hm : |m| ≤ M) (hX : |X| ≤ M) (hb : |b - 1 / k| ≤ u * (1 / k))
    (ha : |a - (1 - b)| ≤ u * |1 - b|) (hP : |P - a * A| ≤ u * |a * A| + η) (hQ : |Q - b * X| ≤ u * |b * X| + η)
    (hR : |R - (P + Q)| ≤ u * |P + Q|) :
    |a * A| ≤ 9 / 8 * (M + E) ∧ |b * X| ≤ 9 / 8 * (M + E) ∧ |P + Q| ≤ 2 * (M + E) + 3 * η ∧
    |R - ((k - 1) * m + X) / k| ≤ E + (4 * u * M + 3 * η) := by
  have hk0 : (0 : ℝ) < k := by exact_mod_cast (by omega : 0 < k)
  have hk2 : (2 : ℝ) ≤ k := by exact_mod_cast hk
  obtain ⟨t, ht⟩ : ∃ t : ℝ, t = 1 / k := ⟨_, rfl⟩
  have htk : t * k = 1 := by rw [ht]; field_simp
  have ht0 : 0 < t := by rw [ht]; positivity
  have ht2 : t ≤ 1 / 2 := by rw [ht]; exact one_div_le_one_div_of_le (by norm_num) hk2
  have hut : 4 * u ≤ t := by rw [ht, le_div_iff₀ hk0]; exact huk
  rw [← ht] at hb
  have hM : 0 ≤ M := (abs_nonneg _).trans hm
  have hut2 : u * t ≤ u / 2 := by have := mul_le_mul_of_nonneg_left ht2 hu; linarith
  have hut0 : 0 ≤ u * t := by positivity
  have huu : u * u ≤ u / 16 := by have := mul_le_mul_of_nonneg_left hu1 hu; linarith
  have h1b : |1 - b| ≤ 1 - t + u * t := by
    have := abs_sub_abs_le_abs_sub (1 - b) (1 - t)
    have e : |1 - b - (1 - t)| = |b - t| := by rw [abs_sub_comm]; congr 1; ring
    rw [e, abs_of_nonneg (by linarith : 0 ≤ 1 - t)] at this
    linarith
  have hat : |a - (1 - t)| ≤ 33 / 32 * u := by
    have e : a - (1 - t) = (a - (1 - b)) + (t - b) := by ring
    rw [e]
    have h1 := abs_add_le (a - (1 - b)) (t - b)
    rw [abs_sub_comm t b] at h1
    have h2 : u * |1 - b| ≤ u * (1 - t + u * t) := mul_le_mul_of_nonneg_left h1b hu
    have h3 : u * (u * t) ≤ u / 32 := by
      have := mul_le_mul_of_nonneg_left hut2 hu
      linarith
    have h4 : u * (1 - t + u * t) = u - u * t + u * (u * t) := by ring
    linarith
  have haa : |a| ≤ 1 - t + 33 / 32 * u := by
    have := abs_sub_abs_le_abs_sub a (1 - t)
    rw [abs_of_nonneg (by linarith : 0 ≤ 1 - t)] at this
    linarith
  have hbb : |b| ≤ t + u / 2 := by
    have := abs_sub_abs_le_abs_sub b t
    rw [abs_of_pos ht0] at this
    linarith
  obtain ⟨W, hW⟩ : ∃ W, W = M + E := ⟨_, rfl⟩
  have hW0 : 0 ≤ W := by linarith
  have hAW : |A| ≤ W := by
    have := abs_sub_abs_le_abs_sub A m
    linarith
  have hXW : |X| ≤ W := by linarith
  have h1 : |a * A| ≤ (1 - t + 33 / 32 * u) * W := by
    rw [abs_mul]; exact mul_le_mul haa hAW (abs_nonneg _) (by linarith)
  have h2 : |b * X| ≤ (t + u / 2) * W := by
    rw [abs_mul]; exact mul_le_mul hbb hXW (abs_nonneg _) (by linarith)
  have huW : u * W ≤ W / 16 := by have := mul_le_mul_of_nonneg_right hu1 hW0; linarith
  have huW0 : 0 ≤ u * W := by positivity
  have htW0 : 0 ≤ t * W := by positivity
  have htW : t * W ≤ W / 2 := by have := mul_le_mul_of_nonneg_right ht2 hW0; linarith
  have hS : |a * A| + |b * X| ≤ W + 2 * (u * W) := by linarith
  have hS8 : |a * A| + |b * X| ≤ 9 / 8 * W := by linarith
  have hPQ : |P + Q| ≤ (1 + u) * (|a * A| + |b * X|) + 2 * η := by
    have e : P + Q = (P - a * A) + (Q - b * X) + (a * A + b * X) := by ring
    rw [e]
    have := abs_add_le (P - a * A + (Q - b * X)) (a * A + b * X)
    have := abs_add_le (P - a * A) (Q - b * X)
    have := abs_add_le (a * A) (b * X)
    linarith
  have huS : u * (|a * A| + |b * X|) ≤ 9 / 8 * (u * W) := by
    have := mul_le_mul_of_nonneg_left hS8 hu; linarith
  have hPQ' : |P + Q| ≤ 9 / 8 * W + 9 / 8 * (u * W) + 2 * η := by linarith
  refine ⟨?_, ?_, ?_, ?_⟩
  · rw [← hW]; linarith [abs_nonneg (b * X)]
  · rw [← hW]; linarith [abs_nonneg (a * A)]
  · rw [← hW]; linarith
  · have e : R - ((k - 1) * m + X) / k =
        (R - (P + Q)) + (P - a * A) + (Q - b * X) + (a - (1 - t)) * A + (b - t) * X + (1 - t) * (A - m) := by
      have : ((k - 1) * m + X) / k = (1 - t) * m + t * X := by
        rw [div_eq_iff hk0.ne']; linear_combination (m - X) * htk
      rw [this]; ring
    rw [e]
    have b1 := abs_add_le ((R - (P + Q)) + (P - a * A) + (Q - b * X) + (a - (1 - t)) * A + (b - t) * X) ((1 - t) * (A - m))
    have b2 := abs_add_le ((R - (P + Q)) + (P - a * A) + (Q - b * X) + (a - (1 - t)) * A) ((b - t) * X)
    have b3 := abs_add_le ((R - (P + Q)) + (P - a * A) + (Q - b * X)) ((a - (1 - t)) * A)
    have b4 := abs_add_le ((R - (P + Q)) + (P - a * A)) (Q - b * X)
    have b5 := abs_add_le (R - (P + Q)) (P - a * A)
    have c1 : |(1 - t) * (A - m)| ≤ (1 - t) * E := by
      rw [abs_mul, abs_of_nonneg (by linarith : 0 ≤ 1 - t)]; exact mul_le_mul_of_nonneg_left hA (by linarith)
    have c2 : |(b - t) * X| ≤ u / 2 * W := by
      rw [abs_mul]; exact mul_le_mul (by linarith) hXW (abs_nonneg _) (by linarith)
    have c3 : |(a - (1 - t)) * A| ≤ 33 / 32 * u * W := by
      rw [abs_mul]; exact mul_le_mul hat hAW (abs_nonneg _) (by linarith)
    have c4 : u * |P + Q| ≤ u * (9 / 8 * W + 9 / 8 * (u * W) + 2 * η) := mul_le_mul_of_nonneg_left hPQ' hu
    have c5 : u * (u * W) ≤ u * W / 16 := by have := mul_le_mul_of_nonneg_right hu1 huW0; linarith
    have c6 : u * η ≤ η / 16 := by have := mul_le_mul_of_nonneg_right hu1 hη; linarith
    have c7 : 4 * u * E ≤ t * E := mul_le_mul_of_nonneg_right hut hE
    have c8 : 4 * (u * W) = 4 * u * M + 4 * u * E := by rw [hW]; ring
    linarith

variable {F : Type} [Arith F] {val : F → ℝ} {fin : F → Prop} {u η Ω M E m : ℝ} {N : ℕ}

/-- One step of a running mean in floats. -/
theorem step (h : Standard F val fin u η Ω N) {k : ℕ} (hk : 2 ≤ k) (hkN : k ≤ N) (hu : 0 ≤ u) (hu1 : u ≤ 1 / 16) (hη : 0 ≤ η)
    (huk : 4 * u * k ≤ 1) (hE : 0 ≤ E) (hΩ : 2 * (M + E) + 3 * η ≤ Ω) {a x : F} (ha : fin a) (hA : |val a - m| ≤ E)
    (hm : |m| ≤ M) (hx : fin x) (hX : |val x| ≤ M) :
    fin (Arith.oneMinusInv k * a + Arith.invNat k * x) ∧
      |val (Arith.oneMinusInv k * a + Arith.invNat k * x) - ((k - 1) * m + val x) / k| ≤ E + (4 * u * M + 3 * η) := by
  obtain ⟨f1, hb⟩ := h.inv k (by omega) hkN
  obtain ⟨f2, ho⟩ := h.oneMinus k (by omega) hkN
  have hM : 0 ≤ M := (abs_nonneg _).trans hm
  have z : ∀ y : ℝ, |y - y| ≤ u * |y| := fun y => by rw [sub_self, abs_zero]; positivity
  have zη : ∀ y : ℝ, |y - y| ≤ u * |y| + η := fun y => (z y).trans (by linarith)
  obtain ⟨i1, i2, -, -⟩ := step_real hk hu hu1 hη huk hE hA hm hX hb ho (zη _) (zη _) (z _)
  obtain ⟨g1, hP⟩ := h.mul _ a f2 ha (by linarith)
  obtain ⟨g2, hQ⟩ := h.mul _ x f1 hx (by linarith)
  obtain ⟨-, -, i3, -⟩ := step_real hk hu hu1 hη huk hE hA hm hX hb ho hP hQ (z _)
  obtain ⟨g3, hR⟩ := h.add _ _ g1 g2 (by linarith)
  exact ⟨g3, (step_real hk hu hu1 hη huk hE hA hm hX hb ho hP hQ hR).2.2.2⟩

/-- The mean of one feature. -/
noncomputable def mean (val : F → ℝ) (l : List (List F)) (j : ℕ) : ℝ := (l.map fun x => val (x.getD j 0)).sum / l.length

theorem mean_abs {l : List (List F)} {j : ℕ} (h : ∀ x ∈ l, |val (x.getD j 0)| ≤ M) (hl : l ≠ []) : |mean val l j| ≤ M := by
  have hn : (0 : ℝ) < l.length := by exact_mod_cast List.length_pos_iff.mpr hl
  rw [mean, abs_div, abs_of_pos hn, div_le_iff₀ hn]
  clear hn hl
  induction l with
  | nil => simp
  | cons x l ih =>
    have := ih fun y hy => h y (List.mem_cons_of_mem _ hy)
    have h1 := h x List.mem_cons_self
    simp only [List.map_cons, List.sum_cons, List.length_cons, Nat.cast_add, Nat.cast_one]
    refine (abs_add_le _ _).trans ?_
    linarith

theorem mean_append {l : List (List F)} {x : List F} {j : ℕ} (hl : l ≠ []) : mean val (l ++ [x]) j =
    (((l.length + 1 : ℕ) - 1 : ℝ) * mean val l j + val (x.getD j 0)) / (l.length + 1 : ℕ) := by
  have hn : (l.length : ℝ) ≠ 0 := by exact_mod_cast (List.length_pos_iff.mpr hl).ne'
  simp only [mean, List.map_append, List.map_cons, List.map_nil, List.sum_append, List.sum_cons, List.sum_nil, add_zero,
    List.length_append, List.length_cons, List.length_nil, zero_add]
  congr 2
  push_cast
  field_simp
  ring

/-- The error of the running mean of a list of samples. -/
theorem centroid {d : ℕ} (h : Standard F val fin u η Ω N) (hu : 0 ≤ u) (hu1 : u ≤ 1 / 16) (hη : 0 ≤ η)
    (huN : 4 * u * N ≤ 1) (hΩ : 4 * M + (6 * N + 3) * η ≤ Ω) (hM : 0 ≤ M) {l : List (List F)} (hl : l ≠ [])
    (hd : ∀ x ∈ l, x.length = d) (hx : ∀ x ∈ l, ∀ a ∈ x, fin a ∧ |val a| ≤ M) (hN : l.length ≤ N) {j : ℕ} (hj : j < d) :
    ∃ a, (Stat.of l).v[j]? = some a ∧ fin a ∧ |val a - mean val l j| ≤ (l.length - 1) * (4 * u * M + 3 * η) := by
  have hget : ∀ x ∈ l, x[j]? = some (x.getD j 0) := by
    intro x hx
    have : j < x.length := by rw [hd x hx]; exact hj
    simp [this]
  induction l using List.reverseRecOn with
  | nil => exact absurd rfl hl
  | append_singleton l x ih =>
    have hxm : x.getD j 0 ∈ x := List.mem_of_getElem? (hget x (by simp))
    obtain ⟨fx, Mx⟩ := hx x (by simp) _ hxm
    by_cases e : l = []
    · subst e
      refine ⟨x.getD j 0, hget x (by simp), fx, ?_⟩
      simp [mean]
    · simp only [List.length_append, List.length_cons, List.length_nil, zero_add] at hN
      obtain ⟨a, h1, h2, h3⟩ := ih e (fun y hy => hd y (by simp [hy])) (fun y hy => hx y (by simp [hy])) (by omega)
        (fun y hy => hget y (by simp [hy]))
      have hn := (Stat.of_length e fun y hy => hd y (by simp [hy])).1
      have hn0 := List.length_pos_iff.mpr e
      have hn1 : (1 : ℝ) ≤ l.length := by exact_mod_cast hn0
      have hNr : (l.length + 1 : ℝ) ≤ N := by exact_mod_cast hN
      have hE : 0 ≤ ((l.length : ℝ) - 1) * (4 * u * M + 3 * η) := by
        have : 0 ≤ 4 * u * M + 3 * η := by positivity
        have : 0 ≤ (l.length : ℝ) - 1 := by linarith
        positivity
      have huk : 4 * u * (l.length + 1 : ℕ) ≤ 1 := by
        push_cast
        exact (mul_le_mul_of_nonneg_left hNr (by positivity)).trans huN
      have hE2 : ((l.length : ℝ) - 1) * (4 * u * M + 3 * η) ≤ M + 3 * N * η := by
        have h1 : ((l.length : ℝ) - 1) * (4 * u * M + 3 * η) ≤ N * (4 * u * M + 3 * η) :=
          mul_le_mul_of_nonneg_right (by linarith) (by positivity)
        have h2 : 4 * u * N * M ≤ 1 * M := mul_le_mul_of_nonneg_right huN hM
        linarith
      obtain ⟨s1, s2⟩ := step h (k := l.length + 1) (by omega) hN hu hu1 hη huk hE (by linarith) h2 h3
        (mean_abs (fun y hy => (hx y (by simp [hy]) _ (List.mem_of_getElem? (hget y (by simp [hy])))).2) e) fx Mx
      refine ⟨_, ?_, s1, ?_⟩
      · rw [Stat.of_append _ e]
        simp only [Stat.more, blend, hn, List.getElem?_zipWith, List.getElem?_map, h1, hget x (by simp), Option.map_some]
      · rw [mean_append e]
        refine s2.trans (le_of_eq ?_)
        simp only [List.length_append, List.length_cons, List.length_nil, zero_add]
        push_cast
        ring

theorem centre_eq (n : ℕ) (t : Stat F) (l : List (List F)) (h : t.n = n) : centre n t.v l = (l.foldl Stat.more t).v := by
  induction l generalizing n t with
  | nil => rfl
  | cons x l ih =>
    subst h
    exact ih (t.n + 1) (t.more x) rfl

/-- The running mean of all samples is computed as that of one cluster. -/
theorem mu_eq (S : Samples F) : mu S = (Stat.of (S.map Prod.fst)).v := by
  cases S with
  | nil => rfl
  | cons p S => exact centre_eq 1 (Stat.one p.1) _ rfl

end Rounding
end Verif.Gen
