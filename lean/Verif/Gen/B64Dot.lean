import Verif.Gen.B64Std

/-!
# Inner products in binary64, in any order

numpy and BLAS do not say in which order an inner product is added up, whether the accumulators start at zero, or whether a
multiplication and an addition are fused.  `DotOf l v` says that `v` is the result in one of these ways.  Every one of them
satisfies the error bound of the standard model.
-/

namespace Verif.Gen
namespace B64

/-- `v` is an inner product of the pairs in `l`, computed in some order. -/
inductive DotOf : List (B64 × B64) → B64 → Prop
  /-- an accumulator before the first term -/
  | nil (s : Bool) : DotOf [] (fin s 0)
  | one (a b : B64) : DotOf [(a, b)] (mul a b)
  | add {l l' : List (B64 × B64)} {v v' : B64} : DotOf l v → DotOf l' v' → DotOf (l ++ l') (add v v')
  | fma {l : List (B64 × B64)} {v : B64} (a b : B64) : DotOf l v → DotOf ((a, b) :: l) (fma a b v)
  | perm {l l' : List (B64 × B64)} {v : B64} : l.Perm l' → DotOf l v → DotOf l' v

/-- The exact inner product. -/
noncomputable def exact (l : List (B64 × B64)) : ℝ := (l.map fun p => val p.1 * val p.2).sum

/-- The sum of the absolute values of the products. -/
noncomputable def mass (l : List (B64 × B64)) : ℝ := (l.map fun p => |val p.1 * val p.2|).sum

theorem mass_nonneg (l : List (B64 × B64)) : 0 ≤ mass l := List.sum_nonneg (by
  intro x hx
  obtain ⟨p, -, rfl⟩ := List.mem_map.mp hx
  exact abs_nonneg _)

theorem abs_exact (l : List (B64 × B64)) : |exact l| ≤ mass l := by
  induction l with
  | nil => simp [exact, mass]
  | cons p l ih =>
    simp only [exact, mass, List.map_cons, List.sum_cons] at ih ⊢
    exact (abs_add_le _ _).trans (add_le_add le_rfl ih)

theorem exact_append (l l' : List (B64 × B64)) : exact (l ++ l') = exact l + exact l' := by simp [exact]

theorem mass_append (l l' : List (B64 × B64)) : mass (l ++ l') = mass l + mass l' := by simp [mass]

theorem exact_perm {l l' : List (B64 × B64)} (h : l.Perm l') : exact l = exact l' := (h.map _).sum_eq

theorem mass_perm {l l' : List (B64 × B64)} (h : l.Perm l') : mass l = mass l' := (h.map _).sum_eq

theorem pow_le {n : ℕ} (h : 2 * n * u ≤ 1) : (1 + u) ^ n ≤ 1 + 2 * n * u := by
  induction n with
  | zero => simp
  | succ n ih =>
    have hu := u_pos
    push_cast at h ⊢
    have hn : (0 : ℝ) ≤ n := Nat.cast_nonneg n
    have h1 : 2 * (n : ℝ) * u ≤ 1 := by linarith
    have h2 := mul_le_mul_of_nonneg_right (ih h1) (show 0 ≤ 1 + u by linarith)
    have h3 := mul_le_mul_of_nonneg_right h1 hu.le
    rw [pow_succ]
    linarith

/-- Rounding a quantity that is itself known with an error. -/
theorem round_step {w r S A e ζ : ℝ} (hr : |r - w| ≤ u * |w| + ζ) (hw : |w - S| ≤ e) (hS : |S| ≤ A) :
    |r - S| ≤ u * A + (1 + u) * e + ζ := by
  have h1 : |w| ≤ A + e := by
    have := abs_add_le (w - S) S
    rw [sub_add_cancel] at this
    linarith
  have h2 := mul_le_mul_of_nonneg_left h1 u_pos.le
  have h3 := abs_add_le (r - w) (w - S)
  rw [sub_add_sub_cancel] at h3
  linarith

/-- The error of an inner product computed in any order. -/
theorem DotOf.error {l : List (B64 × B64)} {v : B64} (h : DotOf l v) (hl : ∀ p ∈ l, Fin p.1 ∧ Fin p.2)
    (hn : l.length ≤ 2 ^ 50) (hm : mass l ≤ Ω / 2) :
    Rep v ∧ (l = [] → ∃ s, v = fin s 0) ∧
      |val v - exact l| ≤ ((1 + u) ^ l.length - 1) * mass l + l.length * (1 + u) ^ l.length * η := by
  have hu := u_pos
  have hη := η_pos
  have h1u : 1 ≤ 1 + u := by linarith
  /- bounds on the whole error -/
  have whole : ∀ n : ℕ, n ≤ 2 ^ 50 → (1 + u) ^ n ≤ 5 / 4 := by
    intro n hn
    have h1 : 2 * (n : ℝ) * u ≤ 1 / 4 := by
      have h2 : (n : ℝ) ≤ 2 ^ 50 := by exact_mod_cast hn
      have := mul_le_mul_of_nonneg_right h2 hu.le
      have e : (2 : ℝ) ^ 50 * u = 1 / 8 := by unfold u; norm_num
      linarith
    have := pow_le (n := n) (by linarith)
    linarith
  have small : (2 : ℝ) ^ 50 * η ≤ Ω / 16 := by
    have h2 : 2 ^ 53 * 2 ^ 1000 ≤ maxMag := le_maxMag (by norm_num)
    have h3 : (2 : ℝ) ^ 53 ≤ maxMag := by
      have : 2 ^ 53 ≤ maxMag := le_trans (Nat.le_mul_of_pos_right _ (by positivity)) h2
      exact_mod_cast this
    have := mul_le_mul_of_nonneg_right h3 lam_pos.le
    have e1 : (2 : ℝ) ^ 53 * lam = 16 * (2 ^ 50 * η) := by unfold η; ring
    unfold Ω
    linarith
  have bound : ∀ (n : ℕ) (A : ℝ), n ≤ 2 ^ 50 → 0 ≤ A → A ≤ Ω / 2 →
      A + (((1 + u) ^ n - 1) * A + n * (1 + u) ^ n * η) ≤ Ω := by
    intro n A hn hA hA'
    have h1 := whole n hn
    have h2 := mul_le_mul_of_nonneg_right (show (1 + u) ^ n - 1 ≤ 1 / 4 by linarith) hA
    have h3 : (n : ℝ) * (1 + u) ^ n * η ≤ 5 / 4 * (2 ^ 50 * η) := by
      have h4 : (n : ℝ) * (1 + u) ^ n ≤ 2 ^ 50 * (5 / 4) :=
        mul_le_mul (by exact_mod_cast hn) h1 (by positivity) (by positivity)
      have := mul_le_mul_of_nonneg_right h4 hη.le
      linarith
    linarith
  induction h with
  | nil s => exact ⟨Rep.zero s, fun _ => ⟨s, rfl⟩, by rw [val_fin, signed_cast]; simp [exact, mass]⟩
  | one a b =>
    obtain ⟨h1, h2⟩ := hl (a, b) (by simp)
    have hm' : |val a * val b| ≤ Ω := by
      simp only [mass, List.map_cons, List.map_nil, List.sum_cons, List.sum_nil] at hm
      linarith [abs_nonneg (val a * val b)]
    obtain ⟨i1, i2⟩ := mul_error h1 h2 hm'
    refine ⟨i1, by simp, ?_⟩
    simp only [exact, mass, List.map_cons, List.map_nil, List.sum_cons, List.sum_nil, List.length_cons, List.length_nil]
    have : η ≤ (1 + u) * η := by have := mul_le_mul_of_nonneg_right h1u hη.le; linarith
    push_cast
    simp only [add_zero, pow_one]
    linarith
  | @add l l' v v' _ _ ih ih' =>
    have hA := mass_nonneg l
    have hB := mass_nonneg l'
    rw [mass_append] at hm
    rw [List.length_append] at hn
    obtain ⟨r1, z1, e1⟩ := ih (fun p hp => hl p (by simp [hp])) (by omega) (by linarith)
    obtain ⟨r2, z2, e2⟩ := ih' (fun p hp => hl p (by simp [hp])) (by omega) (by linarith)
    by_cases hl0 : l = []
    · obtain ⟨s, rfl⟩ := z1 hl0
      subst hl0
      obtain ⟨j1, j2⟩ := add_left (s := s) r2
      rw [List.nil_append, j2]
      refine ⟨j1, fun h0 => ?_, e2⟩
      obtain ⟨t, rfl⟩ := z2 h0
      exact ⟨s && t, by cases s <;> cases t <;> rfl⟩
    by_cases hl1 : l' = []
    · obtain ⟨s, rfl⟩ := z2 hl1
      subst hl1
      obtain ⟨j1, j2⟩ := add_right (s := s) r1
      rw [List.append_nil, j2]
      exact ⟨j1, fun h0 => absurd h0 hl0, e1⟩
    have p1 := List.length_pos_iff.mpr hl0
    have p2 := List.length_pos_iff.mpr hl1
    obtain ⟨n, hn'⟩ : ∃ n, l.length + l'.length = n + 1 := ⟨l.length + l'.length - 1, by omega⟩
    have q1 : (1 + u) ^ l.length ≤ (1 + u) ^ n := pow_le_pow_right₀ h1u (by omega)
    have q2 : (1 + u) ^ l'.length ≤ (1 + u) ^ n := pow_le_pow_right₀ h1u (by omega)
    rw [mass_append, exact_append, List.length_append, hn']
    have hAB : |exact l + exact l'| ≤ mass l + mass l' := (abs_add_le _ _).trans (add_le_add (abs_exact l) (abs_exact l'))
    have c1 := mul_le_mul_of_nonneg_right (sub_le_sub_right q1 1) hA
    have c2 := mul_le_mul_of_nonneg_right (sub_le_sub_right q2 1) hB
    have c3 := mul_le_mul_of_nonneg_right (mul_le_mul_of_nonneg_left q1 (Nat.cast_nonneg l.length)) hη.le
    have c4 := mul_le_mul_of_nonneg_right (mul_le_mul_of_nonneg_left q2 (Nat.cast_nonneg l'.length)) hη.le
    have cn : ((n + 1 : ℕ) : ℝ) = l.length + l'.length := by exact_mod_cast hn'.symm
    have hw : |val v + val v' - (exact l + exact l')| ≤
        ((1 + u) ^ n - 1) * (mass l + mass l') + ((n + 1 : ℕ) : ℝ) * (1 + u) ^ n * η := by
      have := abs_add_le (val v - exact l) (val v' - exact l')
      rw [show val v - exact l + (val v' - exact l') = val v + val v' - (exact l + exact l') by ring] at this
      rw [cn]
      linarith
    have c5 : (1 + u) ^ n ≤ (1 + u) ^ (n + 1) := pow_le_pow_right₀ h1u (by omega)
    have c6 := mul_le_mul_of_nonneg_right (sub_le_sub_right c5 1) (show 0 ≤ mass l + mass l' by linarith)
    have c7 := mul_le_mul_of_nonneg_right (mul_le_mul_of_nonneg_left c5 (Nat.cast_nonneg (n + 1))) hη.le
    have c8 := bound (n + 1) (mass l + mass l') (by omega) (by linarith) (by linarith)
    have hΩ : |val v + val v'| ≤ Ω := by
      have := abs_add_le (val v + val v' - (exact l + exact l')) (exact l + exact l')
      rw [sub_add_cancel] at this
      linarith
    obtain ⟨k1, k2⟩ := add_error r1.isFin r2.isFin hΩ
    refine ⟨k1, fun h0 => absurd (List.append_eq_nil_iff.mp h0).1 hl0, ?_⟩
    refine (round_step (ζ := 0) (by rwa [_root_.add_zero]) hw hAB).trans (le_of_eq ?_)
    rw [pow_succ]; ring
  | @fma l v a b _ ih =>
    have hA := mass_nonneg l
    have em : mass ((a, b) :: l) = |val a * val b| + mass l := by simp [mass]
    have ee : exact ((a, b) :: l) = val a * val b + exact l := by simp [exact]
    have hp := abs_nonneg (val a * val b)
    rw [em] at hm
    rw [List.length_cons] at hn
    obtain ⟨h1, h2⟩ := hl (a, b) (by simp)
    obtain ⟨r1, -, e1⟩ := ih (fun p hp => hl p (by simp [hp])) (by omega) (by linarith)
    rw [em, ee, List.length_cons]
    generalize l.length = n at *
    have hS : |val a * val b + exact l| ≤ |val a * val b| + mass l := (abs_add_le _ _).trans (add_le_add le_rfl (abs_exact l))
    have hw : |val a * val b + val v - (val a * val b + exact l)| ≤ ((1 + u) ^ n - 1) * mass l + n * (1 + u) ^ n * η := by
      rwa [add_sub_add_left_eq_sub]
    have c0 : 1 ≤ (1 + u) ^ n := one_le_pow₀ h1u
    have c1 : ((1 + u) ^ n - 1) * mass l ≤ ((1 + u) ^ n - 1) * (|val a * val b| + mass l) :=
      mul_le_mul_of_nonneg_left (by linarith) (by linarith)
    have c8 := bound n (|val a * val b| + mass l) (by omega) (by linarith) hm
    have hΩ : |val a * val b + val v| ≤ Ω := by
      have := abs_add_le (val a * val b + val v - (val a * val b + exact l)) (val a * val b + exact l)
      rw [sub_add_cancel] at this
      linarith
    obtain ⟨k1, k2⟩ := fma_error h1 h2 r1.isFin hΩ
    refine ⟨k1, by simp, (round_step k2 hw hS).trans ?_⟩
    have c2 : 1 + u ≤ (1 + u) ^ (n + 1) := by
      rw [pow_succ]
      have := mul_le_mul_of_nonneg_right c0 (show 0 ≤ 1 + u by linarith)
      linarith
    have c3 := mul_le_mul_of_nonneg_left (show mass l ≤ |val a * val b| + mass l by linarith)
      (show 0 ≤ (1 + u) ^ (n + 1) - (1 + u) by linarith)
    have c4 := mul_le_mul_of_nonneg_right (show 1 ≤ (1 + u) ^ (n + 1) by linarith) hη.le
    have c5 : (1 + u) * (((1 + u) ^ n - 1) * mass l + n * (1 + u) ^ n * η) =
        ((1 + u) ^ (n + 1) - (1 + u)) * mass l + n * (1 + u) ^ (n + 1) * η := by rw [pow_succ]; ring
    rw [c5]
    push_cast
    linarith
  | @perm l l' v hp _ ih =>
    rw [← exact_perm hp, ← mass_perm hp, ← hp.length_eq]
    obtain ⟨h1, h2, h3⟩ := ih (fun p hp' => hl p (hp.mem_iff.mp hp')) (by rw [hp.length_eq]; exact hn) (by rw [mass_perm hp]; exact hm)
    exact ⟨h1, fun h0 => h2 (by subst h0; exact List.perm_nil.mp hp), h3⟩

theorem sum_getD {f : B64 → B64 → ℝ} (z : B64) : ∀ {a b : List B64} {d : ℕ}, a.length = d → b.length = d →
    ((a.zip b).map fun p => f p.1 p.2).sum = ∑ j ∈ Finset.range d, f (a.getD j z) (b.getD j z)
  | [], [], _, h, _ => by subst h; simp
  | x :: a, y :: b, _, h, h' => by
    obtain rfl := h
    rw [List.length_cons, Finset.sum_range_succ', List.zip_cons_cons, List.map_cons, List.sum_cons,
      sum_getD z (a := a) (b := b) rfl (by simpa using h')]
    simp [add_comm]
  | [], _ :: _, _, h, h' => by subst h; simp at h'
  | _ :: _, [], _, h, h' => by subst h; simp at h'

theorem DotOf.bound {a b : List B64} {v : B64} (h : DotOf (a.zip b) v) {d : ℕ} (hd : d ≤ 2 ^ 50) (ha : a.length = d) (hb : b.length = d)
    (fa : ∀ x ∈ a, Fin x) (fb : ∀ x ∈ b, Fin x) (z : B64)
    (hm : ∑ j ∈ Finset.range d, |val (a.getD j z) * val (b.getD j z)| ≤ Ω / 2) :
    Fin v ∧ |val v - ∑ j ∈ Finset.range d, val (a.getD j z) * val (b.getD j z)| ≤
      2 * d * u * ∑ j ∈ Finset.range d, |val (a.getD j z) * val (b.getD j z)| + 2 * (d * η) := by
  have hlen : (a.zip b).length = d := by rw [List.length_zip, ha, hb, min_self]
  have em : mass (a.zip b) = ∑ j ∈ Finset.range d, |val (a.getD j z) * val (b.getD j z)| :=
    sum_getD (f := fun x y => |val x * val y|) z ha hb
  have ee : exact (a.zip b) = ∑ j ∈ Finset.range d, val (a.getD j z) * val (b.getD j z) :=
    sum_getD (f := fun x y => val x * val y) z ha hb
  rw [← em] at hm ⊢
  rw [← ee]
  obtain ⟨h1, -, h2⟩ := DotOf.error h (fun p hp => ⟨fa _ (List.of_mem_zip hp).1, fb _ (List.of_mem_zip hp).2⟩)
    (by rw [hlen]; exact hd) hm
  refine ⟨h1.isFin, h2.trans ?_⟩
  rw [hlen]
  have hu := u_pos
  have h3 : 2 * (d : ℝ) * u ≤ 1 := by
    have h2 : (d : ℝ) ≤ 2 ^ 50 := by exact_mod_cast hd
    have := mul_le_mul_of_nonneg_right h2 hu.le
    have e : (2 : ℝ) ^ 50 * u = 1 / 8 := by unfold u; norm_num
    linarith
  have h4 := pow_le h3
  have h5 := mul_le_mul_of_nonneg_right (show (1 + u) ^ d - 1 ≤ 2 * d * u by linarith) (mass_nonneg (a.zip b))
  have h6 := mul_le_mul_of_nonneg_right (mul_le_mul_of_nonneg_left (show (1 + u) ^ d ≤ 2 by linarith) (Nat.cast_nonneg d)) η_pos.le
  linarith

end B64

/-- The inner products of vectors with `d` features are computed in some order. -/
def Lib.Dots (L : Lib) (d : ℕ) : Prop := ∀ a b : List B64, a.length = d → b.length = d → B64.DotOf (a.zip b) (L.dot a b)

open B64 in
/-- binary64 satisfies the standard model, including inner products, in whatever order they are computed. -/
theorem F64.standardDot {L : Lib} {d : ℕ} (hL : L.Dots d) {N : ℕ} (hN : N < 2 ^ 53) (hd : d ≤ 2 ^ 50) :
    StandardDot (F64 L) B64.val B64.Fin B64.u B64.η B64.Ω N (2 * d * B64.u) d where
  toStandard := F64.standard L hN
  sub a b ha hb h := ⟨(sub_error ha hb h).1.isFin, (sub_error ha hb h).2⟩
  zero := ⟨trivial, by show val (fin false 0) = 0; rw [val_fin, signed_cast]; simp⟩
  two := ⟨(ofNat_val (n := 2) (by norm_num)).1.isFin, by
    have := (ofNat_val (n := 2) (by norm_num)).2
    exact_mod_cast this⟩
  ofNat n hn := ⟨(ofNat_val (n := n) (by omega)).1.isFin, (ofNat_val (n := n) (by omega)).2⟩
  dot a b ha hb fa fb hm := DotOf.bound (hL a b ha hb) hd ha hb fa fb (0 : F64 L) hm

end Verif.Gen
