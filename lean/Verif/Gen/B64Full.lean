import Verif.Gen.B64Plain
import Verif.Gen.RoundingSum

/-!
# binary64 satisfies the standard model: division, square roots, sums, minimum and maximum

`SumOf l v` says that `v` is a sum of the numbers in `l`, added in some order: from left to right, pairwise, with several accumulators.
-/

namespace Verif.Gen
namespace B64

theorem div_error {a b : B64} (ha : Fin a) (hb : Fin b) (h0 : val b ≠ 0) (h : |val a / val b| ≤ Ω) :
    Rep (div a b) ∧ |val (div a b) - val a / val b| ≤ u * |val a / val b| + η := by
  cases a with
  | inf => cases ha
  | nan => cases ha
  | fin s m =>
  cases b with
  | inf => cases hb
  | nan => cases hb
  | fin t n =>
  have hn : n ≠ 0 := by
    rintro rfl
    exact h0 (by rw [val_fin, signed_cast]; simp)
  have hn' : (n : ℝ) ≠ 0 := by exact_mod_cast hn
  have hl := lam_pos.ne'
  have e : val (fin s m) / val (fin t n) = (if xor s t then -1 else 1) * (((m * unit : ℕ) : ℝ) / n) * lam := by
    have e1 : ((m * unit : ℕ) : ℝ) / n * lam = m / n := by
      push_cast
      rw [div_mul_eq_mul_div, mul_assoc, unit_mul, mul_one]
    rw [mul_assoc, e1, val_fin, val_fin, signed_cast, signed_cast, sgn_xor, mul_div_mul_right _ _ hl]
    cases s <;> cases t <;> simp [div_neg, neg_div]
  have e' : |val (fin s m) / val (fin t n)| = ((m * unit : ℕ) : ℝ) / n * lam := by
    rw [e, abs_mul, abs_mul, abs_sgn, one_mul, abs_of_pos lam_pos, abs_of_nonneg (by positivity)]
  rw [e'] at h ⊢
  have hp : 0 < n := Nat.pos_of_ne_zero hn
  obtain ⟨h1, h2⟩ := ofMag_error (s := xor s t) (a := m * unit) (b := n) hp h (rndMag_error hp)
  have ed : div (fin s m) (fin t n) = ofMag (xor s t) (m * unit) n := by rw [div, if_neg hn]
  rw [ed]
  refine ⟨h1, ?_⟩
  rw [e]
  refine h2.trans (le_of_eq ?_)
  show (u * _ + _) * lam = _
  rw [η]; ring

/-- The quotient of two natural numbers. -/
theorem intDiv_error {a b : ℕ} (h1 : 1 ≤ a) (ha : a < 2 ^ 53) (hb : 1 ≤ b) (hb' : b < 2 ^ 53) :
    Rep (intDiv a b) ∧ |val (intDiv a b) - (a : ℝ) / b| ≤ u * ((a : ℝ) / b) := by
  have hn0 : (b : ℤ) ≠ 0 := by omega
  have e : intDiv a b = ofMag false (a * unit) b := by
    have h0 : ¬ ((a : ℤ) * (b : ℤ) < 0) := not_lt.mpr (by positivity)
    rw [intDiv, if_neg hn0, Int.natAbs_natCast, Int.natAbs_natCast, decide_eq_false h0]
  have e2 : ((a * unit : ℕ) : ℝ) / b * lam = a / b := by
    push_cast
    rw [div_mul_eq_mul_div, mul_assoc, unit_mul, mul_one]
  have hl : b * 2 ^ 52 ≤ a * unit := by
    have h2 : b * 2 ^ 52 ≤ 2 ^ (53 + 52) := by rw [pow_add]; exact Nat.mul_le_mul_right _ hb'.le
    exact (h2.trans (pow_le_unit (by norm_num))).trans (Nat.le_mul_of_pos_left _ h1)
  have hm : a * unit ≤ b * maxMag := (unit_le_maxMag ha).trans (Nat.le_mul_of_pos_left _ hb)
  have hΩ : ((a * unit : ℕ) : ℝ) / b * lam ≤ Ω := by
    refine mul_le_mul_of_nonneg_right ?_ lam_pos.le
    rw [div_le_iff₀ (by exact_mod_cast hb), mul_comm (maxMag : ℝ)]
    exact_mod_cast hm
  obtain ⟨i1, i2⟩ := ofMag_error (s := false) hb hΩ (rndMag_rel hb hl)
  rw [e]
  refine ⟨i1, ?_⟩
  have e3 : (if false = true then -1 else 1 : ℝ) * (((a * unit : ℕ) : ℝ) / b) * lam = a / b := by
    rw [if_neg (by simp), one_mul, e2]
  rw [e3, mul_assoc, e2] at i2
  exact i2

/-- The factor of CH. -/
theorem chFactor_error {n k : ℕ} (hk : 2 ≤ k) (hkn : k ≤ n) (hn : n < 2 ^ 53) :
    Rep (intDiv ((n : ℤ) - k) ((k : ℤ) - 1)) ∧
      |val (intDiv ((n : ℤ) - k) ((k : ℤ) - 1)) - ((n : ℝ) - k) / ((k : ℝ) - 1)| ≤ u * (((n : ℝ) - k) / ((k : ℝ) - 1)) := by
  obtain ⟨a, rfl⟩ := Nat.exists_eq_add_of_le hkn
  obtain ⟨b, rfl⟩ : ∃ b, k = b + 1 := ⟨k - 1, by omega⟩
  have e1 : ((b + 1 + a : ℕ) : ℤ) - ((b + 1 : ℕ) : ℤ) = (a : ℕ) := by push_cast; ring
  have e2 : ((b + 1 : ℕ) : ℤ) - 1 = (b : ℕ) := by push_cast; ring
  have e3 : ((b + 1 + a : ℕ) : ℝ) - ((b + 1 : ℕ) : ℝ) = (a : ℕ) := by push_cast; ring
  have e4 : ((b + 1 : ℕ) : ℝ) - 1 = (b : ℕ) := by push_cast; ring
  rw [e1, e2, e3, e4]
  rcases Nat.eq_zero_or_pos a with rfl | ha
  · have e : intDiv ((0 : ℕ) : ℤ) (b : ℤ) = fin false 0 := by
      rw [intDiv, if_neg (by omega), Int.natAbs_natCast, Int.natAbs_natCast, Nat.zero_mul, ofMag_eq (by omega) (Nat.zero_le _)]
      have : rndMag 0 b = 0 := by unfold rndMag; simp; omega
      rw [this]; simp
    rw [e]
    exact ⟨Rep.zero false, by rw [val_fin, signed_cast]; simp⟩
  · exact intDiv_error ha (by omega) (by omega) (by omega)

theorem sqrt_error {a : B64} (ha : Fin a) (h0 : 0 ≤ val a) (h : val a ≤ Ω) :
    Fin (sqrt a) ∧ |val (sqrt a) - √(val a)| ≤ 2 * u * √(val a) := by
  cases a with
  | inf => cases ha
  | nan => cases ha
  | fin s m =>
  rcases Nat.eq_zero_or_pos m with rfl | hm
  · have e : sqrt (fin s 0) = fin s 0 := by simp [sqrt]
    have e2 : val (fin s 0) = 0 := by rw [val_fin, signed_cast]; simp
    rw [e, e2]
    exact ⟨trivial, by simp⟩
  have hm' : (0 : ℝ) < m := by exact_mod_cast hm
  have hs : s = false := by
    cases s with
    | false => rfl
    | true =>
      have : 0 < (m : ℝ) * lam := mul_pos hm' lam_pos
      rw [val_fin, signed_cast, if_pos rfl] at h0
      linarith
  subst hs
  have hv : val (fin false m) = m * lam := by rw [val_fin, signed_cast]; simp
  rw [hv] at h0 h ⊢
  obtain ⟨q, hq⟩ : ∃ q, q = Nat.sqrt (m * unit) := ⟨_, rfl⟩
  obtain ⟨t, ht⟩ : ∃ t, t = (if q * q = m * unit then 0 else 1) := ⟨_, rfl⟩
  have e : sqrt (fin false m) = ofMag false (2 * q + t) 2 := by
    rw [ht, hq, sqrt, if_neg hm.ne', if_neg (by simp)]
  obtain ⟨r, hr⟩ : ∃ r, r = √((m : ℝ) * unit) := ⟨_, rfl⟩
  have hr0 : 0 ≤ r := by rw [hr]; exact Real.sqrt_nonneg _
  have hrr : r * r = m * unit := by rw [hr]; exact Real.mul_self_sqrt (by positivity)
  have e1 : √((m : ℝ) * lam) = r * lam := by
    rw [Real.sqrt_eq_iff_mul_self_eq h0 (mul_nonneg hr0 lam_pos.le), eq_comm]
    have := unit_mul
    calc r * lam * (r * lam) = r * r * lam * lam := by ring
      _ = m * (unit * lam) * lam := by rw [hrr]; ring
      _ = m * lam := by rw [this, mul_one]
  have hq1 : (q : ℝ) ≤ r := by
    rw [hr, Real.le_sqrt (by positivity) (by positivity), pow_two]
    exact_mod_cast (by rw [hq]; exact Nat.sqrt_le _ : q * q ≤ m * unit)
  have hq2 : r < q + 1 := by
    rw [hr, Real.sqrt_lt (by positivity) (by positivity), pow_two]
    exact_mod_cast (by rw [hq]; exact Nat.lt_succ_sqrt _ : m * unit < (q + 1) * (q + 1))
  have hy : |((2 * q + t : ℕ) : ℝ) / (2 : ℕ) - r| ≤ 1 / 2 := by
    push_cast
    rw [ht]
    split
    · rename_i hqq
      have : r = q := by
        have : ((q * q : ℕ) : ℝ) = m * unit := by rw [hqq]; push_cast; rfl
        rw [hr, ← this]
        push_cast
        exact Real.sqrt_mul_self (by positivity)
      rw [this]
      norm_num
    · push_cast
      rw [abs_le]
      constructor <;> linarith
  have hbig : 2 ^ 60 ≤ q := by
    rw [hq, Nat.le_sqrt, ← pow_add]
    exact (pow_le_unit (by norm_num)).trans (Nat.le_mul_of_pos_left _ hm)
  have hbig' : (2 : ℝ) ^ 60 ≤ r := le_trans (by exact_mod_cast hbig) hq1
  have hΩ2 := one_le_Ω
  have hlam : lam ≤ 1 := by
    have h1 : (1 : ℝ) ≤ unit := by exact_mod_cast unit_pos
    have := mul_le_mul_of_nonneg_right h1 lam_pos.le
    rw [unit_mul] at this
    linarith
  have hΩ : ((2 * q + t : ℕ) : ℝ) / (2 : ℕ) * lam ≤ Ω := by
    have h1 : ((2 * q + t : ℕ) : ℝ) / (2 : ℕ) ≤ r + 1 / 2 := by linarith [(abs_le.mp hy).2]
    have h2 := mul_le_mul_of_nonneg_right h1 lam_pos.le
    have h3 : r * lam ≤ (1 + Ω) / 2 := by
      have hrl : 0 ≤ r * lam := mul_nonneg hr0 lam_pos.le
      have h4 : (r * lam) * (r * lam) ≤ Ω := by rw [← e1, Real.mul_self_sqrt h0]; exact h
      have h5 := sq_nonneg (r * lam - 1)
      linarith
    linarith
  have hb : 2 * 2 ^ 52 ≤ 2 * q + t := by omega
  obtain ⟨i1, i2⟩ := ofMag_error (s := false) (by norm_num : 0 < 2) hΩ (rndMag_rel (by norm_num : 0 < 2) hb)
  rw [e]
  refine ⟨i1.isFin, ?_⟩
  rw [if_neg (by simp), one_mul] at i2
  rw [e1]
  generalize ((2 * q + t : ℕ) : ℝ) / (2 : ℕ) = y at *
  generalize val (ofMag false (2 * q + t) 2) = w at *
  have hu := u_pos
  have hur : (2 : ℝ) ^ 7 ≤ u * r := by
    have := mul_le_mul_of_nonneg_left hbig' hu.le
    refine le_trans (le_of_eq ?_) this
    unfold u; norm_num
  have hu1 : u ≤ 1 := by unfold u; norm_num
  have k1 : |w - r * lam| ≤ |w - y * lam| + |y - r| * lam := by
    have := abs_add_le (w - y * lam) ((y - r) * lam)
    rw [abs_mul, abs_of_pos lam_pos] at this
    rwa [show w - y * lam + (y - r) * lam = w - r * lam by ring] at this
  have k2 := mul_le_mul_of_nonneg_right hy lam_pos.le
  have k3 : u * y ≤ u * r + 1 / 2 := by
    have h1 := mul_le_mul_of_nonneg_left (show y ≤ r + 1 / 2 by linarith [(abs_le.mp hy).2]) hu.le
    linarith
  have k4 : u * y + 1 / 2 ≤ 2 * u * r := by linarith
  have k5 := mul_le_mul_of_nonneg_right k4 lam_pos.le
  have i3 : |w - y * lam| ≤ u * y * lam := i2
  linarith

/-! ## Minimum and maximum -/

theorem lt_iff {a b : B64} (ha : Fin a) (hb : Fin b) : lt a b = true ↔ val a < val b := by
  cases a with
  | inf => cases ha
  | nan => cases ha
  | fin s m =>
  cases b with
  | inf => cases hb
  | nan => cases hb
  | fin t n =>
  rw [val_fin, val_fin, mul_lt_mul_iff_left₀ lam_pos, Int.cast_lt]
  simp [lt]

theorem ne_nan {a : B64} (ha : Fin a) : a ≠ nan := by rintro rfl; exact ha

theorem min2_spec {a b : B64} (ha : Fin a) (hb : Fin b) :
    (min2 a b = a ∨ min2 a b = b) ∧ val (min2 a b) ≤ val a ∧ val (min2 a b) ≤ val b := by
  rw [min2, if_neg (ne_nan ha), if_neg (ne_nan hb)]
  by_cases h : lt b a = true
  · rw [if_pos h]
    exact ⟨.inr rfl, ((lt_iff hb ha).mp h).le, le_rfl⟩
  · rw [if_neg h]
    exact ⟨.inl rfl, le_rfl, not_lt.mp fun h' => h ((lt_iff hb ha).mpr h')⟩

theorem max2_spec {a b : B64} (ha : Fin a) (hb : Fin b) :
    (max2 a b = a ∨ max2 a b = b) ∧ val a ≤ val (max2 a b) ∧ val b ≤ val (max2 a b) := by
  rw [max2, if_neg (ne_nan ha), if_neg (ne_nan hb)]
  by_cases h : lt a b = true
  · rw [if_pos h]
    exact ⟨.inr rfl, ((lt_iff ha hb).mp h).le, le_rfl⟩
  · rw [if_neg h]
    exact ⟨.inl rfl, le_rfl, not_lt.mp fun h' => h ((lt_iff ha hb).mpr h')⟩

theorem minOf_spec : ∀ (l : List B64) (a : B64), (∀ x ∈ a :: l, Fin x) →
    l.foldl min2 a ∈ a :: l ∧ ∀ x ∈ a :: l, val (l.foldl min2 a) ≤ val x
  | [], a, _ => by simp
  | b :: l, a, h => by
    have ha := h a (by simp)
    have hb := h b (by simp)
    obtain ⟨m1, m2, m3⟩ := min2_spec ha hb
    have hm : Fin (min2 a b) := by rcases m1 with e | e <;> rw [e] <;> assumption
    obtain ⟨i1, i2⟩ := minOf_spec l (min2 a b) (by
      intro x hx
      rcases List.mem_cons.mp hx with rfl | hx
      · exact hm
      · exact h x (by simp [hx]))
    rw [List.foldl_cons]
    constructor
    · rcases List.mem_cons.mp i1 with e | i1
      · rw [e]; rcases m1 with e | e <;> rw [e] <;> simp
      · simp [i1]
    · intro x hx
      have h0 := i2 (min2 a b) (by simp)
      rcases List.mem_cons.mp hx with rfl | hx
      · linarith
      rcases List.mem_cons.mp hx with rfl | hx
      · linarith
      · exact i2 x (by simp [hx])

theorem maxOf_spec : ∀ (l : List B64) (a : B64), (∀ x ∈ a :: l, Fin x) →
    l.foldl max2 a ∈ a :: l ∧ ∀ x ∈ a :: l, val x ≤ val (l.foldl max2 a)
  | [], a, _ => by simp
  | b :: l, a, h => by
    have ha := h a (by simp)
    have hb := h b (by simp)
    obtain ⟨m1, m2, m3⟩ := max2_spec ha hb
    have hm : Fin (max2 a b) := by rcases m1 with e | e <;> rw [e] <;> assumption
    obtain ⟨i1, i2⟩ := maxOf_spec l (max2 a b) (by
      intro x hx
      rcases List.mem_cons.mp hx with rfl | hx
      · exact hm
      · exact h x (by simp [hx]))
    rw [List.foldl_cons]
    constructor
    · rcases List.mem_cons.mp i1 with e | i1
      · rw [e]; rcases m1 with e | e <;> rw [e] <;> simp
      · simp [i1]
    · intro x hx
      have h0 := i2 (max2 a b) (by simp)
      rcases List.mem_cons.mp hx with rfl | hx
      · linarith
      rcases List.mem_cons.mp hx with rfl | hx
      · linarith
      · exact i2 x (by simp [hx])

/-! ## Sums -/

/-- `v` is a sum of the numbers in `l`, computed in some order. -/
inductive SumOf : List B64 → B64 → Prop
  | nil (s : Bool) : SumOf [] (fin s 0)
  | one (a : B64) : SumOf [a] a
  /-- an accumulator that starts at zero -/
  | zero (s : Bool) (a : B64) : SumOf [a] (add (fin s 0) a)
  | add {l l' : List B64} {v v' : B64} : l ≠ [] → l' ≠ [] → SumOf l v → SumOf l' v' → SumOf (l ++ l') (add v v')
  | perm {l l' : List B64} {v : B64} : l.Perm l' → SumOf l v → SumOf l' v

/-- The sum of the absolute values. -/
noncomputable def size (l : List B64) : ℝ := (l.map fun a => |val a|).sum

theorem size_nonneg (l : List B64) : 0 ≤ size l := List.sum_nonneg (by
  intro x hx
  obtain ⟨p, -, rfl⟩ := List.mem_map.mp hx
  exact abs_nonneg _)

theorem sum_le_size (l : List B64) : |(l.map val).sum| ≤ size l := by
  induction l with
  | nil => simp [size]
  | cons a l ih =>
    simp only [size, List.map_cons, List.sum_cons] at ih ⊢
    exact (abs_add_le _ _).trans (by linarith)

theorem SumOf.error {l : List B64} {v : B64} (h : SumOf l v) : (∀ a ∈ l, Fin a) → (1 + u) ^ l.length * size l ≤ Ω →
    Fin v ∧ |v.val - (l.map val).sum| ≤ ((1 + u) ^ l.length - 1) * size l := by
  have hu := u_pos
  induction h with
  | nil s => exact fun _ _ => ⟨trivial, by rw [val_fin, signed_cast]; simp⟩
  | one a =>
    intro hf _
    refine ⟨hf a (by simp), ?_⟩
    simp only [List.map_cons, List.map_nil, List.sum_cons, List.sum_nil, add_zero, sub_self, abs_zero, size, List.length_singleton]
    have := mul_nonneg hu.le (abs_nonneg (val a))
    linarith
  | zero s a =>
    intro hf hΩ
    have hz : val (fin s 0) = 0 := by rw [val_fin, signed_cast]; simp
    simp only [List.map_cons, List.map_nil, List.sum_cons, List.sum_nil, add_zero, size, List.length_singleton, pow_one] at hΩ ⊢
    have := mul_nonneg hu.le (abs_nonneg (val a))
    have := add_error (a := fin s 0) trivial (hf a (by simp)) (by rw [hz, zero_add]; linarith)
    rw [hz, zero_add] at this
    exact ⟨this.1.isFin, by linarith [this.2]⟩
  | @add l l' v v' n n' _ _ ih ih' =>
    intro hf hΩ
    have s0 := size_nonneg l
    have s0' := size_nonneg l'
    have hs : size (l ++ l') = size l + size l' := by simp [size]
    have hm : ((l ++ l').map val).sum = (l.map val).sum + (l'.map val).sum := by simp
    have c1 : 1 ≤ l.length := List.length_pos_iff.mpr n
    have c2 : 1 ≤ l'.length := List.length_pos_iff.mpr n'
    obtain ⟨P, hP⟩ : ∃ P, P = (1 + u) ^ (l.length + l'.length - 1) := ⟨_, rfl⟩
    have hP1 : 1 ≤ P := by rw [hP]; exact one_le_pow₀ (by linarith)
    have hPP : (1 + u) ^ (l ++ l').length = P * (1 + u) := by
      rw [hP, ← pow_succ, List.length_append]
      congr 1
      omega
    have p1 : (1 + u) ^ l.length ≤ P := by rw [hP]; exact pow_le_pow_right₀ (by linarith) (by omega)
    have p2 : (1 + u) ^ l'.length ≤ P := by rw [hP]; exact pow_le_pow_right₀ (by linarith) (by omega)
    rw [hPP, hs] at hΩ ⊢
    rw [hm]
    have q1 := mul_le_mul_of_nonneg_right p1 s0
    have q2 := mul_le_mul_of_nonneg_right p2 s0'
    have q3 := mul_nonneg (show 0 ≤ P by linarith) s0
    have q4 := mul_nonneg (show 0 ≤ P by linarith) s0'
    have q5 := mul_nonneg q3 hu.le
    have q6 := mul_nonneg q4 hu.le
    obtain ⟨f1, e1⟩ := ih (fun a ha => hf a (by simp [ha])) (by linarith)
    obtain ⟨f2, e2⟩ := ih' (fun a ha => hf a (by simp [ha])) (by linarith)
    have t1 := sum_le_size l
    have t2 := sum_le_size l'
    generalize (l.map val).sum = A at *
    generalize (l'.map val).sum = B at *
    have e3 : |v.val + v'.val - (A + B)| ≤ (P - 1) * (size l + size l') := by
      have := abs_add_le (v.val - A) (v'.val - B)
      rw [show v.val - A + (v'.val - B) = v.val + v'.val - (A + B) by ring] at this
      linarith
    have e4 : |v.val + v'.val| ≤ P * (size l + size l') := by
      have h1 := abs_add_le (v.val + v'.val - (A + B)) (A + B)
      rw [sub_add_cancel] at h1
      have h2 := abs_add_le A B
      linarith
    obtain ⟨f3, e5⟩ := add_error f1 f2 (by linarith)
    refine ⟨f3.isFin, ?_⟩
    have e6 := abs_add_le (val (B64.add v v') - (v.val + v'.val)) (v.val + v'.val - (A + B))
    rw [sub_add_sub_cancel] at e6
    have e7 := mul_le_mul_of_nonneg_left e4 hu.le
    linarith
  | @perm l l' v p _ ih =>
    intro hf hΩ
    have e1 : size l' = size l := (p.map _).sum_eq.symm
    have e2 : (l'.map val).sum = (l.map val).sum := (p.map _).sum_eq.symm
    rw [← p.length_eq] at hΩ ⊢
    rw [e1] at hΩ ⊢
    rw [e2]
    exact ih (fun a ha => hf a (p.mem_iff.mp ha)) hΩ

theorem SumOf.near {l : List B64} {v : B64} (h : SumOf l v) (hl : l.length ≤ 2 ^ 50) (hf : ∀ a ∈ l, Fin a) (hΩ : 2 * size l ≤ Ω) :
    Fin v ∧ |v.val - (l.map val).sum| ≤ 2 * l.length * u * size l := by
  have hs := size_nonneg l
  have hn : (l.length : ℝ) ≤ 2 ^ 50 := by exact_mod_cast hl
  have h2 : 2 * l.length * u ≤ 1 := by
    have := mul_le_mul_of_nonneg_right hn u_pos.le
    have ue : (2 : ℝ) ^ 53 * u = 1 := by unfold u; norm_num
    linarith [u_pos]
  have hp := Rounding.pow_le_of (n := l.length) u_pos.le h2
  obtain ⟨f, e⟩ := h.error hf ((mul_le_mul_of_nonneg_right (show (1 + u) ^ l.length ≤ 2 by linarith) hs).trans hΩ)
  exact ⟨f, e.trans (mul_le_mul_of_nonneg_right (by linarith) hs)⟩

end B64

/-- `np.sum` adds in some order. -/
def Lib.Sums (L : Lib) : Prop := ∀ l : List B64, B64.SumOf l (L.npSum l)

open B64 in
/-- binary64 satisfies the standard model, in whatever order `np.sum` and `np.inner` add. -/
theorem F64.standardFull {L : Lib} {d : ℕ} (hL : L.Dots d) (hs : L.Sums) {N : ℕ} (hN : N ≤ 2 ^ 50) (hd : d ≤ 2 ^ 50) :
    StandardFull (F64 L) B64.val B64.Fin B64.u B64.η B64.Ω N (2 * d * B64.u) d where
  toStandardDot := F64.standardDot hL (by omega) hd
  pySum _ := rfl
  sq _ := rfl
  div a b ha hb h0 h := ⟨(div_error ha hb h0 h).1.isFin, (div_error ha hb h0 h).2⟩
  npSum l hl hf hΩ := (hs l).near (hl.trans (max_le hN hd)) hf hΩ
  sqrt _ ha h0 h := sqrt_error ha h0 h
  minOf a l h := ⟨h _ (minOf_spec l a h).1, ⟨_, (minOf_spec l a h).1, rfl⟩, (minOf_spec l a h).2⟩
  maxOf a l h := ⟨h _ (maxOf_spec l a h).1, ⟨_, (maxOf_spec l a h).1, rfl⟩, (maxOf_spec l a h).2⟩
  chFactor n k hk hkn hn := ⟨(chFactor_error hk hkn (by omega)).1.isFin, (chFactor_error hk hkn (by omega)).2⟩

open B64 in
theorem Lib.plain_sums : Lib.plain.Sums := by
  intro l
  show SumOf l (total l)
  induction l using List.reverseRecOn with
  | nil => exact SumOf.nil false
  | append_singleton l a ih =>
    have e : total (l ++ [a]) = B64.add (total l) a := by simp [total, List.foldl_append]
    rw [e]
    by_cases h : l = []
    · subst h; exact SumOf.zero false a
    · exact ih.add h (by simp) (SumOf.one a)

end Verif.Gen
