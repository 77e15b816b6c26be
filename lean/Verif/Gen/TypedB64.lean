import Verif.Gen.TypedRCIP
import Verif.Gen.B64Linalg
import Verif.Gen.B64Reflect

/-! # Integers below `2 ^ 53` in binary64, and all integers in exact arithmetic -/

namespace Verif.Gen
open B64

namespace B64

/-- The nearest float to an integer. -/
def fromInt (z : ℤ) : B64 := ofMag (decide (z < 0)) (z.natAbs * unit) 1

/-- `a` is the integer `z`; zero may have either sign. -/
def IsInt (a : B64) (z : ℤ) : Prop := ∃ s, a = fin s (z.natAbs * unit) ∧ (z ≠ 0 → s = decide (z < 0))

theorem ofMag_int (s : Bool) {n : ℕ} (h : n < 2 ^ 53) : ofMag s (n * unit) 1 = fin s (n * unit) := by
  have e : rndMag (n * unit) 1 = n * unit := by unfold unit; exact rndMag_small h
  rw [ofMag_eq one_pos (by rw [one_mul]; exact unit_le_maxMag h), e]

theorem fromInt_eq {z : ℤ} (h : z.natAbs < 2 ^ 53) : fromInt z = fin (decide (z < 0)) (z.natAbs * unit) := ofMag_int _ h

theorem fromInt_isInt {z : ℤ} (h : z.natAbs < 2 ^ 53) : IsInt (fromInt z) z := ⟨_, fromInt_eq h, fun _ => rfl⟩

theorem IsInt.signed {s : Bool} {z : ℤ} (h : z ≠ 0 → s = decide (z < 0)) : B64.signed s (z.natAbs * unit) = z * unit := by
  by_cases h0 : z = 0
  · subst h0; simp [B64.signed]
  · rw [h h0]
    rcases lt_or_ge z 0 with hz | hz
    · rw [decide_eq_true hz]
      simp only [B64.signed, if_true]
      push_cast
      rw [abs_of_neg hz]
      ring
    · rw [decide_eq_false (not_lt.mpr hz)]
      simp only [B64.signed, if_neg Bool.false_ne_true]
      push_cast
      rw [abs_of_nonneg hz]

theorem natAbs_mul_unit (z : ℤ) : (z * (unit : ℤ)).natAbs = z.natAbs * unit := by rw [Int.natAbs_mul, Int.natAbs_natCast]

theorem decide_mul_unit (z : ℤ) : decide (z * (unit : ℤ) < 0) = decide (z < 0) := by
  have hu : (0 : ℤ) < unit := by exact_mod_cast unit_pos
  congr 1
  exact propext ⟨fun h => by by_contra h'; exact absurd h (not_lt.mpr (mul_nonneg (not_lt.mp h') hu.le)), fun h => mul_neg_of_neg_of_pos h hu⟩

theorem IsInt.add {a b : B64} {x y : ℤ} (ha : IsInt a x) (hb : IsInt b y) (h : (x + y).natAbs < 2 ^ 53) : IsInt (add a b) (x + y) := by
  obtain ⟨s, rfl, hs⟩ := ha
  obtain ⟨t, rfl, ht⟩ := hb
  have hu : (unit : ℤ) ≠ 0 := by exact_mod_cast unit_pos.ne'
  rw [B64.add, IsInt.signed hs, IsInt.signed ht, ← add_mul]
  by_cases h0 : x + y = 0
  · rw [if_pos (by rw [h0, zero_mul]), h0]
    exact ⟨s && t, by simp, fun h => absurd rfl h⟩
  · rw [if_neg (mul_ne_zero h0 hu), B64.ofInt, natAbs_mul_unit, decide_mul_unit, ofMag_int _ h]
    exact ⟨_, rfl, fun _ => rfl⟩

theorem sign_mul {s t : Bool} {x y : ℤ} (hs : x ≠ 0 → s = decide (x < 0)) (ht : y ≠ 0 → t = decide (y < 0)) (h : x * y ≠ 0) :
    xor s t = decide (x * y < 0) := by
  rw [hs (left_ne_zero_of_mul h), ht (right_ne_zero_of_mul h)]
  rcases lt_or_gt_of_ne (left_ne_zero_of_mul h) with hx | hx <;> rcases lt_or_gt_of_ne (right_ne_zero_of_mul h) with hy | hy
  · rw [decide_eq_true hx, decide_eq_true hy, decide_eq_false (not_lt.mpr (mul_pos_of_neg_of_neg hx hy).le)]; rfl
  · rw [decide_eq_true hx, decide_eq_false (not_lt.mpr hy.le), decide_eq_true (mul_neg_of_neg_of_pos hx hy)]; rfl
  · rw [decide_eq_false (not_lt.mpr hx.le), decide_eq_true hy, decide_eq_true (mul_neg_of_pos_of_neg hx hy)]; rfl
  · rw [decide_eq_false (not_lt.mpr hx.le), decide_eq_false (not_lt.mpr hy.le), decide_eq_false (not_lt.mpr (mul_pos hx hy).le)]; rfl

theorem ofMag_unit (s : Bool) {n : ℕ} (h : n < 2 ^ 53) : ofMag s (unit * (n * unit)) unit = fin s (n * unit) := by
  rw [← ofMag_int s h, ofMag, ofMag, rndMag_cancel unit_pos]

theorem IsInt.mul {a b : B64} {x y : ℤ} (ha : IsInt a x) (hb : IsInt b y) (h : (x * y).natAbs < 2 ^ 53) : IsInt (mul a b) (x * y) := by
  obtain ⟨s, rfl, hs⟩ := ha
  obtain ⟨t, rfl, ht⟩ := hb
  have e : x.natAbs * unit * (y.natAbs * unit) = unit * ((x * y).natAbs * unit) := by rw [Int.natAbs_mul]; ring
  rw [B64.mul, e, ofMag_unit _ h]
  exact ⟨_, rfl, sign_mul hs ht⟩

theorem IsInt.fma {a b c : B64} {x y z : ℤ} (ha : IsInt a x) (hb : IsInt b y) (hc : IsInt c z) (h : (x * y + z).natAbs < 2 ^ 53) :
    IsInt (fma a b c) (x * y + z) := by
  obtain ⟨s, rfl, hs⟩ := ha
  obtain ⟨t, rfl, ht⟩ := hb
  obtain ⟨r, rfl, hr⟩ := hc
  have hu : (unit : ℤ) ≠ 0 := by exact_mod_cast unit_pos.ne'
  have e : x.natAbs * unit * (y.natAbs * unit) = (x * y).natAbs * unit * unit := by rw [Int.natAbs_mul]; ring
  have e1 : B64.signed (xor s t) ((x * y).natAbs * unit * unit) = x * y * unit * unit := by
    rw [← IsInt.signed (sign_mul hs ht)]
    cases xor s t <;> simp [B64.signed]
  rw [B64.fma, e, e1, IsInt.signed hr, ← add_mul, ← add_mul]
  by_cases h0 : x * y + z = 0
  · rw [if_pos (by rw [h0, zero_mul, zero_mul]), h0]
    exact ⟨xor s t && r, by simp, fun h => absurd rfl h⟩
  · rw [if_neg (mul_ne_zero (mul_ne_zero h0 hu) hu), natAbs_mul_unit, natAbs_mul_unit, decide_mul_unit, decide_mul_unit,
      mul_comm (_ * unit) unit, ofMag_unit _ h]
    exact ⟨_, rfl, fun _ => rfl⟩

/-- The exact inner product, and the sum of the absolute values of the products. -/
def idot (l : List (ℤ × ℤ)) : ℤ := (l.map fun p => p.1 * p.2).sum
def imass (l : List (ℤ × ℤ)) : ℤ := (l.map fun p => |p.1 * p.2|).sum

theorem imass_nonneg (l : List (ℤ × ℤ)) : 0 ≤ imass l := List.sum_nonneg (by
  intro x hx
  obtain ⟨p, -, rfl⟩ := List.mem_map.mp hx
  exact abs_nonneg _)

theorem abs_idot (l : List (ℤ × ℤ)) : |idot l| ≤ imass l := by
  induction l with
  | nil => simp [idot, imass]
  | cons p l ih =>
    simp only [idot, imass, List.map_cons, List.sum_cons] at ih ⊢
    exact (abs_add_le _ _).trans (by omega)

theorem natAbs_lt {z M : ℤ} (h : |z| ≤ M) (hM : M < 2 ^ 53) : z.natAbs < 2 ^ 53 := by
  have : (z.natAbs : ℤ) = |z| := Int.natCast_natAbs z
  omega

theorem perm_map_inv {α β : Type} {f : α → β} {l l' : List β} (h : l.Perm l') :
    ∀ w : List α, l' = w.map f → ∃ w' : List α, l = w'.map f ∧ w'.Perm w := by
  induction h with
  | nil => intro w hw; exact ⟨[], rfl, by rw [List.map_eq_nil_iff.mp hw.symm]⟩
  | cons x _ ih =>
    intro w hw
    obtain ⟨a, w1, rfl, rfl, h1⟩ := List.map_eq_cons_iff.mp hw.symm
    obtain ⟨w', e, h'⟩ := ih w1 h1.symm
    exact ⟨a :: w', by rw [e]; rfl, h'.cons a⟩
  | swap x y l =>
    intro w hw
    obtain ⟨a, w1, rfl, rfl, h1⟩ := List.map_eq_cons_iff.mp hw.symm
    obtain ⟨b, w2, rfl, rfl, rfl⟩ := List.map_eq_cons_iff.mp h1
    exact ⟨b :: a :: w2, rfl, .swap _ _ _⟩
  | trans _ _ ih1 ih2 =>
    intro w hw
    obtain ⟨w2, e2, h2⟩ := ih2 w hw
    obtain ⟨w1, e1, h1⟩ := ih1 w2 e2
    exact ⟨w1, e1, h1.trans h2⟩

/-- Inner products of integers are exact, in any order. -/
theorem DotOf.int {l : List (B64 × B64)} {v : B64} (h : DotOf l v) :
    ∀ w : List (ℤ × ℤ), l = w.map (fun p => (fromInt p.1, fromInt p.2)) → (∀ p ∈ w, p.1.natAbs < 2 ^ 53 ∧ p.2.natAbs < 2 ^ 53) →
      imass w < 2 ^ 53 → IsInt v (idot w) := by
  induction h with
  | nil s =>
    intro w hw _ _
    obtain rfl : w = [] := by simpa using hw.symm
    exact ⟨s, by simp [idot], fun h => absurd rfl h⟩
  | one a b =>
    intro w hw hb hm
    obtain ⟨p, rfl⟩ : ∃ p, w = [p] := by
      match w, hw with
      | [p], _ => exact ⟨p, rfl⟩
    obtain ⟨rfl, rfl⟩ : a = fromInt p.1 ∧ b = fromInt p.2 := by simpa using hw
    obtain ⟨h1, h2⟩ := hb p (by simp)
    have e : idot [p] = p.1 * p.2 := by simp [idot]
    have := natAbs_lt (abs_idot [p]) hm
    rw [e] at this ⊢
    exact (fromInt_isInt h1).mul (fromInt_isInt h2) this
  | @add l l' v v' _ _ ih ih' =>
    intro w hw hb hm
    obtain ⟨w1, w2, rfl, h1, h2⟩ := List.append_eq_map_iff.mp hw
    have em : imass (w1 ++ w2) = imass w1 + imass w2 := by simp [imass]
    have ee : idot (w1 ++ w2) = idot w1 + idot w2 := by simp [idot]
    have n1 := imass_nonneg w1
    have n2 := imass_nonneg w2
    have := natAbs_lt (abs_idot (w1 ++ w2)) hm
    rw [ee] at this ⊢
    exact (ih w1 h1.symm (fun p hp => hb p (by simp [hp])) (by omega)).add (ih' w2 h2.symm (fun p hp => hb p (by simp [hp])) (by omega)) this
  | @fma l v a b _ ih =>
    intro w hw hb hm
    obtain ⟨p, w', rfl⟩ : ∃ p w', w = p :: w' := by
      match w, hw with
      | p :: w', _ => exact ⟨p, w', rfl⟩
    obtain ⟨⟨rfl, rfl⟩, hl⟩ : (a = fromInt p.1 ∧ b = fromInt p.2) ∧ l = w'.map fun p => (fromInt p.1, fromInt p.2) := by simpa using hw
    obtain ⟨h1, h2⟩ := hb p (by simp)
    have em : imass (p :: w') = |p.1 * p.2| + imass w' := by simp [imass]
    have ee : idot (p :: w') = p.1 * p.2 + idot w' := by simp [idot]
    have := natAbs_lt (abs_idot (p :: w')) hm
    rw [ee] at this ⊢
    exact (fromInt_isInt h1).fma (fromInt_isInt h2) (ih w' hl (fun p hp => hb p (by simp [hp])) (by
      have := abs_nonneg (p.1 * p.2); omega)) this
  | @perm l l' v hp _ ih =>
    intro w hw hb hm
    subst hw
    obtain ⟨w', hw', h'⟩ := perm_map_inv hp w rfl
    have ee : idot w' = idot w := (h'.map _).sum_eq
    have em : imass w' = imass w := (h'.map _).sum_eq
    rw [← ee]
    exact ih w' hw' (fun p hp => hb p (h'.mem_iff.mp hp)) (by rw [em]; exact hm)

theorem notNeg_zero (s : Bool) : NotNeg (fin s 0) := by
  unfold NotNeg; exact Or.inr rfl

theorem plus_fin {s : Bool} {m : ℕ} (h : Plus (fin s m)) : s = false := by
  unfold Plus at h; exact h

theorem plus_fma_self {a c : B64} (hc : NotNeg c) : Plus (B64.fma a a c) := by
  have g : Plus (B64.add (B64.mul a a) c) := plus_add (plus_square a) hc
  cases a with
  | inf s => exact g
  | nan => exact g
  | fin s m =>
    cases c with
    | inf r =>
      rw [B64.fma]
      · unfold Plus; unfold NotNeg at hc; exact hc
      · intro r k h; cases h
    | nan =>
      rw [B64.fma]
      · unfold Plus; trivial
      · intro r k h; cases h
    | fin r k =>
      have e : xor s s = false := Bool.xor_self s
      have e1 : B64.signed r k = k := signed_notNeg hc
      rw [B64.fma, e, e1]
      split
      · exact plus_zero
      · have h0 : ¬ B64.signed false (m * m) + (k : ℤ) * unit < 0 := by
          simp only [B64.signed, if_neg Bool.false_ne_true]
          exact not_lt.mpr (by positivity)
        rw [decide_eq_false h0]
        exact plus_ofMag _ _

/-- A sum of squares is not negative, not even `-0`. -/
theorem DotOf.squares {l : List (B64 × B64)} {v : B64} (h : DotOf l v) (hl : ∀ p ∈ l, p.1 = p.2) : NotNeg v ∧ (l ≠ [] → Plus v) := by
  induction h with
  | nil s => exact ⟨notNeg_zero s, fun h => absurd rfl h⟩
  | one a b =>
    obtain rfl : a = b := hl (a, b) (by simp)
    exact ⟨(plus_square a).notNeg, fun _ => plus_square a⟩
  | @add l l' v v' _ _ ih ih' =>
    obtain ⟨h1, h2⟩ := ih fun p hp => hl p (by simp [hp])
    obtain ⟨h3, h4⟩ := ih' fun p hp => hl p (by simp [hp])
    by_cases e : l = []
    · by_cases e' : l' = []
      · subst e e'
        exact ⟨notNeg_add h1 h3, fun h => absurd rfl h⟩
      · have := plus_add' h1 (h4 e')
        exact ⟨this.notNeg, fun _ => this⟩
    · have := plus_add (h2 e) h3
      exact ⟨this.notNeg, fun _ => this⟩
  | @fma l v a b _ ih =>
    obtain rfl : a = b := hl (a, b) (by simp)
    have := plus_fma_self (a := a) (ih fun p hp => hl p (by simp [hp])).1
    exact ⟨this.notNeg, fun _ => this⟩
  | @perm l l' v hp _ ih =>
    obtain ⟨h1, h2⟩ := ih fun p hp' => hl p (hp.mem_iff.mp hp')
    exact ⟨h1, fun h => h2 fun e => h (by subst e; exact List.nil_perm.mp hp)⟩

theorem IsInt.eq {a : B64} {z : ℤ} (h : IsInt a z) (hz : z.natAbs < 2 ^ 53) (h0 : 0 ≤ z) (hp : Plus a) : a = fromInt z := by
  obtain ⟨s, rfl, hs⟩ := h
  rw [fromInt_eq hz, decide_eq_false (not_lt.mpr h0)]
  exact congrArg (fin · _) (plus_fin hp)

theorem plus_fromInt {z : ℤ} (h : 0 ≤ z) : Plus (fromInt z) := by
  rw [fromInt, decide_eq_false (not_lt.mpr h)]; exact plus_ofMag _ _

end B64

namespace Typed

instance {L : Lib} : FromInt (F64 L) := ⟨B64.fromInt⟩
noncomputable instance : FromInt XR := ⟨fun z => .fin z⟩

theorem idot_self (l : List ℤ) : idot (l.map fun z => (z, z)) = normSq l := by
  simp only [idot, normSq, List.map_map, Function.comp_def, sq]
theorem imass_self (l : List ℤ) : imass (l.map fun z => (z, z)) = normSq l := by
  simp only [imass, normSq, List.map_map, Function.comp_def, sq, abs_mul_self]

theorem sq_le_normSq {l : List ℤ} {z : ℤ} (h : z ∈ l) : z ^ 2 ≤ normSq l :=
  List.single_le_sum (fun x hx => by obtain ⟨y, -, rfl⟩ := List.mem_map.mp hx; exact sq_nonneg y) _ (List.mem_map_of_mem h)

theorem natAbs_le_sq (z : ℤ) : (z.natAbs : ℤ) ≤ z ^ 2 := by
  rw [Int.natCast_natAbs, ← sq_abs z]
  rcases (abs_nonneg z).eq_or_lt with h | h
  · rw [← h]; norm_num
  · nlinarith

/-- Integers below `2 ^ 53` in binary64. -/
theorem F64.intExact {L : Lib} {d : ℕ} (hL : L.Dots d) (hd : 0 < d) : IntExact (F64 L) (2 ^ 53 - 1) d where
  lt := by norm_num
  two := rfl
  add a b ha hb h := by
    have h1 := (fromInt_isInt (z := a) (by omega)).add (fromInt_isInt (z := b) (by omega)) (by omega)
    exact h1.eq (by omega) (by omega) (plus_add (plus_fromInt ha) (plus_fromInt hb).notNeg)
  mul m a ha ha' hm h := by
    have hz : 0 ≤ (m : ℤ) * a := by positivity
    have e : (Arith.ofNat m : F64 L) = fromInt m := by
      show B64.ofNat m = _
      rw [B64.ofNat, fromInt, decide_eq_false (not_lt.mpr (Int.natCast_nonneg m)), Int.natAbs_natCast]
    rw [e]
    have h1 := (fromInt_isInt (z := (m : ℤ)) (by omega)).mul (fromInt_isInt (z := a) (by omega)) (by omega)
    exact h1.eq (by omega) hz (plus_mul (plus_fromInt (by omega)) (plus_fromInt ha))
  dot l hl h := by
    have hw : (l.map fromInt).zip (l.map fromInt) = (l.map fun z => (z, z)).map fun p => (fromInt p.1, fromInt p.2) := by
      rw [List.zip_map']; simp
    have h0 := normSq_nonneg l
    have h1 := hL (l.map fromInt) (l.map fromInt) (by simpa using hl) (by simpa using hl)
    have h2 := h1.int _ hw (by
      intro p hp
      obtain ⟨z, hz, rfl⟩ := List.mem_map.mp hp
      have := sq_le_normSq hz
      have := natAbs_le_sq z
      exact ⟨by simp only; omega, by simp only; omega⟩) (by rw [imass_self]; omega)
    rw [idot_self] at h2
    refine h2.eq (by omega) h0 ((h1.squares ?_).2 ?_)
    · intro p hp
      rw [hw] at hp
      obtain ⟨q, hq, rfl⟩ := List.mem_map.mp hp
      obtain ⟨z, -, rfl⟩ := List.mem_map.mp hq
      rfl
    · intro e
      rw [hw] at e
      have : l = [] := by simpa using e
      subst this
      simp at hl
      omega

theorem XR.dot_self (l : List ℤ) :
    (List.zipWith (· * ·) (l.map fun z : ℤ => XR.fin z) (l.map fun z : ℤ => XR.fin z)).sum = XR.fin (normSq l : ℤ) := by
  induction l with
  | nil => simp [normSq]; rfl
  | cons a l ih =>
    simp only [List.map_cons, List.zipWith_cons_cons, List.sum_cons, ih, normSq]
    push_cast
    rw [XR.fin_mul, XR.fin_add, sq]

/-- Integers in exact arithmetic. -/
theorem XR.intExact (d : ℕ) : IntExact XR (2 ^ 63 - 1) d where
  lt := by norm_num
  two := by show XR.fin ((2 : ℕ) : ℝ) = XR.fin 2; norm_num
  add a b _ _ _ := by show XR.fin _ + XR.fin _ = XR.fin _; push_cast; rfl
  mul m a _ _ _ _ := by show XR.fin _ * XR.fin _ = XR.fin _; push_cast; rfl
  dot l _ _ := XR.dot_self l

end Typed
end Verif.Gen
