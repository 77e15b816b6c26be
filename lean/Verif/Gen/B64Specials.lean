import Verif.Gen.Specials
import Verif.Gen.B64Sign
import Verif.Gen.B64Batch
import Verif.Props.SilAccuracy

/-! # Infinities and NaN in binary64 and in the extended reals -/

namespace Verif.Gen
namespace B64

theorem rndMag_double {a b : ℕ} (h : 1 ≤ a / b) : rndMag a b ≤ 2 * (a / b) := by
  rw [rndMag_def]
  have hs : 2 ^ (Nat.log2 (a / b) - 52) ≤ a / b :=
    (Nat.pow_le_pow_right (by norm_num) (Nat.sub_le _ _)).trans (Nat.log2_self_le (by omega))
  generalize Nat.log2 (a / b) - 52 = s at hs ⊢
  have h1 : a / (b * 2 ^ s) * 2 ^ s ≤ a / b := by
    rw [← Nat.div_div_eq_div_mul]
    exact Nat.div_mul_le_self _ _
  have h2 : (a / (b * 2 ^ s) + 1) * 2 ^ s = a / (b * 2 ^ s) * 2 ^ s + 2 ^ s := by ring
  split <;> omega

theorem rndMag_unit_one : rndMag unit 1 = unit := by
  have h : ∀ t : ℕ, unit = 2 ^ t → rndMag unit 1 = unit := fun t ht => by
    have := rndMag_small (k := 1) (t := t) (by norm_num)
    rwa [one_mul, ← ht] at this
  exact h 1074 (by unfold unit; rfl)

theorem rndMag_unit_le {n : ℕ} (hn : 1 ≤ n) : rndMag unit n ≤ unit := by
  rcases Nat.eq_or_lt_of_le hn with rfl | hn
  · exact rndMag_unit_one.le
  by_cases h : 1 ≤ unit / n
  · refine (rndMag_double h).trans ?_
    have h1 : unit / n ≤ unit / 2 := Nat.div_le_div_left hn (by norm_num)
    have h2 := Nat.div_mul_le_self unit 2
    omega
  · have h0 : unit / n = 0 := Nat.eq_zero_of_not_pos h
    rw [rndMag_def, h0]
    have hu := unit_pos
    have h3 : Nat.log2 0 - 52 = 0 := by decide
    rw [h3, pow_zero, mul_one, mul_one, h0]
    split <;> omega

theorem fin_ofMag_le {s : Bool} {a b m : ℕ} (h : rndMag a b ≤ m) (hm : m < limit) : ∃ r ≤ m, ofMag s a b = fin s r :=
  ⟨rndMag a b, h, by rw [ofMag, if_pos (lt_of_le_of_lt h hm)]⟩

theorem unit_lt_limit : unit < limit := by
  have h := unit_le_maxMag (n := 1) (by norm_num)
  rw [one_mul] at h
  exact lt_of_le_of_lt h maxMag_lt_limit

attribute [local irreducible] ofMag

theorem plus_oneMinusInv {n : ℕ} (hn : 1 ≤ n) : Plus (sub (ofNat 1) (intDiv 1 n)) := by
  have h0 : ¬ (1 * (n : ℤ) < 0) := by omega
  have hn0 : (n : ℤ) ≠ 0 := by omega
  obtain ⟨r, hr, e⟩ := fin_ofMag_le (s := false) (rndMag_unit_le hn) unit_lt_limit
  have e1 : intDiv 1 n = fin false r := by
    have h2 : (1 : ℤ).natAbs * unit = unit := one_mul unit
    have h3 : (n : ℤ).natAbs = n := Int.natAbs_natCast n
    rw [intDiv, if_neg hn0, h2, h3, decide_eq_false h0, e]
  have e2 : ofNat 1 = fin false unit := by
    rw [ofNat, one_mul, ofMag, rndMag_unit_one, if_pos unit_lt_limit]
  rw [e1, e2]
  unfold sub neg add
  simp only [Bool.not_false, Bool.false_and]
  split
  · exact plus_zero
  · refine plus_ofInt ?_
    simp only [signed, if_true, Bool.false_eq_true, if_false]
    omega

/-- Not finite -/
def Bad (a : B64) : Prop := ¬ Fin a

theorem bad_cases {a : B64} (h : Bad a) : a = nan ∨ ∃ s, a = inf s := by
  cases a with
  | fin s m => exact absurd trivial h
  | inf s => exact Or.inr ⟨s, rfl⟩
  | nan => exact Or.inl rfl

theorem bad_nan : Bad nan := id
theorem bad_inf (s : Bool) : Bad (inf s) := id

theorem nan_add (a : B64) : add nan a = nan := by cases a <;> rfl
theorem add_nan (a : B64) : add a nan = nan := by cases a <;> rfl
theorem nan_mul (a : B64) : mul nan a = nan := by cases a <;> rfl
theorem mul_nan (a : B64) : mul a nan = nan := by cases a <;> rfl
theorem nan_div (a : B64) : div nan a = nan := by cases a <;> rfl
theorem div_nan (a : B64) : div a nan = nan := by cases a <;> rfl

theorem bad_add {a : B64} (b : B64) (h : Bad a) : add a b = a ∨ add a b = nan := by
  rcases bad_cases h with rfl | ⟨s, rfl⟩
  · exact Or.inr (nan_add b)
  · cases b with
    | fin t n => exact Or.inl rfl
    | inf t => by_cases e : s = t <;> simp [add, e]
    | nan => exact Or.inr rfl

theorem bad_add' {a : B64} (b : B64) (h : Bad a) : add b a = a ∨ add b a = nan := by
  rw [add_swap]; exact bad_add b h

theorem bad_sub_self {a : B64} (h : Bad a) : sub a a = nan := by
  rcases bad_cases h with rfl | ⟨s, rfl⟩
  · rfl
  · cases s <;> rfl

theorem bad_scale {a c : B64} (hc : Plus c) (h : Bad a) : mul c a = a ∨ mul c a = nan := by
  unfold Plus at hc
  rcases bad_cases h with rfl | ⟨s, rfl⟩
  · exact Or.inr (mul_nan c)
  · cases c with
    | fin t n => obtain rfl : t = false := hc; by_cases e : n = 0 <;> simp [mul, e]
    | inf t => obtain rfl : t = false := hc; simp [mul]
    | nan => exact Or.inr rfl

theorem bad_scale' {a c : B64} (hc : Plus c) (h : Bad a) : mul a c = a ∨ mul a c = nan := by
  unfold Plus at hc
  rcases bad_cases h with rfl | ⟨s, rfl⟩
  · exact Or.inr (nan_mul c)
  · cases c with
    | fin t n => obtain rfl : t = false := hc; by_cases e : n = 0 <;> simp [mul, e]
    | inf t => obtain rfl : t = false := hc; simp [mul]
    | nan => exact Or.inr rfl

theorem bad_div {a c : B64} (hc : Plus c) (h : Bad a) : div a c = a ∨ div a c = nan := by
  unfold Plus at hc
  rcases bad_cases h with rfl | ⟨s, rfl⟩
  · exact Or.inr (nan_div c)
  · cases c with
    | fin t n => obtain rfl : t = false := hc; simp [div]
    | inf t => simp [div]
    | nan => exact Or.inr rfl

theorem bad_square {a : B64} (h : Bad a) : mul a a = inf false ∨ mul a a = nan := by
  rcases bad_cases h with rfl | ⟨s, rfl⟩
  · exact Or.inr rfl
  · cases s <;> exact Or.inl rfl

theorem foldl_bad {a : B64} (h : Bad a) : ∀ (l : List B64) (z : B64), z = a ∨ z = nan ∨ a ∈ l → l.foldl add z = a ∨ l.foldl add z = nan
  | [], z, hz => by
    rcases hz with hz | hz | hz
    exacts [Or.inl hz, Or.inr hz, absurd hz (by simp)]
  | b :: l, z, hz => by
    refine foldl_bad h l _ ?_
    rcases hz with rfl | rfl | hz
    · rcases bad_add b h with e | e <;> simp [e]
    · exact Or.inr (Or.inl (nan_add b))
    · rcases List.mem_cons.mp hz with rfl | hz
      · rcases bad_add' z h with e | e <;> simp [e]
      · exact Or.inr (Or.inr hz)

theorem SumOf.bad {a : B64} (h : Bad a) {l : List B64} {v : B64} (hs : SumOf l v) : a ∈ l → v = a ∨ v = nan := by
  induction hs with
  | nil s => exact fun ha => absurd ha (by simp)
  | one b => exact fun ha => Or.inl (List.mem_singleton.mp ha).symm
  | zero s b => intro ha; obtain rfl := List.mem_singleton.mp ha; exact bad_add' _ h
  | @add l l' v v' _ _ _ _ ih ih' =>
    intro ha
    rcases List.mem_append.mp ha with ha | ha
    · rcases ih ha with rfl | rfl
      exacts [bad_add _ h, Or.inr (nan_add _)]
    · rcases ih' ha with rfl | rfl
      exacts [bad_add' _ h, Or.inr (add_nan _)]
  | perm hp _ ih => exact fun ha => ih (hp.mem_iff.mpr ha)

theorem bad_mul {a b : B64} (h : Bad a ∨ Bad b) : Bad (mul a b) := by
  rcases h with h | h
  · rcases bad_cases h with rfl | ⟨s, rfl⟩
    · rw [nan_mul]; exact bad_nan
    · cases b with
      | fin t n => unfold mul; dsimp only; split <;> exact id
      | inf t => exact id
      | nan => exact id
  · rcases bad_cases h with rfl | ⟨s, rfl⟩
    · rw [mul_nan]; exact bad_nan
    · cases a with
      | fin t n => unfold mul; dsimp only; split <;> exact id
      | inf t => exact id
      | nan => exact id

theorem fma_bad {a b : B64} (c : B64) (h : Bad a ∨ Bad b) : fma a b c = add (mul a b) c := by
  cases a with
  | fin s m =>
    cases b with
    | fin t n => rcases h with h | h <;> exact absurd trivial h
    | inf t => rfl
    | nan => rfl
  | inf s => rfl
  | nan => rfl

theorem fma_nan (a b : B64) : fma a b nan = nan := by
  cases a with
  | fin s m =>
    cases b with
    | fin t n => rfl
    | inf t => exact add_nan _
    | nan => rfl
  | inf s => exact add_nan _
  | nan => cases b <;> rfl

theorem fma_inf {a b c : B64} (h : Bad c) : fma a b c = c ∨ fma a b c = nan := by
  by_cases hf : ∃ s m t n, a = fin s m ∧ b = fin t n
  · obtain ⟨s, m, t, n, rfl, rfl⟩ := hf
    rcases bad_cases h with rfl | ⟨s, rfl⟩ <;> exact Or.inl rfl
  have e : fma a b c = add (mul a b) c := by
    cases a with
    | fin s m =>
      cases b with
      | fin t n => exact absurd ⟨s, m, t, n, rfl, rfl⟩ hf
      | inf t => rfl
      | nan => rfl
    | inf s => rfl
    | nan => rfl
  rw [e]
  exact bad_add' _ h

theorem DotOf.bad {a b : B64} (h : Bad a ∨ Bad b) {l : List (B64 × B64)} {v : B64} (hs : DotOf l v) :
    (a, b) ∈ l → v = mul a b ∨ v = nan := by
  have hm := bad_mul h
  induction hs with
  | nil s => exact fun ha => absurd ha (by simp)
  | one p q =>
    intro ha
    obtain ⟨rfl, rfl⟩ := Prod.mk.inj (List.mem_singleton.mp ha)
    exact Or.inl rfl
  | @add l l' v v' _ _ ih ih' =>
    intro ha
    rcases List.mem_append.mp ha with ha | ha
    · rcases ih ha with rfl | rfl
      exacts [bad_add _ hm, Or.inr (nan_add _)]
    · rcases ih' ha with rfl | rfl
      exacts [bad_add' _ hm, Or.inr (add_nan _)]
  | @fma l v p q _ ih =>
    intro ha
    rcases List.mem_cons.mp ha with e | ha
    · obtain ⟨rfl, rfl⟩ := Prod.mk.inj e
      rw [fma_bad v h]
      exact bad_add _ hm
    · rcases ih ha with rfl | rfl
      exacts [fma_inf hm, Or.inr (fma_nan _ _)]
  | perm hp _ ih => exact fun ha => ih (hp.mem_iff.mpr ha)

theorem foldl_min_inf : ∀ (l : List B64) (a : B64), (∀ b ∈ a :: l, b = inf false ∨ b = nan) →
    l.foldl min2 a = inf false ∨ l.foldl min2 a = nan
  | [], a, h => h a List.mem_cons_self
  | b :: l, a, h => by
    refine foldl_min_inf l _ ?_
    intro c hc
    rcases List.mem_cons.mp hc with rfl | hc
    · rcases h a (by simp) with rfl | rfl
      · rcases h b (by simp) with rfl | rfl <;> decide
      · exact Or.inr rfl
    · exact h c (by simp [hc])

theorem foldl_max_nan' : ∀ (l : List B64) (a : B64), nan ∈ a :: l → l.foldl max2 a = nan
  | [], a, h => (List.mem_singleton.mp h).symm
  | b :: l, a, h => by
    refine foldl_max_nan' l _ ?_
    rcases List.mem_cons.mp h with rfl | h
    · exact List.mem_cons_self
    · rcases List.mem_cons.mp h with rfl | h
      · have e : max2 a nan = nan := by cases a <;> rfl
        rw [e]; exact List.mem_cons_self
      · exact List.mem_cons_of_mem _ h

theorem mem_zip_getD {α : Type} (z : α) {d j : ℕ} {a b : List α} (ha : a.length = d) (hb : b.length = d) (hj : j < d) :
    (a.getD j z, b.getD j z) ∈ a.zip b := by
  have h1 : j < (a.zip b).length := by simp [ha, hb, hj]
  have e : (a.zip b)[j] = (a.getD j z, b.getD j z) := by
    simp [List.getD_eq_getElem?_getD, ha, hb, hj]
  rw [← e]
  exact List.getElem_mem h1

end B64

/-- What is assumed of the sums of a library: each is computed in some order. -/
structure Lib.AnyOrder (L : Lib) (d : ℕ) : Prop where
  dots : L.Dots d
  sums : L.Sums
  batchSums : L.BatchSums d
  rowSums : L.RowSums

open B64 in
theorem F64.specials {L : Lib} {d : ℕ} (hL : L.AnyOrder d) : Specials (F64 L) F64.nan (B64.inf false) Bad d where
  bad_nan := B64.bad_nan
  bad_inf := B64.bad_inf false
  add := B64.bad_add
  add' := B64.bad_add'
  sub b h := B64.bad_add (neg b) h
  sub_nan := B64.add_nan
  sub_self := B64.bad_sub_self
  mul_nan := B64.mul_nan
  nan_mul := B64.nan_mul
  div_nan := B64.div_nan
  nan_div := B64.nan_div
  oneMinusInv hn h := bad_scale (plus_oneMinusInv hn) h
  invNat n h := bad_scale (plus_intDiv (by norm_num) (by omega)) h
  ofNat n h := bad_scale (plus_ofNat n) h
  two h := bad_scale (plus_ofNat 2) h
  one h := bad_scale' (plus_ofNat 1) h
  div_ofNat n h := bad_div (plus_ofNat n) h
  square := B64.bad_square
  sq_nan := rfl
  pySum ha h := foldl_bad h _ _ (Or.inr (Or.inr ha))
  npSum {a l} ha h := (hL.sums l).bad h ha
  colMean {a l} ha h := by
    show div (L.colSum l) (B64.ofNat l.length) = a ∨ div (L.colSum l) (B64.ofNat l.length) = B64.nan
    rcases (hL.batchSums.1 l).bad h ha with e | e
    · rw [e]; exact bad_div (plus_ofNat _) h
    · rw [e]; exact Or.inr (B64.nan_div _)
  minOf h := foldl_min_inf _ _ h
  maxOf h := B64.foldl_max_nan' _ _ h
  ratio := rfl
  truthy {a} h := by
    rcases bad_cases h with rfl | ⟨s, rfl⟩ <;> rfl
  dot {a b j} ha hb hj h := (hL.dots a b ha hb).bad h (mem_zip_getD _ ha hb hj)
  sum2 {rows r} hr hm hn := ((hL.batchSums.2 rows hr).bad B64.bad_nan (List.mem_flatten.mpr ⟨r, hm, hn⟩)).elim id id
  rowSum {l} hn := ((hL.rowSums l).bad B64.bad_nan hn).elim id id

end Verif.Gen
