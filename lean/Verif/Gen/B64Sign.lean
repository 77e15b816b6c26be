import Verif.Gen.B64Batch
import Verif.Gen.SpecBatch
import Verif.Gen.Batch
import Verif.Gen.Uniform

/-! # Signs in binary64 -/

namespace Verif.Gen
namespace B64

/-- NaN, or the sign bit is clear. -/
def Plus : B64 → Prop
  | fin s _ => s = false
  | inf s => s = false
  | nan => True

/-- NaN, or zero of either sign, or the sign bit is clear. -/
def NotNeg : B64 → Prop
  | fin s m => s = false ∨ m = 0
  | inf s => s = false
  | nan => True

theorem Plus.notNeg {a : B64} (h : Plus a) : NotNeg a := by
  cases a with
  | fin s m => exact Or.inl h
  | inf s => exact h
  | nan => exact h

theorem NotNeg.lt {a : B64} (h : NotNeg a) : lt a (fin false 0) = false := by
  cases a with
  | fin s m =>
    rcases h with rfl | rfl
    · simp [B64.lt, signed]
    · cases s <;> simp [B64.lt, signed]
  | inf s => exact h
  | nan => rfl

theorem plus_zero : Plus (fin false 0) := rfl

theorem plus_ofMag (a b : ℕ) : Plus (ofMag false a b) := by
  unfold ofMag; split <;> rfl

theorem ofMag_zero (s : Bool) {b : ℕ} (hb : 0 < b) : ofMag s 0 b = fin s 0 := by
  have e : rndMag 0 b = 0 := by
    rw [rndMag_def, Nat.zero_div, Nat.zero_mod, if_pos (Or.inl (by positivity)), Nat.zero_div, Nat.zero_mul]
  rw [ofMag_eq hb (Nat.zero_le _), e]

theorem ofNat_zero : ofNat 0 = fin false 0 := by
  rw [ofNat, Nat.zero_mul]
  exact ofMag_zero _ Nat.one_pos

attribute [local irreducible] ofMag

theorem plus_ofNat (n : ℕ) : Plus (ofNat n) := plus_ofMag _ _

theorem plus_intDiv {a b : ℤ} (ha : 0 ≤ a) (hb : 0 ≤ b) : Plus (intDiv a b) := by
  unfold intDiv
  split
  · trivial
  · rw [decide_eq_false (by have := mul_nonneg ha hb; omega)]
    exact plus_ofMag _ _

theorem plus_square (a : B64) : Plus (mul a a) := by
  cases a with
  | fin s m =>
    show Plus (ofMag (xor s s) (m * m) unit)
    rw [Bool.xor_self]
    exact plus_ofMag _ _
  | inf s => exact Bool.xor_self s
  | nan => trivial

theorem plus_mul {a b : B64} (ha : Plus a) (hb : Plus b) : Plus (mul a b) := by
  cases a with
  | fin s m =>
    obtain rfl : s = false := ha
    cases b with
    | fin t n => obtain rfl : t = false := hb; exact plus_ofMag _ _
    | inf t =>
      obtain rfl : t = false := hb
      unfold mul
      dsimp only
      split
      · trivial
      · rfl
    | nan => trivial
  | inf s =>
    obtain rfl : s = false := ha
    cases b with
    | fin t n =>
      obtain rfl : t = false := hb
      unfold mul
      dsimp only
      split
      · trivial
      · rfl
    | inf t => obtain rfl : t = false := hb; rfl
    | nan => trivial
  | nan => cases b <;> trivial

theorem plus_div {a b : B64} (ha : Plus a) (hb : Plus b) : Plus (div a b) := by
  cases a with
  | fin s m =>
    obtain rfl : s = false := ha
    cases b with
    | fin t n =>
      obtain rfl : t = false := hb
      unfold div
      dsimp only
      split
      · split
        · trivial
        · rfl
      · exact plus_ofMag _ _
    | inf t => obtain rfl : t = false := hb; rfl
    | nan => trivial
  | inf s =>
    obtain rfl : s = false := ha
    cases b with
    | fin t n => obtain rfl : t = false := hb; rfl
    | inf t => trivial
    | nan => trivial
  | nan => cases b <;> trivial

theorem notNeg_div {a b : B64} (ha : NotNeg a) (hb : Plus b) : NotNeg (div a b) := by
  cases a with
  | fin s m =>
    rcases ha with rfl | rfl
    · exact (plus_div (a := fin false m) rfl hb).notNeg
    · cases b with
      | fin t n =>
        unfold div
        dsimp only
        split
        · trivial
        · rw [Nat.zero_mul]
          rw [ofMag_zero _ (by omega)]
          exact Or.inr rfl
      | inf t => exact Or.inr rfl
      | nan => trivial
  | inf s => exact (plus_div (a := inf s) ha hb).notNeg
  | nan => exact (plus_div (a := nan) trivial hb).notNeg

theorem signed_notNeg {s : Bool} {m : ℕ} (h : NotNeg (fin s m)) : signed s m = m := by
  rcases h with rfl | rfl
  · rfl
  · cases s <;> rfl

theorem plus_ofInt {z : ℤ} (h : 0 ≤ z) : Plus (ofInt z) := by
  unfold ofInt
  rw [decide_eq_false (by omega)]
  exact plus_ofMag _ _

theorem notNeg_add {a b : B64} (ha : NotNeg a) (hb : NotNeg b) : NotNeg (add a b) := by
  cases a with
  | fin s m =>
    cases b with
    | fin t n =>
      unfold add
      dsimp only
      rw [signed_notNeg ha, signed_notNeg hb]
      split
      · exact Or.inr rfl
      · exact (plus_ofInt (by omega)).notNeg
    | inf t => exact hb
    | nan => trivial
  | inf s =>
    obtain rfl : s = false := ha
    cases b with
    | fin t n => rfl
    | inf t => obtain rfl : t = false := hb; exact rfl
    | nan => trivial
  | nan => cases b <;> trivial

theorem plus_add {a b : B64} (ha : Plus a) (hb : NotNeg b) : Plus (add a b) := by
  cases a with
  | fin s m =>
    cases b with
    | fin t n =>
      unfold add
      dsimp only
      rw [signed_notNeg ha.notNeg, signed_notNeg hb]
      split
      · obtain rfl : s = false := ha
        rfl
      · exact plus_ofInt (by omega)
    | inf t => exact hb
    | nan => trivial
  | inf s =>
    obtain rfl : s = false := ha
    cases b with
    | fin t n => rfl
    | inf t => obtain rfl : t = false := hb; exact rfl
    | nan => trivial
  | nan => cases b <;> trivial

theorem add_swap (a b : B64) : add a b = add b a := by
  cases a with
  | fin s m =>
    cases b with
    | fin t n =>
      unfold add
      dsimp only
      rw [add_comm (signed s m), Bool.and_comm]
    | inf t => rfl
    | nan => rfl
  | inf s =>
    cases b with
    | fin t n => rfl
    | inf t => cases s <;> cases t <;> rfl
    | nan => rfl
  | nan => cases b <;> rfl

theorem plus_add' {a b : B64} (ha : NotNeg a) (hb : Plus b) : Plus (add a b) := by
  rw [add_swap]
  exact plus_add hb ha

theorem plus_sqrt {a : B64} (h : Plus a) : Plus (sqrt a) := by
  cases a with
  | fin s m =>
    obtain rfl : s = false := h
    unfold sqrt
    dsimp only
    split
    · rfl
    · rw [if_neg Bool.false_ne_true]
      exact plus_ofMag _ _
  | inf s => obtain rfl : s = false := h; rfl
  | nan => trivial

theorem plus_min2 {a b : B64} (ha : Plus a) (hb : Plus b) : Plus (min2 a b) := by
  unfold min2; split <;> (try split) <;> (try split) <;> trivial

theorem plus_max2 {a b : B64} (ha : Plus a) (hb : Plus b) : Plus (max2 a b) := by
  unfold max2; split <;> (try split) <;> (try split) <;> trivial

/-- The larger of two numbers is not negative if one of them is not. -/
theorem notNeg_max2 {a b : B64} (h : NotNeg a ∨ NotNeg b) : NotNeg (max2 a b) := by
  unfold max2
  split
  · trivial
  split
  · trivial
  rename_i hna hnb
  split
  · rename_i hl
    rcases h with h | h
    · cases a with
      | fin s m =>
        cases b with
        | fin t n =>
          have h0 := signed_notNeg h
          unfold lt at hl
          have hl' := of_decide_eq_true hl
          rw [h0] at hl'
          refine Or.inl ?_
          cases t
          · rfl
          · simp only [signed, if_true] at hl'; omega
        | inf t =>
          unfold lt at hl
          show t = false
          simpa using hl
        | nan => exact absurd rfl hnb
      | inf s =>
        obtain rfl : s = false := h
        cases b <;> simp [lt] at hl
      | nan => exact absurd rfl hna
    · exact h
  · rename_i hl
    rcases h with h | h
    · exact h
    · cases b with
      | fin t n =>
        cases a with
        | fin s m =>
          have h0 := signed_notNeg h
          unfold lt at hl
          simp only [decide_eq_true_eq, h0] at hl
          cases s
          · exact Or.inl rfl
          · refine Or.inr ?_
            simp only [signed, if_true] at hl
            omega
        | inf s =>
          unfold lt at hl
          show s = false
          simpa using hl
        | nan => exact absurd rfl hna
      | inf t =>
        obtain rfl : t = false := h
        cases a with
        | fin s m => simp [lt] at hl
        | inf s => cases s <;> first | rfl | simp [lt] at hl
        | nan => exact absurd rfl hna
      | nan => exact absurd rfl hnb

theorem plus_foldl_min : ∀ (l : List B64) (a : B64), Plus a → (∀ b ∈ l, Plus b) → Plus (l.foldl min2 a)
  | [], _, h, _ => h
  | b :: l, a, h, hl => plus_foldl_min l _ (plus_min2 h (hl b (by simp))) fun c hc => hl c (by simp [hc])

theorem plus_foldl_max : ∀ (l : List B64) (a : B64), Plus a → (∀ b ∈ l, Plus b) → Plus (l.foldl max2 a)
  | [], _, h, _ => h
  | b :: l, a, h, hl => plus_foldl_max l _ (plus_max2 h (hl b (by simp))) fun c hc => hl c (by simp [hc])

theorem notNeg_foldl_max : ∀ (l : List B64) (a : B64), (∃ b ∈ a :: l, NotNeg b) → NotNeg (l.foldl max2 a)
  | [], a, ⟨b, hb, h⟩ => by rw [List.mem_singleton.mp hb] at h; exact h
  | c :: l, a, ⟨b, hb, h⟩ => by
    refine notNeg_foldl_max l _ ?_
    simp only [List.mem_cons] at hb
    rcases hb with rfl | rfl | hb
    · exact ⟨_, List.mem_cons_self, notNeg_max2 (Or.inl h)⟩
    · exact ⟨_, List.mem_cons_self, notNeg_max2 (Or.inr h)⟩
    · exact ⟨b, by simp [hb], h⟩

theorem plus_foldl_add : ∀ (l : List B64) (a : B64), Plus a → (∀ b ∈ l, NotNeg b) → Plus (l.foldl add a)
  | [], _, h, _ => h
  | b :: l, a, h, hl => plus_foldl_add l _ (plus_add h (hl b (by simp))) fun c hc => hl c (by simp [hc])

/-- A sum of numbers that are not negative, in any order. -/
theorem SumOf.notNeg {l : List B64} {v : B64} (h : SumOf l v) : (∀ a ∈ l, NotNeg a) → NotNeg v := by
  induction h with
  | nil s => intro _; exact Or.inr rfl
  | one a => intro hl; exact hl a (by simp)
  | zero s a => intro hl; exact notNeg_add (Or.inr rfl) (hl a (by simp))
  | add _ _ _ _ h1 h2 =>
    intro hl
    exact notNeg_add (h1 fun a ha => hl a (List.mem_append_left _ ha)) (h2 fun a ha => hl a (List.mem_append_right _ ha))
  | perm hp _ h1 => intro hl; exact h1 fun a ha => hl a (hp.mem_iff.mp ha)

theorem SumOf.plus {l : List B64} {v : B64} (h : SumOf l v) : l ≠ [] → (∀ a ∈ l, Plus a) → Plus v := by
  induction h with
  | nil s => intro h; exact absurd rfl h
  | one a => intro _ hl; exact hl a (by simp)
  | zero s a => intro _ hl; exact plus_add' (Or.inr rfl) (hl a (by simp))
  | add n1 n2 _ _ h1 h2 =>
    intro _ hl
    exact plus_add (h1 n1 fun a ha => hl a (List.mem_append_left _ ha))
      (h2 n2 fun a ha => hl a (List.mem_append_right _ ha)).notNeg
  | perm hp _ h1 =>
    intro hn hl
    exact h1 (fun e => hn (by rw [e] at hp; exact hp.nil_eq.symm)) fun a ha => hl a (hp.mem_iff.mp ha)

/-- A mean: the divisor may be zero, and then the sum may be a negative zero. -/
theorem plus_mean {a : B64} {n : ℕ} (h : NotNeg a) (hn : n ≠ 0 → Plus a) : Plus (div a (ofNat n)) := by
  rcases Nat.eq_zero_or_pos n with rfl | h0
  · rw [ofNat_zero]
    cases a with
    | fin s m =>
      unfold div
      dsimp only
      rw [if_pos rfl]
      split
      · trivial
      · rename_i hm
        rcases h with rfl | h
        · rfl
        · exact absurd h hm
    | inf s => obtain rfl : s = false := h; rfl
    | nan => trivial
  · exact plus_div (hn h0.ne') (plus_ofNat n)

end B64

attribute [irreducible] B64.Plus B64.NotNeg

/-! ## Rules for signs, in any arithmetic -/

/-- `P` (the sign bit is clear) and `Q` (not negative) obey the rules for signs. -/
structure Signs (F : Type) [Arith F] (P Q : F → Prop) : Prop where
  weaken {a : F} : P a → Q a
  zero : P 0
  ofNat (n : ℕ) : P (Arith.ofNat n)
  two : P Arith.two
  chFactor {n k : ℕ} : 1 ≤ k → k ≤ n → P (Arith.chFactor n k)
  sq (a : F) : P (Arith.sq a)
  add {a b : F} : P a → Q b → P (a + b)
  add' {a b : F} : Q a → P b → P (a + b)
  add_weak {a b : F} : Q a → Q b → Q (a + b)
  mul {a b : F} : P a → P b → P (a * b)
  div {a b : F} : P a → P b → P (a / b)
  div_weak {a b : F} : Q a → P b → Q (a / b)
  sqrt {a : F} : P a → P (Arith.sqrt a)
  mean {a : F} {n : ℕ} : Q a → (n ≠ 0 → P a) → P (a / Arith.ofNat n)
  npSum {l : List F} : l ≠ [] → (∀ a ∈ l, P a) → P (Arith.npSum l)
  npSum_weak {l : List F} : (∀ a ∈ l, Q a) → Q (Arith.npSum l)
  pySum {l : List F} : (∀ a ∈ l, Q a) → P (Arith.pySum l)
  minOf {a : F} {l : List F} : (∀ b ∈ a :: l, P b) → P (Arith.minOf a l)
  maxOf {a : F} {l : List F} : (∀ b ∈ a :: l, P b) → P (Arith.maxOf a l)
  maxOf_weak {a : F} {l : List F} : (∃ b ∈ a :: l, Q b) → Q (Arith.maxOf a l)

/-- The same for arrays with `d` columns. -/
structure BatchSigns (F : Type) [Arith F] (d : ℕ) (P Q : F → Prop) : Prop extends Signs F P Q where
  sum2 {rows : List (List F)} : (∀ r ∈ rows, r.length = d) → rows.flatten ≠ [] → (∀ r ∈ rows, ∀ a ∈ r, P a) → P (Arith.sum2 rows)
  sum2_weak {rows : List (List F)} : (∀ r ∈ rows, r.length = d) → (∀ r ∈ rows, ∀ a ∈ r, Q a) → Q (Arith.sum2 rows)

open B64 in
theorem F64.signs {L : Lib} (hs : L.Sums) : Signs (F64 L) Plus NotNeg where
  weaken := Plus.notNeg
  zero := B64.plus_zero
  ofNat := B64.plus_ofNat
  two := B64.plus_ofNat 2
  chFactor {n k} hk hn := B64.plus_intDiv (a := (n : ℤ) - k) (b := (k : ℤ) - 1) (by omega) (by omega)
  sq := B64.plus_square
  add := B64.plus_add
  add' := B64.plus_add'
  add_weak := B64.notNeg_add
  mul := B64.plus_mul
  div := B64.plus_div
  div_weak := B64.notNeg_div
  sqrt := B64.plus_sqrt
  mean := B64.plus_mean
  npSum {l} hl h := (hs l).plus hl h
  npSum_weak {l} h := (hs l).notNeg h
  pySum {l} h := B64.plus_foldl_add l _ B64.plus_zero h
  minOf {a l} h := B64.plus_foldl_min l a (h a List.mem_cons_self) fun b hb => h b (List.mem_cons_of_mem a hb)
  maxOf {a l} h := B64.plus_foldl_max l a (h a List.mem_cons_self) fun b hb => h b (List.mem_cons_of_mem a hb)
  maxOf_weak {a l} h := B64.notNeg_foldl_max l a h

open B64 in
theorem F64.batchSigns {L : Lib} {d : ℕ} (hs : L.Sums) (hb : L.BatchSums d) : BatchSigns (F64 L) d Plus NotNeg where
  toSigns := F64.signs hs
  sum2 {rows} hr hne h := (hb.2 rows hr).plus hne fun a ha => by
    obtain ⟨r, hr, ha⟩ := List.mem_flatten.mp ha
    exact h r hr a ha
  sum2_weak {rows} hr h := (hb.2 rows hr).notNeg fun a ha => by
    obtain ⟨r, hr, ha⟩ := List.mem_flatten.mp ha
    exact h r hr a ha

/-- Every element of `l.map f` satisfies `p` if `f` only has such values. -/
theorem mem_map_of {α β : Type} {p : β → Prop} {f : α → β} (h : ∀ a, p (f a)) {l : List α} : ∀ b ∈ l.map f, p b := by
  intro b hb
  obtain ⟨a, -, rfl⟩ := List.mem_map.mp hb
  exact h a

namespace Signs
variable {F : Type} [Arith F] {P Q : F → Prop}

theorem low (h : Signs F P Q) {l : List F} (hl : ∀ a ∈ l, P a) : P (Gen.low l) := by
  cases l with
  | nil => exact h.zero
  | cons a l => exact h.minOf hl

theorem high (h : Signs F P Q) {l : List F} (hl : ∀ a ∈ l, P a) : P (Gen.high l) := by
  cases l with
  | nil => exact h.zero
  | cons a l => exact h.maxOf hl

theorem high_weak (h : Signs F P Q) {l : List F} (hl : ∃ a ∈ l, Q a) : Q (Gen.high l) := by
  cases l with
  | nil => obtain ⟨a, ha, -⟩ := hl; cases ha
  | cons a l => exact h.maxOf_weak hl

theorem both (h : Signs F P Q) {f : ℕ → ℕ → F} (hf : ∀ i j, P (f i j)) (i j : ℕ) : P (Batch.both f i j) := by
  refine h.add ?_ (h.weaken ?_) <;> split
  · exact hf _ _
  · exact h.zero
  · exact hf _ _
  · exact h.zero

/-- The sign of DB's values in an incremental run: the largest quotient of a row is at least the zero on the diagonal. -/
theorem inc_DB (h : Signs F P Q) {e : ℕ} (S : Samples F) : Q (value e .DB S) := by
  rw [value]
  split
  · exact h.weaken h.zero
  refine h.div_weak (h.npSum_weak ?_) (h.ofNat _)
  intro a ha
  obtain ⟨b, hb, rfl⟩ := List.mem_map.mp ha
  refine h.high_weak ⟨_, List.mem_map.mpr ⟨b, hb, rfl⟩, ?_⟩
  rw [quotients, if_neg (lt_irrefl _)]
  exact h.add_weak (h.weaken h.zero) (h.weaken h.zero)

end Signs

namespace BatchSigns
variable {F : Type} [Arith F] {d : ℕ} {P Q : F → Prop}

/-- The compactness of a batch: not negative, and the sign bit is clear unless the cluster is empty. -/
theorem batch_cp (h : BatchSigns F d P Q) (hd : 1 ≤ d) {l : List (List F)} (hl : ∀ x ∈ l, x.length = d) :
    Q (Stat.batch d l).cp ∧ (l.length ≠ 0 → P (Stat.batch d l).cp) := by
  have hlen : ∀ x ∈ l, (sqDiff x (colMeans d l)).length = d := fun x hx => sqDiff_length (hl x hx) (colMeans_length l)
  have hlen' : ∀ r ∈ l.map fun x => sqDiff x (colMeans d l), r.length = d := by
    intro r hr
    obtain ⟨x, hx, rfl⟩ := List.mem_map.mp hr
    exact hlen x hx
  have hp : ∀ r ∈ l.map fun x => sqDiff x (colMeans d l), ∀ a ∈ r, P a := by
    intro r hr
    obtain ⟨x, -, rfl⟩ := List.mem_map.mp hr
    exact mem_map_of h.sq
  refine ⟨h.sum2_weak hlen' fun r hr a ha => h.weaken (hp r hr a ha), fun h0 => h.sum2 hlen' ?_ hp⟩
  cases l with
  | nil => exact absurd rfl h0
  | cons x l =>
    intro e
    have h1 := hlen x List.mem_cons_self
    rw [List.map_cons, List.flatten_cons] at e
    rw [(List.append_eq_nil_iff.mp e).1, List.length_nil] at h1
    omega

theorem squares (h : BatchSigns F d P Q) (hd : 1 ≤ d) (l m : List (List F)) :
    P (Arith.npSum ((List.zipWith (· - ·) (colMeans d l) (colMeans d m)).map Arith.sq)) := by
  refine h.npSum (fun e => ?_) (mem_map_of h.sq)
  have := congrArg List.length e
  rw [List.length_map, List.length_zipWith, colMeans_length, colMeans_length, min_self, List.length_nil] at this
  omega

theorem between (h : BatchSigns F d P Q) (hd : 1 ≤ d) (I : Index) {l m : List (List F)} (hl : ∀ x ∈ l, x.length = d)
    (hm : ∀ x ∈ m, x.length = d) : P (Gen.between I (Stat.batch d l) (Stat.batch d m)) := by
  have h5 : P (((Stat.batch d l).cp + (Stat.batch d m).cp) / Arith.ofNat (l.length + m.length)) := by
    have h1 := h.batch_cp hd hl
    have h2 := h.batch_cp hd hm
    refine h.mean (h.add_weak h1.1 h2.1) fun hn => ?_
    by_cases hl0 : l.length = 0
    · exact h.add' h1.1 (h2.2 (by omega))
    · exact h.add (h1.2 hl0) h2.1
  cases I
  case GD43 => exact h.sqrt (h.squares hd l m)
  case GD53 => exact h5
  all_goals exact h.squares hd l m

variable {R : ℕ → List (List F)}

theorem table (h : BatchSigns F d P Q) (hd : 1 ≤ d) (I : Index) (hR : ∀ i, ∀ x ∈ R i, x.length = d) (i j : ℕ) : P (Batch.table d R I i j) := by
  have hb : ∀ i j, P (Gen.between I (Stat.batch d (R i)) (Stat.batch d (R j))) := fun i j => h.between hd I (hR i) (hR j)
  unfold Batch.table
  dsimp only
  split
  · split
    · exact hb i j
    · exact h.zero
  · exact h.toSigns.both hb i j

theorem spread (h : BatchSigns F d P Q) (hd : 1 ≤ d) (hR : ∀ i, ∀ x ∈ R i, x.length = d) (i : ℕ) : P (Batch.spread d R i) :=
  h.mean (h.batch_cp hd (hR i)).1 (h.batch_cp hd (hR i)).2

/-- The sign of the six indices of a batch. -/
theorem batch (h : BatchSigns F d P Q) (hd : 1 ≤ d) {I : Index} (hI : Common6 I) (hR : ∀ i, ∀ x ∈ R i, x.length = d) {rows : List (List F)} {k : ℕ}
    (hk : 1 < k) (hn : k ≤ rows.length) : P (Batch.value d k R rows I) := by
  have hcp : P (Arith.pySum ((List.range k).map fun i => (Stat.batch d (R i)).cp)) :=
    h.pySum (mem_map_of fun i => (h.batch_cp hd (hR i)).1)
  have hsep : P (Arith.pySum ((List.range k).map (Batch.separation d R rows))) :=
    h.pySum (mem_map_of fun i => h.weaken (h.mul (h.ofNat _) (h.squares hd _ _)))
  have hlow : ∀ I, P (Gen.low (Batch.distances d k R I)) := fun I => h.toSigns.low (mem_map_of fun p : ℕ × ℕ => h.table hd I hR p.1 p.2)
  have hhigh : P (Arith.two * Gen.high ((List.range k).map (Batch.spread d R))) := h.mul h.two (h.toSigns.high (mem_map_of fun i => h.spread hd hR i))
  have hq : ∀ i j, P (Batch.quotient d R i j) := fun i j =>
    h.div (h.add (h.spread hd hR i) (h.weaken (h.spread hd hR j))) (h.table hd .DB hR j i)
  rcases hI with rfl | rfl | rfl | rfl | rfl | rfl
  · exact h.mul (h.div hsep hcp) (h.chFactor (by omega) hn)
  · exact h.mul (h.div hcp hsep) (h.ofNat k)
  · exact h.div hcp (h.mul (h.ofNat _) (hlow .XB))
  · refine h.div (h.npSum (fun e => ?_) (mem_map_of fun j => h.toSigns.high (mem_map_of fun i => h.toSigns.both hq j i))) (h.ofNat k)
    have := congrArg List.length e
    rw [List.length_map, List.length_range, List.length_nil] at this
    omega
  · exact h.div (hlow .GD43) hhigh
  · exact h.div (hlow .GD53) hhigh

end BatchSigns
end Verif.Gen
