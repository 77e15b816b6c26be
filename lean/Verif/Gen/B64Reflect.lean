import Verif.Gen.Reflect
import Verif.Gen.B64Sign

/-! # The sign in binary64 -/

namespace Verif.Gen
namespace B64

/-- The one is the other with its sign reversed; zeros of any sign are opposite. -/
def Opp : B64 → B64 → Prop
  | fin s m, fin t n => signed s m = -signed t n
  | inf s, inf t => s = !t
  | nan, nan => True
  | _, _ => False

/-- Equal, or both zero. -/
def Same : B64 → B64 → Prop
  | fin s m, fin t n => signed s m = signed t n
  | inf s, inf t => s = t
  | nan, nan => True
  | _, _ => False

/-- Not a negative zero. -/
def Solid (a : B64) : Prop := a ≠ fin true 0

theorem signed_opp {s t : Bool} {m n : ℕ} : signed s m = -signed t n ↔ m = n ∧ (m = 0 ∨ s = !t) := by
  cases s <;> cases t <;> simp [signed] <;> omega

theorem signed_eq {s t : Bool} {m n : ℕ} : signed s m = signed t n ↔ m = n ∧ (m = 0 ∨ s = t) := by
  cases s <;> cases t <;> simp [signed] <;> omega

theorem opp_neg (a : B64) : Opp a (neg a) := by
  cases a with
  | fin s m => cases s <;> simp [Opp, neg, signed]
  | inf s => simp [Opp, neg]
  | nan => trivial

theorem Same.refl (a : B64) : Same a a := by cases a <;> simp [Same]

/-- Symmetric in `Opp` and `Same`: `flip` says which. -/
def Sgn (flip : Bool) : B64 → B64 → Prop
  | fin s m, fin t n => m = n ∧ (m = 0 ∨ s = xor t flip)
  | inf s, inf t => s = xor t flip
  | nan, nan => True
  | _, _ => False

theorem opp_iff {a b : B64} : Opp a b ↔ Sgn true a b := by
  cases a <;> cases b <;> simp [Opp, Sgn, signed_opp]

theorem same_iff {a b : B64} : Same a b ↔ Sgn false a b := by
  cases a <;> cases b <;> simp [Same, Sgn, signed_eq]

theorem sgn_ofMag (s t : Bool) (a b : ℕ) : Sgn (xor s t) (ofMag s a b) (ofMag t a b) := by
  unfold ofMag
  split <;> (cases s <;> cases t <;> simp [Sgn])

attribute [local irreducible] ofMag

theorem sgn_zero {f s t : Bool} : Sgn f (fin s 0) (fin t 0) := by simp [Sgn]

theorem sgn_ofMag' {f s t : Bool} {a b c : ℕ} (hc : 0 < c) (e : a = b) (h : a = 0 ∨ s = xor t f) : Sgn f (ofMag s a c) (ofMag t b c) := by
  subst e
  rcases h with rfl | rfl
  · rw [ofMag_zero _ hc, ofMag_zero _ hc]; exact sgn_zero
  · have := sgn_ofMag (xor t f) t a c
    rwa [Bool.xor_comm t f, Bool.xor_assoc, Bool.xor_self, Bool.xor_false, Bool.xor_comm f t] at this

theorem unit_pos' : 0 < unit := by unfold unit; positivity

theorem Sgn.mul {f g : Bool} {a b c e : B64} (h : Sgn f a b) (h' : Sgn g c e) : Sgn (xor f g) (mul a c) (mul b e) := by
  cases a with
  | nan => cases b <;> first | exact h.elim | (cases c <;> cases e <;> first | exact h'.elim | trivial)
  | inf s =>
    cases b with
    | fin t n => exact h.elim
    | nan => exact h.elim
    | inf t =>
      simp only [Sgn] at h
      subst h
      cases c <;> cases e <;> first | exact h'.elim | skip
      · obtain ⟨rfl, h'⟩ := h'
        simp only [B64.mul]
        split
        · trivial
        · rcases h' with rfl | rfl
          · simp_all
          · simp only [Sgn]; cases t <;> cases f <;> cases g <;> simp
      · simp only [Sgn] at h'
        subst h'
        simp only [B64.mul, Sgn]
        cases t <;> cases f <;> cases g <;> simp
      · trivial
  | fin s m =>
    cases b with
    | inf t => exact h.elim
    | nan => exact h.elim
    | fin t n =>
      obtain ⟨rfl, h⟩ := h
      cases c <;> cases e <;> first | exact h'.elim | skip
      · obtain ⟨rfl, h'⟩ := h'
        refine sgn_ofMag' unit_pos' rfl ?_
        rcases h with rfl | rfl
        · left; simp
        rcases h' with rfl | rfl
        · left; simp
        · right; cases f <;> cases g <;> cases t <;> simp
      · simp only [Sgn] at h'
        subst h'
        simp only [B64.mul]
        split
        · trivial
        · rcases h with rfl | rfl
          · simp_all
          · simp only [Sgn]; cases t <;> cases f <;> cases g <;> simp
      · trivial

theorem Sgn.div {f : Bool} {a b : B64} (h : Sgn f a b) (c : B64) : Sgn f (div a c) (div b c) := by
  cases c with
  | nan => cases a <;> cases b <;> first | exact h.elim | trivial
  | inf s =>
    cases a <;> cases b <;> first | exact h.elim | trivial | exact sgn_zero
  | fin s n =>
  cases a with
  | nan => cases b <;> first | exact h.elim | trivial
  | inf t =>
    cases b with
    | fin t n => exact h.elim
    | nan => exact h.elim
    | inf t =>
      simp only [Sgn] at h
      subst h
      simp only [B64.div, Sgn]
      cases t <;> cases f <;> simp
  | fin t m =>
    cases b with
    | inf t => exact h.elim
    | nan => exact h.elim
    | fin t' m' =>
      obtain ⟨rfl, h⟩ := h
      simp only [B64.div]
      split
      · split
        · trivial
        · rcases h with rfl | rfl
          · simp_all
          · simp only [Sgn]; cases t' <;> cases f <;> simp
      · refine sgn_ofMag' (by omega) rfl ?_
        rcases h with rfl | rfl
        · left; simp
        · right; cases f <;> cases s <;> cases t' <;> simp

theorem sgn_ofInt {f : Bool} {y z : ℤ} (h : y = if f then -z else z) (hz : z ≠ 0) : Sgn f (ofInt y) (ofInt z) := by
  unfold ofInt
  subst h
  cases f
  · exact sgn_ofMag' Nat.one_pos rfl (Or.inr (by simp))
  · refine sgn_ofMag' Nat.one_pos (by simp) (Or.inr ?_)
    simp only [if_true, Bool.xor_true]
    rcases lt_or_gt_of_ne hz with h | h
    · rw [decide_eq_false (by omega), decide_eq_true h]; rfl
    · rw [decide_eq_true (by omega), decide_eq_false (by omega)]; rfl

theorem sgn_signed {f s t : Bool} {m : ℕ} (h : m = 0 ∨ s = xor t f) : signed s m = if f then -signed t m else signed t m := by
  rcases h with rfl | rfl
  · cases f <;> cases s <;> cases t <;> simp [signed]
  · cases f <;> cases t <;> simp [signed]

theorem Sgn.add {f : Bool} {a b c e : B64} (h : Sgn f a b) (h' : Sgn f c e) : Sgn f (add a c) (add b e) := by
  cases a with
  | nan => cases b <;> first | exact h.elim | (cases c <;> cases e <;> first | exact h'.elim | trivial)
  | inf s =>
    cases b with
    | fin t n => exact h.elim
    | nan => exact h.elim
    | inf t =>
      simp only [Sgn] at h
      subst h
      cases c <;> cases e <;> first | exact h'.elim | skip
      · rfl
      · simp only [Sgn] at h'
        subst h'
        rename_i r
        cases t <;> cases f <;> cases r <;> simp [B64.add, Sgn]
      · trivial
  | fin s m =>
    cases b with
    | inf t => exact h.elim
    | nan => exact h.elim
    | fin t n =>
      obtain ⟨rfl, h⟩ := h
      cases c <;> cases e <;> first | exact h'.elim | skip
      · obtain ⟨rfl, h'⟩ := h'
        have e1 := sgn_signed h
        have e2 := sgn_signed h'
        rename_i s' m' t'
        have e3 : signed s m + signed s' m' = if f then -(signed t m + signed t' m') else signed t m + signed t' m' := by
          rw [e1, e2]; cases f
          · simp
          · simp only [if_true]; ring
        by_cases hz : signed t m + signed t' m' = 0
        · simp only [B64.add]
          rw [if_pos hz, if_pos (by rw [e3, hz]; cases f <;> rfl)]
          exact sgn_zero
        · simp only [B64.add]
          rw [if_neg hz, if_neg (by rw [e3]; cases f <;> simp <;> omega)]
          exact sgn_ofInt e3 hz
      · exact h'
      · trivial

theorem Sgn.neg {f : Bool} {a b : B64} (h : Sgn f a b) : Sgn f (neg a) (neg b) := by
  cases a <;> cases b <;> first | exact h.elim | skip
  · obtain ⟨rfl, h⟩ := h
    refine ⟨rfl, ?_⟩
    rcases h with h | rfl
    · exact Or.inl h
    · right; rename_i t; cases t <;> cases f <;> rfl
  · simp only [Sgn] at h
    subst h
    rename_i t
    cases t <;> cases f <;> simp [B64.neg, Sgn]
  · trivial

theorem Sgn.sub {f : Bool} {a b c e : B64} (h : Sgn f a b) (h' : Sgn f c e) : Sgn f (sub a c) (sub b e) := h.add h'.neg

theorem sgn_refl (a : B64) : Sgn false a a := by cases a <;> simp [Sgn]

theorem sgn_one (k : B64) {f : Bool} {a b : B64} (h : Sgn f a b) : Sgn f (mul k a) (mul k b) := by
  simpa using (sgn_refl k).mul h

theorem sgn_one' (k : B64) {f : Bool} {a b : B64} (h : Sgn f a b) : Sgn f (mul a k) (mul b k) := by
  simpa using h.mul (sgn_refl k)

/-! ## Negative zero -/

theorem rndMag_pos {a : ℕ} (ha : 0 < a) : 0 < rndMag a 1 := by
  rw [rndMag_def, Nat.div_one, one_mul]
  have hs : 2 ^ (Nat.log2 a - 52) ≤ a := (Nat.pow_le_pow_right (by norm_num) (Nat.sub_le _ _)).trans (Nat.log2_self_le (by omega))
  generalize Nat.log2 a - 52 = s at hs ⊢
  have hp : 0 < 2 ^ s := by positivity
  have hd : 0 < a / 2 ^ s := Nat.div_pos hs hp
  split
  · exact Nat.mul_pos hd hp
  · exact Nat.mul_pos (Nat.succ_pos _) hp

theorem ofInt_solid {z : ℤ} (hz : z ≠ 0) : Solid (ofInt z) := by
  unfold Solid ofInt
  have := rndMag_pos (a := z.natAbs) (by omega)
  unfold ofMag
  split
  · simp; intro _; omega
  · simp

theorem Solid.add {a : B64} (b : B64) (h : Solid a) : Solid (add a b) := by
  cases a with
  | nan => simp [B64.add, Solid]
  | inf s =>
    cases b with
    | fin t n => simp [B64.add, Solid]
    | inf t => simp only [B64.add]; split <;> simp [Solid]
    | nan => simp [B64.add, Solid]
  | fin s m =>
    cases b with
    | inf t => simp [B64.add, Solid]
    | nan => simp [B64.add, Solid]
    | fin t n =>
      simp only [B64.add]
      split
      case isFalse h' => exact ofInt_solid h'
      case isTrue h' =>
        intro e
        injection e with e _
        rw [Bool.and_eq_true] at e
        obtain ⟨rfl, rfl⟩ := e
        apply h
        have : m = 0 := by simp only [signed, if_true] at h'; omega
        rw [this]

theorem Plus.solid {a : B64} (h : Plus a) : Solid a := by
  rintro rfl
  unfold Plus at h
  cases h

/-- The sign of a zero that is added to something else than a negative zero is lost. -/
theorem Sgn.absorb {a b c : B64} (h : Solid a) (h' : Sgn false b c) : B64.add a b = B64.add a c := by
  cases b <;> cases c <;> first | exact h'.elim | skip
  · obtain ⟨rfl, h'⟩ := h'
    simp only [Bool.xor_false] at h'
    rcases h' with rfl | rfl
    · cases a with
      | nan => rfl
      | inf s => rfl
      | fin s m =>
        rename_i t t'
        have e : ∀ t, signed t 0 = 0 := by intro t; cases t <;> rfl
        simp only [B64.add, e, add_zero]
        split
        · have hm : m = 0 := by
            rename_i h0
            cases s <;> simp [signed] at h0 <;> exact h0
          subst hm
          have : s = false := by
            cases s
            · rfl
            · exact absurd rfl h
          subst this
          rfl
        · rfl
    · rfl
  · simp only [Sgn, Bool.xor_false] at h'
    rw [h']
  · rfl

theorem Sgn.absorb' {a b c : B64} (h : Solid c) (h' : Sgn false a b) : B64.add a c = B64.add b c := by
  rw [add_swap a c, add_swap b c]; exact h'.absorb h

theorem Sgn.absorbSub {a b c : B64} (h : Solid a) (h' : Sgn false b c) : B64.sub a b = B64.sub a c := h'.neg.absorb h

theorem fma_add {a b c : B64} (h : (∀ s m t n, ¬ (a = fin s m ∧ b = fin t n))) : fma a b c = B64.add (B64.mul a b) c := by
  cases a with
  | fin s m =>
    cases b with
    | fin t n => exact absurd ⟨rfl, rfl⟩ (h s m t n)
    | _ => cases c <;> rfl
  | _ => cases b <;> cases c <;> rfl

theorem Sgn.fma {f g : Bool} {a b c e p q : B64} (h : Sgn f a b) (h' : Sgn g c e) (hp : Sgn (xor f g) p q) :
    Sgn (xor f g) (fma a c p) (fma b e q) := by
  by_cases hf : ∃ s m t n, a = fin s m ∧ c = fin t n
  · obtain ⟨s, m, t, n, rfl, rfl⟩ := hf
    cases b <;> first | exact h.elim | skip
    cases e <;> first | exact h'.elim | skip
    cases p with
    | inf r => cases q <;> first | exact hp.elim | exact hp
    | nan => cases q <;> first | exact hp.elim | exact hp
    | fin r k =>
    cases q <;> first | exact hp.elim | skip
    rename_i s' m' t' n' r' k'
    obtain ⟨rfl, h⟩ := h
    obtain ⟨rfl, h'⟩ := h'
    obtain ⟨rfl, hp⟩ := hp
    have e1 : signed (xor s t) (m * n) = if xor f g then -signed (xor s' t') (m * n) else signed (xor s' t') (m * n) := by
      apply sgn_signed
      rcases h with rfl | rfl
      · left; simp
      rcases h' with rfl | rfl
      · left; simp
      · right; cases f <;> cases g <;> cases s' <;> cases t' <;> rfl
    have e2 := sgn_signed hp
    have e3 : signed (xor s t) (m * n) + signed r k * unit =
        if xor f g then -(signed (xor s' t') (m * n) + signed r' k * unit) else signed (xor s' t') (m * n) + signed r' k * unit := by
      rw [e1, e2]; split <;> ring
    simp only [B64.fma]
    generalize signed (xor s t) (m * n) + signed r k * unit = y at e3
    generalize signed (xor s' t') (m * n) + signed r' k * unit = z at e3
    by_cases hz : z = 0
    · rw [if_pos hz, if_pos (by rw [e3, hz]; split <;> rfl)]
      exact sgn_zero
    · rw [if_neg hz, if_neg (by rw [e3]; split <;> omega)]
      subst e3
      cases xor f g
      · exact sgn_ofMag' unit_pos' rfl (Or.inr (by simp))
      · refine sgn_ofMag' unit_pos' (by simp) (Or.inr ?_)
        simp only [if_true, Bool.xor_true]
        rcases lt_or_gt_of_ne hz with h | h
        · rw [decide_eq_false (by omega), decide_eq_true h]; rfl
        · rw [decide_eq_true (by omega), decide_eq_false (by omega)]; rfl
  · have h1 : ∀ s m t n, ¬ (a = fin s m ∧ c = fin t n) := by
      intro s m t n hh; exact hf ⟨s, m, t, n, hh⟩
    have h2 : ∀ s m t n, ¬ (b = fin s m ∧ e = fin t n) := by
      rintro s m t n ⟨rfl, rfl⟩
      cases a <;> first | exact h.elim | skip
      cases c <;> first | exact h'.elim | skip
      exact h1 _ _ _ _ ⟨rfl, rfl⟩
    rw [fma_add h1, fma_add h2]
    exact (h.mul h').add hp

theorem square_opp {a b : B64} (h : a = b ∨ Opp a b) : B64.mul a a = B64.mul b b := by
  rcases h with rfl | h
  · rfl
  cases a <;> cases b <;> first | exact h.elim | skip
  · obtain ⟨rfl, -⟩ := signed_opp.mp h
    rename_i s m t
    show ofMag (xor s s) (m * m) unit = ofMag (xor t t) (m * m) unit
    rw [Bool.xor_self, Bool.xor_self]
  · rename_i s t
    show inf (xor s s) = inf (xor t t)
    rw [Bool.xor_self, Bool.xor_self]
  · rfl

theorem fma_square {a b : B64} (h : a = b ∨ Opp a b) (c : B64) : B64.fma a a c = B64.fma b b c := by
  have hsq := square_opp h
  rcases h with rfl | h
  · rfl
  cases a <;> cases b <;> first | exact h.elim | skip
  · obtain ⟨rfl, -⟩ := signed_opp.mp h
    rename_i s m t
    cases c with
    | fin r k => simp only [B64.fma, Bool.xor_self]
    | inf r => rfl
    | nan => rfl
  · cases c <;> simp only [B64.fma] <;> rw [hsq]
  · rfl

theorem plus_fma_square (a : B64) {c : B64} (h : Plus c) : Plus (B64.fma a a c) := by
  have h' := plus_add (plus_square a) h.notNeg
  cases a with
  | fin s m =>
    cases c with
    | fin r k =>
      obtain rfl : r = false := by unfold Plus at h; exact h
      have e : 0 ≤ signed (xor s s) (m * m) + signed false k * unit := by
        rw [Bool.xor_self]
        have e1 : (0 : ℤ) ≤ signed false (m * m) := Int.natCast_nonneg _
        have e2 : (0 : ℤ) ≤ signed false k := Int.natCast_nonneg _
        have e3 : (0 : ℤ) ≤ (unit : ℤ) := Int.natCast_nonneg _
        exact add_nonneg e1 (mul_nonneg e2 e3)
      simp only [B64.fma]
      split
      · unfold Plus; simp
      · rw [decide_eq_false (by omega)]
        exact plus_ofMag _ _
    | inf r => exact h
    | nan => exact h
  | inf s => cases c <;> exact h'
  | nan => cases c <;> exact h'

/-! ## Plans -/

/-- An order in which an inner product is computed.  `i` is a position; every sum and product is rounded, except in `fma`. -/
inductive Plan
  | zero
  | prod (i : ℕ)
  | fma (i : ℕ) (p : Plan)
  | add (p q : Plan)

def Plan.run (l : List (B64 × B64)) : Plan → B64
  | zero => fin false 0
  | prod i => match l[i]? with
    | some x => B64.mul x.1 x.2
    | none => fin false 0
  | fma i p => match l[i]? with
    | some x => B64.fma x.1 x.2 (p.run l)
    | none => p.run l
  | add p q => B64.add (p.run l) (q.run l)

/-- An order in which a sum is computed. -/
inductive SumPlan
  | zero
  | item (i : ℕ)
  | add (p q : SumPlan)

def SumPlan.run (l : List B64) : SumPlan → B64
  | zero => fin false 0
  | item i => l.getD i (fin false 0)
  | add p q => B64.add (p.run l) (q.run l)

theorem SumPlan.opp {l m : List B64} (h : List.Forall₂ Opp l m) (p : SumPlan) : Opp (p.run l) (p.run m) := by
  rw [opp_iff]
  induction p with
  | zero => exact sgn_zero
  | add p q hp hq => exact hp.add hq
  | item i =>
    simp only [SumPlan.run]
    induction h generalizing i with
    | nil => exact sgn_zero
    | cons h _ ih =>
      cases i with
      | zero => exact opp_iff.mp h
      | succ i => exact ih i

/-- Terms of two inner products that correspond. -/
theorem Plan.sgn {f : Bool} {l m : List (B64 × B64)} (hl : l.length = m.length)
    (h : ∀ (i : ℕ) (x y : B64 × B64), l[i]? = some x → m[i]? = some y → ∃ g g', xor g g' = f ∧ Sgn g x.1 y.1 ∧ Sgn g' x.2 y.2) (p : Plan) :
    Sgn f (p.run l) (p.run m) := by
  have none_iff : ∀ i : ℕ, l[i]? = none ↔ m[i]? = none := fun i => by
    rw [List.getElem?_eq_none_iff, List.getElem?_eq_none_iff, hl]
  induction p with
  | zero => exact sgn_zero
  | add p q hp hq => exact hp.add hq
  | prod i =>
    simp only [Plan.run]
    cases hx : l[i]? with
    | none => rw [(none_iff i).mp hx]; exact sgn_zero
    | some x =>
      cases hy : m[i]? with
      | none => rw [(none_iff i).mpr hy] at hx; cases hx
      | some y =>
        obtain ⟨g, g', rfl, h1, h2⟩ := h i x y hx hy
        exact h1.mul h2
  | fma i p ih =>
    simp only [Plan.run]
    cases hx : l[i]? with
    | none => rw [(none_iff i).mp hx]; exact ih
    | some x =>
      cases hy : m[i]? with
      | none => rw [(none_iff i).mpr hy] at hx; cases hx
      | some y =>
        obtain ⟨g, g', rfl, h1, h2⟩ := h i x y hx hy
        exact h1.fma h2 ih

theorem Plan.square {l m : List B64} (hl : l.length = m.length)
    (h : ∀ (i : ℕ) (a b : B64), l[i]? = some a → m[i]? = some b → a = b ∨ Opp a b) (p : Plan) :
    p.run (l.zip l) = p.run (m.zip m) := by
  have e : ∀ (l : List B64) (i : ℕ), (l.zip l)[i]? = l[i]?.map fun a => (a, a) := by
    intro l i
    rw [List.zip, List.getElem?_zipWith]
    cases l[i]? <;> rfl
  have none_iff : ∀ i : ℕ, l[i]? = none ↔ m[i]? = none := fun i => by
    rw [List.getElem?_eq_none_iff, List.getElem?_eq_none_iff, hl]
  induction p with
  | zero => rfl
  | add p q hp hq => simp only [Plan.run, hp, hq]
  | prod i =>
    simp only [Plan.run, e]
    cases hx : l[i]? with
    | none => rw [(none_iff i).mp hx]
    | some x =>
      cases hy : m[i]? with
      | none => rw [(none_iff i).mpr hy] at hx; cases hx
      | some y => exact square_opp (h i x y hx hy)
  | fma i p ih =>
    simp only [Plan.run, e, ih]
    cases hx : l[i]? with
    | none => rw [(none_iff i).mp hx]
    | some x =>
      cases hy : m[i]? with
      | none => rw [(none_iff i).mpr hy] at hx; cases hx
      | some y => exact fma_square (h i x y hx hy) _

theorem Plan.plus (l : List B64) (p : Plan) : Plus (p.run (l.zip l)) := by
  have e : ∀ (i : ℕ), (l.zip l)[i]? = l[i]?.map fun a => (a, a) := by
    intro i
    rw [List.zip, List.getElem?_zipWith]
    cases l[i]? <;> rfl
  induction p with
  | zero => exact plus_zero
  | add p q hp hq => exact plus_add hp hq.notNeg
  | prod i =>
    simp only [Plan.run, e]
    cases l[i]? with
    | none => exact plus_zero
    | some x => exact plus_square x
  | fma i p ih =>
    simp only [Plan.run, e]
    cases l[i]? with
    | none => exact ih
    | some x => exact plus_fma_square x ih

end B64

/-- `np.inner` and the sums in `np.mean` add in an order that depends on the lengths only.  (What `dot` does with lists of different
lengths does not matter: numpy raises.) -/
structure Lib.Ordered (L : Lib) : Prop where
  dot : ∀ m n, ∃ p : B64.Plan, ∀ a b : List B64, a.length = m → b.length = n → L.dot a b = p.run (a.zip b)
  colSum : ∀ n, ∃ p : B64.SumPlan, ∀ l : List B64, l.length = n → L.colSum l = p.run l

open B64

theorem zip_some {u w : List B64} {i : ℕ} {x : B64 × B64} (h : (u.zip w)[i]? = some x) : u[i]? = some x.1 ∧ w[i]? = some x.2 := by
  rw [List.zip, List.getElem?_zipWith_eq_some] at h
  obtain ⟨a, b, h1, h2, rfl⟩ := h
  exact ⟨h1, h2⟩

theorem zipped_length {u u' w w' : List B64} (h : u.length = u'.length) (h' : w.length = w'.length) :
    (u.zip w).length = (u'.zip w').length := by simp [h, h']

/-- binary64 treats signs symmetrically. -/
def F64.reflect {L : Lib} (hL : L.Ordered) : Reflect (F64 L) where
  Opp := B64.Opp
  Same := B64.Same
  Solid := B64.Solid
  opp_zero := rfl
  opp_add h h' := opp_iff.mpr ((opp_iff.mp h).add (opp_iff.mp h'))
  opp_sub h h' := opp_iff.mpr ((opp_iff.mp h).sub (opp_iff.mp h'))
  opp_mul k _ _ h := opp_iff.mpr (sgn_one k (opp_iff.mp h))
  opp_mul' k _ _ h := opp_iff.mpr (sgn_one' k (opp_iff.mp h))
  opp_sq h := square_opp (Or.inr h)
  opp_colMean {l m} h := by
    obtain ⟨p, hp⟩ := hL.colSum l.length
    have e : B64.Opp (L.colSum l) (L.colSum m) := by
      rw [hp l rfl, hp m h.length_eq.symm]
      exact SumPlan.opp h p
    show B64.Opp (B64.div (L.colSum l) (B64.ofNat l.length)) (B64.div (L.colSum m) (B64.ofNat m.length))
    rw [h.length_eq]
    exact opp_iff.mpr ((opp_iff.mp e).div _)
  solid_zero := plus_zero.solid
  solid_add b h := h.add b
  solid_dot u := by
    obtain ⟨p, hp⟩ := hL.dot u.length u.length
    show B64.Solid (L.dot u u)
    rw [hp u u rfl rfl]
    exact (Plan.plus u p).solid
  same_add h h' := (sgn_one _ (same_iff.mp h')).absorb h
  same_sub h h' := (sgn_one _ (same_iff.mp h')).absorbSub h
  same_sub' h h' := (same_iff.mp h').absorbSub h
  dot {u u' w w'} h h' hr := by
    obtain ⟨p, hp⟩ := hL.dot u.length w.length
    show B64.Same (L.dot u w) (L.dot u' w')
    rw [hp u w rfl rfl, hp u' w' h.symm h'.symm, same_iff]
    refine Plan.sgn (zipped_length h h') (fun i x y hx hy => ?_) p
    obtain ⟨h1, h2⟩ := zip_some hx
    obtain ⟨h3, h4⟩ := zip_some hy
    rcases hr i _ _ _ _ h1 h3 h2 h4 with ⟨e1, e2⟩ | ⟨e1, e2⟩
    · exact ⟨false, false, rfl, by rw [e1]; exact sgn_refl _, by rw [e2]; exact sgn_refl _⟩
    · exact ⟨true, true, rfl, opp_iff.mp e1, opp_iff.mp e2⟩
  dot_self {u u'} h hr := by
    obtain ⟨p, hp⟩ := hL.dot u.length u.length
    show L.dot u u = L.dot u' u'
    rw [hp u u rfl rfl, hp u' u' h.symm h.symm]
    exact Plan.square h hr p

/-- What rCIP needs in addition: the products of matrices are computed in an order that depends on the shapes only (for `v @ a` it may
depend on `a`), `exp(-0.0)` is `exp(0.0)`, and `10.0 ** x` is not negative. -/
structure Lib.OrderedCov (L : Lib) : Prop extends L.Ordered where
  vm : ∀ n (B : Arr2 B64) j, ∃ (p : B64.Plan) (w : List B64), ∀ v : List B64, v.length = n → L.vm v B j = p.run (v.zip w)
  mm : ∀ (a b : List ℕ) i j, ∃ p : B64.Plan, ∀ A B : Arr2 B64, A.rows.map List.length = a → B.rows.map List.length = b →
    (∀ r ∈ B.rows, j < r.length) → L.mm A B i j = p.run ((A.rows.getD i []).zip (B.rows.map fun r => r.getD j (fin false 0)))
  exp : L.exp (fin true 0) = L.exp (fin false 0)
  delta : ∀ d, Plus (L.delta d)

theorem lengths_of {l m : List (List B64)} (h : List.Forall₂ (List.Forall₂ B64.Opp) l m) : l.map List.length = m.map List.length := by
  induction h with
  | nil => rfl
  | cons h _ ih => rw [List.map_cons, List.map_cons, h.length_eq, ih]

theorem getD_row {l m : List (List B64)} (h : List.Forall₂ (List.Forall₂ B64.Opp) l m) (i : ℕ) :
    List.Forall₂ B64.Opp (l.getD i []) (m.getD i []) := by
  induction h generalizing i with
  | nil => exact .nil
  | cons h _ ih =>
    cases i with
    | zero => exact h
    | succ i => exact ih i

theorem getD_entry {l m : List B64} (h : List.Forall₂ B64.Opp l m) (i : ℕ) : B64.Opp (l.getD i (fin false 0)) (m.getD i (fin false 0)) := by
  induction h generalizing i with
  | nil => exact opp_iff.mpr sgn_zero
  | cons h _ ih =>
    cases i with
    | zero => exact h
    | succ i => exact ih i

theorem getD_col {l m : List (List B64)} (h : List.Forall₂ (List.Forall₂ B64.Opp) l m) (j : ℕ) :
    List.Forall₂ B64.Opp (l.map fun r => r.getD j (fin false 0)) (m.map fun r => r.getD j (fin false 0)) := by
  induction h with
  | nil => exact .nil
  | cons h _ ih => exact .cons (getD_entry h j) ih

theorem opp_get {l m : List B64} (h : List.Forall₂ B64.Opp l m) {i : ℕ} {a b : B64} (ha : l[i]? = some a) (hb : m[i]? = some b) :
    B64.Opp a b := by
  induction h generalizing i with
  | nil => cases ha
  | cons h _ ih =>
    cases i with
    | zero => cases ha; cases hb; exact h
    | succ i => exact ih ha hb

theorem Plan.sgnOpp {l m : List B64} (h : List.Forall₂ B64.Opp l m) (w : List B64) (p : B64.Plan) :
    B64.Opp (p.run (l.zip w)) (p.run (m.zip w)) := by
  rw [opp_iff]
  refine Plan.sgn (zipped_length h.length_eq rfl) (fun i x y hx hy => ?_) p
  obtain ⟨h1, h2⟩ := zip_some hx
  obtain ⟨h3, h4⟩ := zip_some hy
  rw [h2] at h4
  injection h4 with e
  exact ⟨true, false, rfl, opp_iff.mp (opp_get h h1 h3), by rw [e]; exact sgn_refl _⟩

theorem Plan.sgnSame {l m l' m' : List B64} (h : List.Forall₂ B64.Opp l m) (h' : List.Forall₂ B64.Opp l' m') (p : B64.Plan) :
    B64.Same (p.run (l.zip l')) (p.run (m.zip m')) := by
  rw [same_iff]
  refine Plan.sgn (zipped_length h.length_eq h'.length_eq) (fun i x y hx hy => ?_) p
  obtain ⟨h1, h2⟩ := zip_some hx
  obtain ⟨h3, h4⟩ := zip_some hy
  exact ⟨true, true, rfl, opp_iff.mp (opp_get h h1 h3), opp_iff.mp (opp_get h' h2 h4)⟩

theorem same_cases {a b : B64} (h : B64.Same a b) : a = b ∨ (∃ s, a = fin s 0) ∧ ∃ t, b = fin t 0 := by
  rw [same_iff] at h
  cases a <;> cases b <;> first | exact h.elim | skip
  · obtain ⟨rfl, h | h⟩ := h
    · subst h; exact Or.inr ⟨⟨_, rfl⟩, ⟨_, rfl⟩⟩
    · left; rw [h, Bool.xor_false]
  · left; simp only [Sgn, Bool.xor_false] at h; rw [h]
  · exact Or.inl rfl

/-- binary64 treats signs symmetrically. -/
def F64.reflectCov {L : Lib} (hL : L.OrderedCov) : ReflectCov (F64 L) where
  toReflect := F64.reflect hL.toOrdered
  same_mul h h' := same_iff.mpr ((opp_iff.mp h).mul (opp_iff.mp h'))
  same_smul k _ _ h := same_iff.mpr (sgn_one k (same_iff.mp h))
  same_plus k _ _ h := same_iff.mpr ((sgn_refl k).add (same_iff.mp h))
  same_minus h h' := same_iff.mpr ((same_iff.mp h).sub (same_iff.mp h'))
  same_solid h h' := (same_iff.mp h).absorb' h'
  same_exp {a b} h := by
    show L.exp a = L.exp b
    rcases same_cases h with rfl | ⟨⟨s, rfl⟩, t, rfl⟩
    · rfl
    · cases s <;> cases t <;> simp [hL.exp]
  solid_delta d := ⟨(plus_mul (plus_ofNat 1) (hL.delta d)).solid, (plus_mul plus_zero (hL.delta d)).solid⟩
  opp_vm {v w} B j h := by
    obtain ⟨p, w', hp⟩ := hL.vm v.length B j
    show B64.Opp (L.vm v B j) (L.vm w B j)
    rw [hp v rfl, hp w h.length_eq.symm]
    exact Plan.sgnOpp h _ p
  same_mm {A A' B B'} i j hj h h' := by
    obtain ⟨p, hp⟩ := hL.mm (A.rows.map List.length) (B.rows.map List.length) i j
    show B64.Same (L.mm A B i j) (L.mm A' B' i j)
    have hj' : ∀ r ∈ B'.rows, j < r.length := by
      intro r hr
      have h1 : r.length ∈ B.rows.map List.length := lengths_of h' ▸ List.mem_map_of_mem hr
      obtain ⟨q, hq, e⟩ := List.mem_map.mp h1
      exact e ▸ hj q hq
    rw [hp A B rfl rfl hj, hp A' B' (lengths_of h).symm (lengths_of h').symm hj']
    exact Plan.sgnSame (getD_row h i) (getD_col h' j) p

end Verif.Gen
