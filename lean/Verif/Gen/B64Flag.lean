import Verif.Gen.B64Scale
import Verif.Gen.Units

/-!
# binary64 with flags

A number carries a flag: some operation it depends on signalled overflow or underflow.  The arithmetic `Track P` computes the numbers of
`F64 L` (`Track.forget`), and in addition the flags.  Numbers without flags scale exactly (`Track.scale`).
-/

namespace Verif.Gen
open B64

/-- A number and its flag. -/
structure Flagged where
  val : B64
  flag : Bool
  deriving DecidableEq

namespace Flagged

def zero : Flagged := ⟨fin false 0, false⟩
def add (x y : Flagged) : Flagged := ⟨B64.add x.val y.val, x.flag || y.flag || addSignals x.val y.val⟩
def neg (x : Flagged) : Flagged := ⟨B64.neg x.val, x.flag⟩
def sub (x y : Flagged) : Flagged := add x (neg y)
def mul (x y : Flagged) : Flagged := ⟨B64.mul x.val y.val, x.flag || y.flag || mulSignals x.val y.val⟩
def div (x y : Flagged) : Flagged := ⟨B64.div x.val y.val, x.flag || y.flag || divSignals x.val y.val⟩
def fma (x y z : Flagged) : Flagged := ⟨B64.fma x.val y.val z.val, x.flag || y.flag || z.flag || fmaSignals x.val y.val z.val⟩
def sqrt (x : Flagged) : Flagged := ⟨B64.sqrt x.val, x.flag || sqrtSignals x.val⟩
def min2 (x y : Flagged) : Flagged := ⟨B64.min2 x.val y.val, x.flag || y.flag⟩
def max2 (x y : Flagged) : Flagged := ⟨B64.max2 x.val y.val, x.flag || y.flag⟩

end Flagged

/-- The sum in the given order, with flags. -/
def B64.SumPlan.track (l : List Flagged) : SumPlan → Flagged
  | .zero => .zero
  | .item i => l.getD i .zero
  | .add p q => (p.track l).add (q.track l)

/-- The inner product in the given order, with flags. -/
def B64.Plan.track (l : List (Flagged × Flagged)) : Plan → Flagged
  | .zero => .zero
  | .prod i => match l[i]? with
    | some x => x.1.mul x.2
    | none => .zero
  | .fma i p => match l[i]? with
    | some x => x.1.fma x.2 (p.track l)
    | none => p.track l
  | .add p q => (p.track l).add (q.track l)

/-- The exponential function, and the orders in which the libraries add; they depend on the lengths only. -/
structure Orders where
  exp : B64 → B64
  npSum : ℕ → SumPlan
  rowSum : ℕ → SumPlan
  colSum : ℕ → SumPlan
  /-- by the lengths of the rows; the numbers are those of all rows, one after the other -/
  sum2 : List ℕ → SumPlan
  dot : ℕ → ℕ → Plan

/-- The library adds in these orders. -/
structure Lib.Follows (L : Lib) (P : Orders) : Prop where
  exp : L.exp = P.exp
  npSum : ∀ l, L.npSum l = (P.npSum l.length).run l
  rowSum : ∀ l, L.rowSum l = (P.rowSum l.length).run l
  colSum : ∀ l, L.colSum l = (P.colSum l.length).run l
  sum2 : ∀ l, L.sum2 l = (P.sum2 (l.map List.length)).run l.flatten
  dot : ∀ a b, L.dot a b = (P.dot a.length b.length).run (a.zip b)

/-- binary64 with flags. -/
def Track (_ : Orders) : Type := Flagged

namespace Track
variable {P : Orders}

instance : DecidableEq (Track P) := inferInstanceAs (DecidableEq Flagged)

/-- The operations that only rCIP uses are missing. -/
instance : Arith (Track P) where
  zero := Flagged.zero
  add := Flagged.add
  sub := Flagged.sub
  mul := Flagged.mul
  div := Flagged.div
  neg := Flagged.neg
  one := (⟨B64.ofNat 1, false⟩ : Flagged)
  two := (⟨B64.ofNat 2, false⟩ : Flagged)
  negHalf := (⟨B64.intDiv (-1) 2, false⟩ : Flagged)
  ofNat n := (⟨B64.ofNat n, false⟩ : Flagged)
  oneMinusInv n := (⟨B64.sub (B64.ofNat 1) (B64.intDiv 1 n), false⟩ : Flagged)
  invNat n := (⟨B64.intDiv 1 n, false⟩ : Flagged)
  invPred n := (⟨B64.intDiv 1 (n - 1), false⟩ : Flagged)
  intDiv m n := (⟨B64.intDiv m n, false⟩ : Flagged)
  chFactor n k := (⟨B64.intDiv (n - k) (k - 1), false⟩ : Flagged)
  delta _ := (⟨nan, true⟩ : Flagged)
  normConst _ := .ok (⟨nan, true⟩ : Flagged)
  sq a := Flagged.mul a a
  sqrt := Flagged.sqrt
  exp a := (⟨P.exp (Flagged.val a), Flagged.flag a⟩ : Flagged)
  max2 := Flagged.max2
  truthy a := B64.truthy (Flagged.val a)
  npSum l := (P.npSum l.length).track l
  pySum l := l.foldl Flagged.add Flagged.zero
  rowSum l := (P.rowSum l.length).track l
  sum2 l := (P.sum2 (l.map List.length)).track l.flatten
  colMean l := Flagged.div ((P.colSum l.length).track l) ⟨B64.ofNat l.length, false⟩
  dot a b := (P.dot a.length b.length).track (a.zip b)
  minOf a l := l.foldl Flagged.min2 a
  maxOf a l := l.foldl Flagged.max2 a
  mm _ _ _ _ := (⟨nan, true⟩ : Flagged)
  vm _ _ _ := (⟨nan, true⟩ : Flagged)
  det _ := .ok (⟨nan, true⟩ : Flagged)
  inv _ := .error .linAlgError

/-! ## The numbers -/

/-- The number is the number with the flag forgotten. -/
def Is (x : Flagged) (b : B64) : Prop := x.val = b

theorem sum_is {l : List Flagged} {m : List B64} (h : List.Forall₂ Is l m) (p : SumPlan) : Is (p.track l) (p.run m) := by
  induction p with
  | zero => rfl
  | add p q hp hq => unfold Is at *; rw [SumPlan.run, ← hp, ← hq]; rfl
  | item i =>
    simp only [SumPlan.run, SumPlan.track]
    induction h generalizing i with
    | nil => rfl
    | cons h _ ih =>
      cases i with
      | zero => exact h
      | succ i => exact ih i

theorem dot_is {l : List (Flagged × Flagged)} {m : List (B64 × B64)} (h : List.Forall₂ (fun x y => Is x.1 y.1 ∧ Is x.2 y.2) l m) (p : Plan) :
    Is (p.track l) (p.run m) := by
  have get : ∀ i : ℕ, (l[i]? = none ∧ m[i]? = none) ∨ ∃ x y, l[i]? = some x ∧ m[i]? = some y ∧ Is x.1 y.1 ∧ Is x.2 y.2 := by
    induction h with
    | nil => exact fun _ => Or.inl ⟨rfl, rfl⟩
    | @cons x y _ _ h _ ih =>
      intro i
      cases i with
      | zero => exact Or.inr ⟨x, y, rfl, rfl, h⟩
      | succ i => exact ih i
  induction p with
  | zero => rfl
  | add p q hp hq => unfold Is at *; rw [Plan.run, ← hp, ← hq]; rfl
  | prod i =>
    rcases get i with ⟨h1, h2⟩ | ⟨x, y, h1, h2, h3, h4⟩
    · simp only [Plan.run, Plan.track, h1, h2]; rfl
    · simp only [Plan.run, Plan.track, h1, h2]
      unfold Is at *
      rw [← h3, ← h4]; rfl
  | fma i p ih =>
    rcases get i with ⟨h1, h2⟩ | ⟨x, y, h1, h2, h3, h4⟩
    · simp only [Plan.run, Plan.track, h1, h2]; exact ih
    · simp only [Plan.run, Plan.track, h1, h2]
      unfold Is at *
      rw [← h3, ← h4, ← ih]; rfl

theorem fold_is {f : Flagged → Flagged → Flagged} {g : B64 → B64 → B64} (h : ∀ {x b y c}, Is x b → Is y c → Is (f x y) (g b c))
    {l : List Flagged} {m : List B64} (hl : List.Forall₂ Is l m) {x : Flagged} {b : B64} (hx : Is x b) : Is (l.foldl f x) (m.foldl g b) := by
  induction hl generalizing x b with
  | nil => exact hx
  | cons h' _ ih => exact ih (h hx h')

theorem lengths {A B : Type} {R : A → B → Prop} {l : List (List A)} {m : List (List B)} (h : List.Forall₂ (List.Forall₂ R) l m) :
    l.map List.length = m.map List.length := by
  induction h with
  | nil => rfl
  | cons h _ ih => rw [List.map_cons, List.map_cons, h.length_eq, ih]

theorem flat {A B : Type} {R : A → B → Prop} {l : List (List A)} {m : List (List B)} (h : List.Forall₂ (List.Forall₂ R) l m) :
    List.Forall₂ R l.flatten m.flatten := by
  induction h with
  | nil => exact .nil
  | cons h _ ih => exact List.rel_append h ih

theorem zipped {A B C D : Type} {R : A → B → Prop} {Q : C → D → Prop} {l : List A} {m : List B} {l' : List C} {m' : List D}
    (h : List.Forall₂ R l m) (h' : List.Forall₂ Q l' m') : List.Forall₂ (fun x y => R x.1 y.1 ∧ Q x.2 y.2) (l.zip l') (m.zip m') :=
  Units.zip_rel (f := Prod.mk) (g := Prod.mk) And.intro h h'

section
variable {L : Lib} (hL : L.Follows P)
include hL

theorem npSum_is {l : List Flagged} {m : List B64} (h : List.Forall₂ Is l m) : Is ((P.npSum l.length).track l) (L.npSum m) := by
  rw [hL.npSum, h.length_eq]; exact sum_is h _

theorem rowSum_is {l : List Flagged} {m : List B64} (h : List.Forall₂ Is l m) : Is ((P.rowSum l.length).track l) (L.rowSum m) := by
  rw [hL.rowSum, h.length_eq]; exact sum_is h _

theorem sum2_is {l : List (List Flagged)} {m : List (List B64)} (h : List.Forall₂ (List.Forall₂ Is) l m) :
    Is ((P.sum2 (l.map List.length)).track l.flatten) (L.sum2 m) := by
  rw [hL.sum2, lengths h]; exact sum_is (flat h) _

theorem colMean_is {l : List Flagged} {m : List B64} (h : List.Forall₂ Is l m) :
    Is (Flagged.div ((P.colSum l.length).track l) ⟨B64.ofNat l.length, false⟩) (B64.div (L.colSum m) (B64.ofNat m.length)) := by
  rw [hL.colSum, h.length_eq]; exact congrArg₂ B64.div (sum_is h _) rfl

theorem product_is {l l' : List Flagged} {m m' : List B64} (h : List.Forall₂ Is l m) (h' : List.Forall₂ Is l' m') :
    Is ((P.dot l.length l'.length).track (l.zip l')) (L.dot m m') := by
  rw [hL.dot, h.length_eq, h'.length_eq]; exact dot_is (zipped h h') _

theorem exp_is {a : Flagged} {b : B64} (h : Is a b) : Is ⟨P.exp a.val, a.flag⟩ (L.exp b) := by
  unfold Is at *; rw [hL.exp, h]

end

/-- Forgetting the flags respects all operations. -/
def forget {L : Lib} (hL : L.Follows P) : Units (Track P) (F64 L) where
  Rel _ := Is
  zero _ := rfl
  add h h' := congrArg₂ B64.add h h'
  sub h h' := congrArg₂ B64.sub h h'
  mul h h' := congrArg₂ B64.mul h h'
  div h h' := congrArg₂ B64.div h h'
  neg h := congrArg B64.neg h
  sq h := congrArg₂ B64.mul h h
  sqrt h := congrArg B64.sqrt h
  exp h := exp_is hL h
  max2 h h' := congrArg₂ B64.max2 h h'
  one := rfl
  two := rfl
  ofNat _ := rfl
  oneMinusInv _ := rfl
  invNat _ := rfl
  intDiv _ _ := rfl
  chFactor _ _ := rfl
  npSum h := npSum_is hL h
  pySum h := fold_is (f := Flagged.add) (g := B64.add) (fun h h' => congrArg₂ B64.add h h') h rfl
  rowSum h := rowSum_is hL h
  sum2 h := sum2_is hL h
  colMean h := colMean_is hL h
  dot h h' := product_is hL h h'
  minOf h h' := fold_is (f := Flagged.min2) (g := B64.min2) (fun h h' => congrArg₂ B64.min2 h h') h' h
  maxOf h h' := fold_is (f := Flagged.max2) (g := B64.max2) (fun h h' => congrArg₂ B64.max2 h h') h' h

/-! ## Scaling -/

/-- One of them has a flag, or the second is `2 ^ j` times the first. -/
def Scales (j : ℤ) (x y : Flagged) : Prop := x.flag = false → y.flag = false → Scaled j x.val y.val

theorem scales_zero (j : ℤ) : Scales j .zero .zero := fun _ _ => ⟨rfl, by simp⟩

theorem Scales.add {j : ℤ} {a b c e : Flagged} (h : Scales j a b) (h' : Scales j c e) : Scales j (a.add c) (b.add e) := by
  intro g g'
  simp only [Flagged.add, Bool.or_eq_false_iff] at g g'
  exact (h g.1.1 g'.1.1).add (h' g.1.2 g'.1.2) g.2 g'.2

theorem Scales.neg {j : ℤ} {a b : Flagged} (h : Scales j a b) : Scales j a.neg b.neg := fun g g' => (h g g').neg

theorem Scales.mul {i j : ℤ} {a b c e : Flagged} (h : Scales i a b) (h' : Scales j c e) : Scales (i + j) (a.mul c) (b.mul e) := by
  intro g g'
  simp only [Flagged.mul, Bool.or_eq_false_iff] at g g'
  exact (h g.1.1 g'.1.1).mul (h' g.1.2 g'.1.2) g.2 g'.2

theorem Scales.div {i j : ℤ} {a b c e : Flagged} (h : Scales i a b) (h' : Scales j c e) : Scales (i - j) (a.div c) (b.div e) := by
  intro g g'
  simp only [Flagged.div, Bool.or_eq_false_iff] at g g'
  exact (h g.1.1 g'.1.1).div (h' g.1.2 g'.1.2) g.2 g'.2

theorem Scales.fma {i j : ℤ} {a b c e p q : Flagged} (h : Scales i a b) (h' : Scales j c e) (hp : Scales (i + j) p q) :
    Scales (i + j) (a.fma c p) (b.fma e q) := by
  intro g g'
  simp only [Flagged.fma, Bool.or_eq_false_iff] at g g'
  exact (h g.1.1.1 g'.1.1.1).fma (h' g.1.1.2 g'.1.1.2) (hp g.1.2 g'.1.2) g.2 g'.2

theorem Scales.sqrt {j : ℤ} {a b : Flagged} (h : Scales (j + j) a b) : Scales j a.sqrt b.sqrt := by
  intro g g'
  simp only [Flagged.sqrt, Bool.or_eq_false_iff] at g g'
  exact (h g.1 g'.1).sqrt g.2 g'.2

theorem Scales.min2 {j : ℤ} {a b c e : Flagged} (h : Scales j a b) (h' : Scales j c e) : Scales j (a.min2 c) (b.min2 e) := by
  intro g g'
  simp only [Flagged.min2, Bool.or_eq_false_iff] at g g'
  exact (h g.1 g'.1).min2 (h' g.2 g'.2)

theorem Scales.max2 {j : ℤ} {a b c e : Flagged} (h : Scales j a b) (h' : Scales j c e) : Scales j (a.max2 c) (b.max2 e) := by
  intro g g'
  simp only [Flagged.max2, Bool.or_eq_false_iff] at g g'
  exact (h g.1 g'.1).max2 (h' g.2 g'.2)

theorem scales_const {j : ℤ} (hj : j = 0) (b : B64) : Scales j ⟨b, false⟩ ⟨b, false⟩ := by
  subst hj; exact fun _ _ => scaled_refl b

theorem scales_cast {i j : ℤ} {a b : Flagged} (h : Scales i a b) (e : i = j) : Scales j a b := e ▸ h

theorem sum_scales {j : ℤ} {l m : List Flagged} (h : List.Forall₂ (Scales j) l m) (p : SumPlan) : Scales j (p.track l) (p.track m) := by
  induction p with
  | zero => exact scales_zero j
  | add p q hp hq => exact hp.add hq
  | item i =>
    simp only [SumPlan.track]
    induction h generalizing i with
    | nil => exact scales_zero j
    | cons h _ ih =>
      cases i with
      | zero => exact h
      | succ i => exact ih i

theorem dot_scales {i j : ℤ} {l m : List (Flagged × Flagged)} (h : List.Forall₂ (fun x y => Scales i x.1 y.1 ∧ Scales j x.2 y.2) l m) (p : Plan) :
    Scales (i + j) (p.track l) (p.track m) := by
  have get : ∀ n : ℕ, (l[n]? = none ∧ m[n]? = none) ∨ ∃ x y, l[n]? = some x ∧ m[n]? = some y ∧ Scales i x.1 y.1 ∧ Scales j x.2 y.2 := by
    induction h with
    | nil => exact fun _ => Or.inl ⟨rfl, rfl⟩
    | @cons x y _ _ h _ ih =>
      intro n
      cases n with
      | zero => exact Or.inr ⟨x, y, rfl, rfl, h⟩
      | succ n => exact ih n
  induction p with
  | zero => exact scales_zero _
  | add p q hp hq => exact hp.add hq
  | prod n =>
    rcases get n with ⟨h1, h2⟩ | ⟨x, y, h1, h2, h3, h4⟩
    · simp only [Plan.track, h1, h2]; exact scales_zero _
    · simp only [Plan.track, h1, h2]; exact h3.mul h4
  | fma n p ih =>
    rcases get n with ⟨h1, h2⟩ | ⟨x, y, h1, h2, h3, h4⟩
    · simp only [Plan.track, h1, h2]; exact ih
    · simp only [Plan.track, h1, h2]; exact h3.fma h4 ih

theorem fold_scales {j : ℤ} {f : Flagged → Flagged → Flagged} (h : ∀ {x y z w}, Scales j x y → Scales j z w → Scales j (f x z) (f y w))
    {l m : List Flagged} (hl : List.Forall₂ (Scales j) l m) {x y : Flagged} (hx : Scales j x y) : Scales j (l.foldl f x) (m.foldl f y) := by
  induction hl generalizing x y with
  | nil => exact hx
  | cons h' _ ih => exact ih (h hx h')

theorem plan_scales {j : ℤ} {l m : List Flagged} (h : List.Forall₂ (Scales j) l m) (p : ℕ → SumPlan) :
    Scales j ((p l.length).track l) ((p m.length).track m) := by rw [h.length_eq]; exact sum_scales h _

theorem sum2_scales {j : ℤ} {l m : List (List Flagged)} (h : List.Forall₂ (List.Forall₂ (Scales j)) l m) :
    Scales j ((P.sum2 (l.map List.length)).track l.flatten) ((P.sum2 (m.map List.length)).track m.flatten) := by
  rw [lengths h]; exact sum_scales (flat h) _

theorem colMean_scales {j : ℤ} {l m : List Flagged} (h : List.Forall₂ (Scales j) l m) :
    Scales j (Flagged.div ((P.colSum l.length).track l) ⟨B64.ofNat l.length, false⟩)
      (Flagged.div ((P.colSum m.length).track m) ⟨B64.ofNat m.length, false⟩) := by
  rw [h.length_eq]
  exact scales_cast (Scales.div (sum_scales h _) (scales_const rfl _)) (by ring)

theorem product_scales {i j : ℤ} {l l' m m' : List Flagged} (h : List.Forall₂ (Scales i) l m) (h' : List.Forall₂ (Scales j) l' m') :
    Scales (i + j) ((P.dot l.length l'.length).track (l.zip l')) ((P.dot m.length m'.length).track (m.zip m')) := by
  rw [h.length_eq, h'.length_eq]; exact dot_scales (zipped h h') _

theorem exp_scales {j : ℤ} (hj : j = 0) {a b : Flagged} (h : Scales j a b) : Scales j ⟨P.exp a.val, a.flag⟩ ⟨P.exp b.val, b.flag⟩ := by
  subst hj
  intro g g'
  exact scaled_zero.mpr (congrArg P.exp (scaled_zero.mp (h g g')))

/-- Multiplying all lengths by `2 ^ k`. -/
def scale (P : Orders) (k : ℤ) : Units (Track P) (Track P) where
  Rel w := Scales (w * k)
  zero w := scales_zero _
  add h h' := Scales.add h h'
  sub h h' := Scales.add h (Scales.neg h')
  mul h h' := scales_cast (Scales.mul h h') (by ring)
  div h h' := scales_cast (Scales.div h h') (by ring)
  neg h := Scales.neg h
  sq h := scales_cast (Scales.mul h h) (by ring)
  sqrt h := Scales.sqrt (scales_cast h (by ring))
  exp h := exp_scales (zero_mul k) h
  max2 h h' := Scales.max2 h h'
  one := scales_const (zero_mul k) _
  two := scales_const (zero_mul k) _
  ofNat _ := scales_const (zero_mul k) _
  oneMinusInv _ := scales_const (zero_mul k) _
  invNat _ := scales_const (zero_mul k) _
  intDiv _ _ := scales_const (zero_mul k) _
  chFactor _ _ := scales_const (zero_mul k) _
  npSum h := plan_scales h P.npSum
  pySum h := fold_scales Scales.add h (scales_zero _)
  rowSum h := plan_scales h P.rowSum
  sum2 h := sum2_scales h
  colMean h := colMean_scales h
  dot h h' := scales_cast (product_scales h h') (by ring)
  minOf h h' := fold_scales Scales.min2 h' h
  maxOf h h' := fold_scales Scales.max2 h' h

end Track
end Verif.Gen
