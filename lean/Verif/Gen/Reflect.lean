import Verif.Gen.Uniform
import Verif.Gen.SpecBatch

/-!
# Reversing features

What the specifications of `Verif/Gen/Spec.lean` and `Verif/Gen/SpecBatch.lean` do when the sign of some features is reversed
in all samples.  IEEE arithmetic is symmetric in the sign, with one exception: `x - x` is `+0`, whatever the sign of `x`.  So
reversing a feature reverses the centroids only up to the sign of zeros, and one must show that the sign of a zero never gets into
the value.
-/

namespace Verif.Gen

variable {F : Type} [Arith F]

/-- What is known of an arithmetic when the sign is reversed. -/
structure Reflect (F : Type) [Arith F] where
  /-- the one is the other with its sign reversed; zeros of any sign are opposite -/
  Opp : F → F → Prop
  /-- equal, or both zero -/
  Same : F → F → Prop
  /-- not a negative zero -/
  Solid : F → Prop
  opp_zero : Opp 0 0
  opp_add : ∀ {a b c e}, Opp a b → Opp c e → Opp (a + c) (b + e)
  opp_sub : ∀ {a b c e}, Opp a b → Opp c e → Opp (a - c) (b - e)
  opp_mul : ∀ (k : F) {a b}, Opp a b → Opp (k * a) (k * b)
  opp_mul' : ∀ (k : F) {a b}, Opp a b → Opp (a * k) (b * k)
  opp_sq : ∀ {a b}, Opp a b → Arith.sq a = Arith.sq b
  opp_colMean : ∀ {l m}, List.Forall₂ Opp l m → Opp (Arith.colMean l) (Arith.colMean m)
  solid_zero : Solid 0
  solid_add : ∀ {a : F} (b : F), Solid a → Solid (a + b)
  solid_dot : ∀ u : List F, Solid (Arith.dot u u)
  same_add : ∀ {a b c : F}, Solid a → Same b c → a + Arith.two * b = a + Arith.two * c
  same_sub : ∀ {a b c : F}, Solid a → Same b c → a - Arith.two * b = a - Arith.two * c
  same_sub' : ∀ {a b c : F}, Solid a → Same b c → a - b = a - c
  /-- reversing the same positions of both vectors -/
  dot : ∀ {u u' w w' : List F}, u.length = u'.length → w.length = w'.length →
    (∀ (j : ℕ) (a a' b b' : F), u[j]? = some a → u'[j]? = some a' → w[j]? = some b → w'[j]? = some b' →
      (a = a' ∧ b = b') ∨ (Opp a a' ∧ Opp b b')) → Same (Arith.dot u w) (Arith.dot u' w')
  dot_self : ∀ {u u' : List F}, u.length = u'.length →
    (∀ (j : ℕ) (a a' : F), u[j]? = some a → u'[j]? = some a' → a = a' ∨ Opp a a') → Arith.dot u u = Arith.dot u' u'

namespace Reflect

variable (R : Reflect F)

/-- Equal, or opposite if the feature is reversed. -/
def Rel (s : Bool) (a b : F) : Prop := if s then R.Opp a b else a = b

/-- The features `j` with `σ j` are opposite, the others equal. -/
def Turned (σ : ℕ → Bool) (u w : List F) : Prop :=
  u.length = w.length ∧ ∀ (j : ℕ) (a b : F), u[j]? = some a → w[j]? = some b → R.Rel (σ j) a b

variable {R} {σ : ℕ → Bool}

theorem Rel.zero (s : Bool) : R.Rel s 0 0 := by cases s <;> simp [Rel, R.opp_zero]

theorem Rel.add {s : Bool} {a b c e : F} (h : R.Rel s a b) (h' : R.Rel s c e) : R.Rel s (a + c) (b + e) := by
  cases s
  · simp only [Rel] at *; simp_all
  · simp only [Rel, if_true] at *; exact R.opp_add h h'

theorem Rel.sub {s : Bool} {a b c e : F} (h : R.Rel s a b) (h' : R.Rel s c e) : R.Rel s (a - c) (b - e) := by
  cases s
  · simp only [Rel] at *; simp_all
  · simp only [Rel, if_true] at *; exact R.opp_sub h h'

theorem Rel.mul {s : Bool} {a b : F} (k : F) (h : R.Rel s a b) : R.Rel s (k * a) (k * b) := by
  cases s
  · simp only [Rel] at *; simp_all
  · simp only [Rel, if_true] at *; exact R.opp_mul k h

theorem Rel.mul' {s : Bool} {a b : F} (k : F) (h : R.Rel s a b) : R.Rel s (a * k) (b * k) := by
  cases s
  · simp only [Rel] at *; simp_all
  · simp only [Rel, if_true] at *; exact R.opp_mul' k h

theorem Rel.sq {s : Bool} {a b : F} (h : R.Rel s a b) : Arith.sq a = Arith.sq b := by
  cases s
  · simp only [Rel] at h; simp_all
  · simp only [Rel, if_true] at h; exact R.opp_sq h

theorem Rel.colMean {s : Bool} {l m : List F} (h : List.Forall₂ (R.Rel s) l m) : R.Rel s (Arith.colMean l) (Arith.colMean m) := by
  cases s
  · have e : R.Rel false = Eq := by funext a b; simp [Rel]
    rw [e, List.forall₂_eq_eq_eq] at h
    subst h
    simp [Rel]
  · have e : R.Rel true = R.Opp := by funext a b; simp [Rel]
    rw [e] at h ⊢
    exact R.opp_colMean h

theorem Turned.nil : R.Turned σ [] [] := ⟨rfl, by simp⟩

theorem Turned.zip {f : F → F → F} (hf : ∀ {s a b c e}, R.Rel s a b → R.Rel s c e → R.Rel s (f a c) (f b e)) {u u' w w' : List F}
    (h : R.Turned σ u u') (h' : R.Turned σ w w') : R.Turned σ (List.zipWith f u w) (List.zipWith f u' w') := by
  refine ⟨by simp [h.1, h'.1], fun j a b ha hb => ?_⟩
  rw [List.getElem?_zipWith_eq_some] at ha hb
  obtain ⟨x, y, hx, hy, rfl⟩ := ha
  obtain ⟨x', y', hx', hy', rfl⟩ := hb
  exact hf (h.2 j _ _ hx hx') (h'.2 j _ _ hy hy')

theorem Turned.add {u u' w w' : List F} (h : R.Turned σ u u') (h' : R.Turned σ w w') :
    R.Turned σ (List.zipWith (· + ·) u w) (List.zipWith (· + ·) u' w') := h.zip Rel.add h'

theorem Turned.sub {u u' w w' : List F} (h : R.Turned σ u u') (h' : R.Turned σ w w') :
    R.Turned σ (List.zipWith (· - ·) u w) (List.zipWith (· - ·) u' w') := h.zip Rel.sub h'

theorem Turned.map {f : F → F} (hf : ∀ {s a b}, R.Rel s a b → R.Rel s (f a) (f b)) {u u' : List F} (h : R.Turned σ u u') :
    R.Turned σ (u.map f) (u'.map f) := by
  refine ⟨by simp [h.1], fun j a b ha hb => ?_⟩
  rw [List.getElem?_map, Option.map_eq_some_iff] at ha hb
  obtain ⟨x, hx, rfl⟩ := ha
  obtain ⟨y, hy, rfl⟩ := hb
  exact hf (h.2 j _ _ hx hy)

theorem Turned.smul {u u' : List F} (k : F) (h : R.Turned σ u u') : R.Turned σ (u.map (k * ·)) (u'.map (k * ·)) :=
  h.map (Rel.mul k)

theorem Turned.smul' {u u' : List F} (k : F) (h : R.Turned σ u u') : R.Turned σ (u.map (· * k)) (u'.map (· * k)) :=
  h.map (Rel.mul' k)

theorem Turned.zeros {u u' : List F} (h : R.Turned σ u u') : R.Turned σ (u.map fun _ => 0) (u'.map fun _ => 0) :=
  h.map fun _ => Rel.zero _

theorem Turned.getD {u u' : List F} (h : R.Turned σ u u') (j : ℕ) : R.Rel (σ j) (u.getD j 0) (u'.getD j 0) := by
  rw [List.getD_eq_getElem?_getD, List.getD_eq_getElem?_getD]
  cases hu : u[j]? with
  | none =>
    have : u'[j]? = none := by rw [List.getElem?_eq_none_iff] at hu ⊢; rw [← h.1]; exact hu
    rw [this]; exact Rel.zero _
  | some a =>
    cases hw : u'[j]? with
    | none => rw [List.getElem?_eq_none_iff, ← h.1, ← List.getElem?_eq_none_iff, hu] at hw; cases hw
    | some b => exact h.2 j a b hu hw

theorem Turned.sqs {u u' : List F} (h : R.Turned σ u u') : u.map Arith.sq = u'.map Arith.sq := by
  apply List.ext_getElem?
  intro j
  rw [List.getElem?_map, List.getElem?_map]
  cases hu : u[j]? with
  | none =>
    have : u'[j]? = none := by rw [List.getElem?_eq_none_iff] at hu ⊢; rw [← h.1]; exact hu
    rw [this]
  | some a =>
    cases hw : u'[j]? with
    | none => rw [List.getElem?_eq_none_iff, ← h.1, ← List.getElem?_eq_none_iff, hu] at hw; cases hw
    | some b => exact congrArg some (h.2 j a b hu hw).sq

theorem Turned.dot {u u' w w' : List F} (h : R.Turned σ u u') (h' : R.Turned σ w w') : R.Same (Arith.dot u w) (Arith.dot u' w') := by
  refine R.dot h.1 h'.1 fun j a a' b b' ha ha' hb hb' => ?_
  have h1 := h.2 j _ _ ha ha'
  have h2 := h'.2 j _ _ hb hb'
  cases hs : σ j
  · left; rw [hs] at h1 h2; simpa [Rel] using And.intro h1 h2
  · right; rw [hs] at h1 h2; simpa [Rel] using And.intro h1 h2

theorem Turned.dot_self {u u' : List F} (h : R.Turned σ u u') : Arith.dot u u = Arith.dot u' u' := by
  refine R.dot_self h.1 fun j a a' ha ha' => ?_
  have h1 := h.2 j _ _ ha ha'
  cases hs : σ j
  · left; rw [hs] at h1; simpa [Rel] using h1
  · right; rw [hs] at h1; simpa [Rel] using h1

theorem Turned.blend (n : ℕ) {v v' x x' : List F} (h : R.Turned σ v v') (h' : R.Turned σ x x') :
    R.Turned σ (blend n v x) (blend n v' x') := (h.smul _).add (h'.smul _)

/-! ## Streams -/

/-- The same labels, and the features `j` with `σ j` reversed in every sample. -/
def Mirrored (R : Reflect F) (σ : ℕ → Bool) (S T : Samples F) : Prop := List.Forall₂ (fun p q => R.Turned σ p.1 q.1 ∧ p.2 = q.2) S T

variable {S T : Samples F}

theorem Mirrored.labels (h : R.Mirrored σ S T) : S.map Prod.snd = T.map Prod.snd := by
  unfold Mirrored at h
  induction h with
  | nil => rfl
  | cons h _ ih => simp [h.2, ih]

theorem Mirrored.rows (h : R.Mirrored σ S T) : List.Forall₂ (R.Turned σ) (S.map Prod.fst) (T.map Prod.fst) := by
  unfold Mirrored at h
  induction h with
  | nil => exact .nil
  | cons h _ ih => exact .cons h.1 ih

theorem Mirrored.length (h : R.Mirrored σ S T) : S.length = T.length := List.Forall₂.length_eq h

theorem Mirrored.order (h : R.Mirrored σ S T) : order S = order T := by rw [Gen.order, Gen.order, h.labels]

theorem Mirrored.own (h : R.Mirrored σ S T) (c : ℤ) : List.Forall₂ (R.Turned σ) (own S c) (own T c) := by
  unfold Mirrored at h
  unfold Gen.own
  induction h with
  | nil => exact .nil
  | @cons p q S T h _ ih =>
    rw [List.filter_cons, List.filter_cons, ← h.2]
    split
    · exact .cons h.1 ih
    · exact ih

theorem Mirrored.newer (h : R.Mirrored σ S T) (a b : ℤ) : newer S a b = newer T a b := by
  have e : ∀ U : Samples F, (U.reverse.find? fun p => decide (p.2 = a ∨ p.2 = b)).map Prod.snd =
      (U.map Prod.snd).reverse.find? fun c => decide (c = a ∨ c = b) := by
    intro U
    rw [← List.map_reverse, List.find?_map]
    rfl
  rw [Gen.newer, Gen.newer, e, e, h.labels]

theorem Mirrored.dim {d : ℕ} (h : R.Mirrored σ S T) (hS : S.Dim d) : T.Dim d := by
  unfold Mirrored at h
  induction h with
  | nil => exact hS
  | cons h _ ih =>
    intro p hp
    rcases List.mem_cons.mp hp with rfl | hp
    · rw [← h.1.1]; exact hS _ List.mem_cons_self
    · exact ih (fun p hp => hS p (List.mem_cons_of_mem _ hp)) p hp

theorem Mirrored.append {U V : Samples F} (h : R.Mirrored σ S T) (h' : R.Mirrored σ U V) : R.Mirrored σ (S ++ U) (T ++ V) :=
  List.rel_append h h'

theorem Mirrored.take (h : R.Mirrored σ S T) (n : ℕ) : R.Mirrored σ (S.take n) (T.take n) := List.forall₂_take n h

theorem Mirrored.inits {α : Type} {f : Samples F → α} (hf : ∀ {S T : Samples F}, R.Mirrored σ S T → f S = f T) (h : R.Mirrored σ S T) :
    S.inits.tail.map f = T.inits.tail.map f := by
  have key : ∀ {S T : Samples F}, R.Mirrored σ S T → ∀ {f g : Samples F → α}, (∀ {S T : Samples F}, R.Mirrored σ S T → f S = g T) →
      S.inits.map f = T.inits.map g := by
    intro S T h
    unfold Mirrored at h
    induction h with
    | nil => exact fun hf => congrArg (· :: []) (hf .nil)
    | @cons p q S T hp h ih =>
      intro f g hf
      rw [List.inits_cons, List.inits_cons, List.map_cons, List.map_cons, List.map_map, List.map_map]
      rw [show f [] = g [] from hf .nil]
      congr 1
      exact ih (f := f ∘ _) (g := g ∘ _) fun h' => hf (.cons hp h')
  rw [List.map_tail, List.map_tail, key h hf]

theorem Mirrored.prefixes (h : R.Mirrored σ S T) : List.Forall₂ (R.Mirrored σ) S.inits T.inits := by
  have key : ∀ {S T : Samples F}, R.Mirrored σ S T → ∀ {f g : Samples F → Samples F},
      (∀ {S T : Samples F}, R.Mirrored σ S T → R.Mirrored σ (f S) (g T)) → List.Forall₂ (R.Mirrored σ) (S.inits.map f) (T.inits.map g) := by
    intro S T h
    unfold Mirrored at h
    induction h with
    | nil => exact fun hf => .cons (hf .nil) .nil
    | @cons p q S T hp h ih =>
      intro f g hf
      rw [List.inits_cons, List.inits_cons, List.map_cons, List.map_cons, List.map_map, List.map_map]
      exact .cons (hf .nil) (ih (f := f ∘ _) (g := g ∘ _) fun h' => hf (.cons hp h'))
  simpa using key h (f := id) (g := id) fun h => h

/-! ## Statistics -/

/-- The statistics of a cluster before and after reversing. -/
structure Turns (R : Reflect F) (σ : ℕ → Bool) (s t : Stat F) : Prop where
  n : s.n = t.n
  v : R.Turned σ s.v t.v
  cp : s.cp = t.cp
  solid : R.Solid s.cp
  g : R.Turned σ s.g t.g

theorem Turns.more {s t : Stat F} (h : R.Turns σ s t) {x y : List F} (hx : R.Turned σ x y) : R.Turns σ (s.more x) (t.more y) := by
  have hv := h.v.blend (s.n + 1) hx
  have hdv := h.v.sub hv
  have hdx := hx.sub hv
  have hsolid := R.solid_add (Arith.ofNat s.n * Arith.dot (List.zipWith (· - ·) s.v (Gen.blend (s.n + 1) s.v x))
    (List.zipWith (· - ·) s.v (Gen.blend (s.n + 1) s.v x))) (R.solid_add (Arith.dot (List.zipWith (· - ·) x (Gen.blend (s.n + 1) s.v x))
    (List.zipWith (· - ·) x (Gen.blend (s.n + 1) s.v x))) h.solid)
  have e := R.same_add hsolid (hdv.dot h.g)
  rw [h.n] at hv hdv hdx e
  refine ⟨by simp [Stat.more, h.n], by simpa [Stat.more, h.n] using hv, ?_, R.solid_add _ hsolid, ?_⟩
  · simp only [Stat.more, h.n]
    rw [← hdx.dot_self, ← hdv.dot_self, ← h.cp]
    exact e
  · simp only [Stat.more, h.n]
    exact (h.g.add hdx).add (hdv.smul _)

theorem Turns.foldl {l m : List (List F)} (h : List.Forall₂ (R.Turned σ) l m) {s t : Stat F} (h' : R.Turns σ s t) :
    R.Turns σ (l.foldl Stat.more s) (m.foldl Stat.more t) := by
  induction h generalizing s t with
  | nil => exact h'
  | cons hx _ ih => exact ih (h'.more hx)

theorem Turns.of {l m : List (List F)} (h : List.Forall₂ (R.Turned σ) l m) : R.Turns σ (Stat.of l) (Stat.of m) := by
  cases h with
  | nil => exact ⟨rfl, .nil, rfl, R.solid_zero, .nil⟩
  | cons hx h => exact Turns.foldl h ⟨rfl, hx, rfl, R.solid_zero, hx.zeros⟩

theorem Mirrored.stat (h : R.Mirrored σ S T) (c : ℤ) : R.Turns σ (stat S c) (stat T c) := Turns.of (h.own c)

theorem Turned.centre {l m : List (List F)} (h : List.Forall₂ (R.Turned σ) l m) (n : ℕ) {v w : List F} (h' : R.Turned σ v w) :
    R.Turned σ (centre n v l) (centre n w m) := by
  induction h generalizing n v w with
  | nil => exact h'
  | cons hx _ ih => exact ih (n + 1) (h'.blend (n + 1) hx)

theorem Mirrored.mu (h : R.Mirrored σ S T) : R.Turned σ (mu S) (mu T) := by
  cases h with
  | nil => exact .nil
  | cons hp h => exact Turned.centre (Mirrored.rows h) 1 hp.1

/-! ## Distances -/

theorem Turns.between {I : Index} {s t s' t' : Stat F} (h : R.Turns σ s s') (h' : R.Turns σ t t') : between I s t = between I s' t' := by
  cases I <;> simp only [Gen.between, (h.v.sub h'.v).sqs, h.cp, h'.cp, h.n, h'.n]

theorem Mirrored.table (h : R.Mirrored σ S T) (I : Index) : table I S = table I T := by
  funext a b
  rw [Gen.table, Gen.table, h.newer, (h.stat a).between (h.stat b), (h.stat b).between (h.stat a)]

theorem Mirrored.separation (h : R.Mirrored σ S T) : separation S = separation T := by
  funext c
  rw [Gen.separation, Gen.separation, (h.stat c).n, ((h.stat c).v.sub h.mu).sqs]

theorem Mirrored.vBar (h : R.Mirrored σ S T) (d : ℕ) : R.Turned σ (vBar S d) (vBar T d) := by
  refine ⟨by simp [Gen.vBar], fun j a b ha hb => ?_⟩
  simp only [Gen.vBar, List.getElem?_map, Option.map_eq_some_iff] at ha hb
  obtain ⟨i, hi, rfl⟩ := ha
  obtain ⟨i', hi', rfl⟩ := hb
  rw [hi] at hi'
  injection hi' with e
  subst e
  obtain rfl : i = j := by
    have := List.getElem?_eq_some_iff.mp hi
    obtain ⟨h1, h2⟩ := this
    simpa using h2.symm
  rw [← h.order]
  refine Rel.colMean ?_
  induction Gen.order S with
  | nil => exact .nil
  | cons c ks ih => exact .cons ((h.stat c).v.getD i) ih

theorem Mirrored.betaT (h : R.Mirrored σ S T) (d : ℕ) : betaT S d = betaT T d := by
  rw [Gen.betaT, Gen.betaT, ← h.order]
  congr 2
  apply List.map_congr_left
  intro c _
  exact ((h.stat c).v.sub (h.vBar d)).dot_self

theorem Mirrored.psTerm (h : R.Mirrored σ S T) (d : ℕ) : psTerm S d = psTerm T d := by
  funext c
  have e : (fun c => (Gen.stat S c).n) = fun c => (Gen.stat T c).n := by funext c; exact (h.stat c).n
  rw [Gen.psTerm, Gen.psTerm, h.betaT, h.table, ← h.order, (h.stat c).n, e]

/-! ## cSIL -/

theorem Turns.silMore {s t : Stat F} (h : R.Turns σ s t) {x y : List F} (hx : R.Turned σ x y) : R.Turns σ (Sil.more s x) (Sil.more t y) := by
  refine ⟨by simp [Sil.more, h.n], ?_, by simp only [Sil.more]; rw [h.cp, hx.dot_self], R.solid_add _ h.solid, h.g.add hx⟩
  have hv := h.v.blend (s.n + 1) hx
  simpa [Sil.more, h.n] using hv

theorem Turns.silFoldl {l m : List (List F)} (h : List.Forall₂ (R.Turned σ) l m) {s t : Stat F} (h' : R.Turns σ s t) :
    R.Turns σ (l.foldl Sil.more s) (m.foldl Sil.more t) := by
  induction h generalizing s t with
  | nil => exact h'
  | cons hx _ ih => exact ih (h'.silMore hx)

theorem Turns.silOf {l m : List (List F)} (h : List.Forall₂ (R.Turned σ) l m) : R.Turns σ (Sil.of l) (Sil.of m) := by
  cases h with
  | nil => exact ⟨rfl, .nil, rfl, R.solid_zero, .nil⟩
  | cons hx h => exact Turns.silFoldl h ⟨rfl, hx, hx.dot_self, R.solid_dot _, hx⟩

theorem Mirrored.sil (h : R.Mirrored σ S T) (c : ℤ) : R.Turns σ (sil S c) (sil T c) := Turns.silOf (h.own c)

theorem Turns.near {s t : Stat F} (h : R.Turns σ s t) {w w' : List F} (hw : R.Turned σ w w') : near s w = near t w' := by
  rw [Gen.near, Gen.near, ← h.cp, ← h.n, ← hw.dot_self, R.same_sub (R.solid_add _ h.solid) (h.g.dot hw)]

theorem Turns.far {s t : Stat F} (h : R.Turns σ s t) {x y g g' w w' : List F} (hx : R.Turned σ x y) (hg : R.Turned σ g g')
    (hw : R.Turned σ w w') : far s x g w = far t y g' w' := by
  simp only [Gen.far]
  rw [← h.cp, ← h.n, ← (hx.sub hw).dot_self, ← hw.dot_self, R.same_sub (R.solid_add _ (R.solid_add _ h.solid)) (hg.dot hw)]

theorem Mirrored.cellRev {S T : Samples F} (h : R.Mirrored σ S T) (a b : ℤ) : cellRev S a b = cellRev T a b := by
  unfold Mirrored at h
  induction h with
  | nil => rfl
  | @cons p q S T hp h ih =>
    obtain ⟨x, c⟩ := p
    obtain ⟨y, c'⟩ := q
    obtain ⟨hx, hc⟩ := hp
    dsimp only at hx hc
    subst hc
    have hr : R.Mirrored σ S.reverse T.reverse := List.forall₂_reverse_iff.mpr h
    have hr' : R.Mirrored σ (S.reverse ++ [(x, c)]) (T.reverse ++ [(y, c)]) := hr.append (.cons ⟨hx, rfl⟩ .nil)
    simp only [Gen.cellRev]
    rw [ih, ← hr.order, (hr.sil c).far hx ((hr.sil c).g.add hx) (hr.sil b).v, (hr.sil a).near (hr'.sil c).v,
      (hr.sil c).far hx (hr.sil c).g (hr'.sil c).v, hx.dot_self, (hr.sil b).v.dot_self,
      R.same_sub' (R.solid_add _ (R.solid_dot _)) (hx.dot (hr.sil b).v)]

theorem Mirrored.cell (h : R.Mirrored σ S T) : cell S = cell T := by
  funext a b
  exact Mirrored.cellRev (List.forall₂_reverse_iff.mpr h) a b

/-! ## Values -/

theorem Mirrored.value (h : R.Mirrored σ S T) (d : ℕ) (I : Index) : value d I S = value d I T := by
  have hcp : (fun c => (Gen.stat S c).cp) = fun c => (Gen.stat T c).cp := by funext c; exact (h.stat c).cp
  have hn : (fun c => (Gen.stat S c).n) = fun c => (Gen.stat T c).n := by funext c; exact (h.stat c).n
  have hq : (fun c => (Gen.stat S c).cp / Arith.ofNat (Gen.stat S c).n) = fun c => (Gen.stat T c).cp / Arith.ofNat (Gen.stat T c).n := by
    funext c; rw [(h.stat c).cp, (h.stat c).n]
  have hd : ∀ J, distances J S = distances J T := fun J => by rw [distances, distances, h.order, h.table]
  have hquot : quotients S = quotients T := by
    funext a b
    simp only [quotients, quotient, h.order, h.table, Gen.spread, (h.stat a).cp, (h.stat a).n, (h.stat b).cp, (h.stat b).n]
  have hs : silhouette S = silhouette T := by funext c; simp only [silhouette, h.order, h.cell]
  cases I <;> simp only [Gen.value, h.order, h.length, h.separation, hcp, hd, hquot, hq, h.psTerm, hs, h.cell]

/-! ## Batches -/

section Batch
variable {P Q : ℕ → List (List F)} {rows rows' : List (List F)}

theorem Turned.colMeans (d : ℕ) {l m : List (List F)} (h : List.Forall₂ (R.Turned σ) l m) : R.Turned σ (colMeans d l) (colMeans d m) := by
  refine ⟨by simp [Gen.colMeans], fun j a b ha hb => ?_⟩
  simp only [Gen.colMeans, List.getElem?_map, Option.map_eq_some_iff] at ha hb
  obtain ⟨i, hi, rfl⟩ := ha
  obtain ⟨i', hi', rfl⟩ := hb
  rw [hi] at hi'
  injection hi' with e
  subst e
  obtain rfl : i = j := by
    obtain ⟨h1, h2⟩ := List.getElem?_eq_some_iff.mp hi
    simpa using h2.symm
  refine Rel.colMean ?_
  induction h with
  | nil => exact .nil
  | cons hx _ ih => exact .cons (hx.getD i) ih

theorem Turned.sqDiff {x y v w : List F} (h : R.Turned σ x y) (h' : R.Turned σ v w) : sqDiff x v = sqDiff y w :=
  (h.sub (h'.smul' _)).sqs

theorem Turned.sqDiffs {l m : List (List F)} (h : List.Forall₂ (R.Turned σ) l m) {v w : List F} (h' : R.Turned σ v w) :
    (l.map fun x => Gen.sqDiff x v) = m.map fun x => Gen.sqDiff x w := by
  induction h with
  | nil => rfl
  | cons hx _ ih => rw [List.map_cons, List.map_cons, hx.sqDiff h', ih]

theorem Turns.batch (d : ℕ) {l m : List (List F)} (h : List.Forall₂ (R.Turned σ) l m) :
    (Stat.batch d l).n = (Stat.batch d m).n ∧ R.Turned σ (Stat.batch d l).v (Stat.batch d m).v ∧ (Stat.batch d l).cp = (Stat.batch d m).cp :=
  ⟨h.length_eq, Turned.colMeans d h, by simp only [Stat.batch]; rw [Turned.sqDiffs h (Turned.colMeans d h)]⟩

theorem batch_table (d : ℕ) (h : ∀ i, List.Forall₂ (R.Turned σ) (P i) (Q i)) (I : Index) :
    Batch.table d P I = Batch.table d Q I := by
  have e : ∀ i j, between I (Stat.batch d (P i)) (Stat.batch d (P j)) = between I (Stat.batch d (Q i)) (Stat.batch d (Q j)) := by
    intro i j
    obtain ⟨n, v, cp⟩ := Turns.batch d (h i)
    obtain ⟨n', v', cp'⟩ := Turns.batch d (h j)
    cases I <;> simp only [Gen.between, (v.sub v').sqs, n, n', cp, cp']
  funext i j
  simp only [Batch.table, Batch.both, e]

theorem batch_cell (d : ℕ) (h : ∀ i, List.Forall₂ (R.Turned σ) (P i) (Q i)) : Batch.cell d P = Batch.cell d Q := by
  funext j i
  have e : ((P j).map fun x => Arith.rowSum (Gen.sqDiff x (colMeans d (P i)))) =
      (Q j).map fun x => Arith.rowSum (Gen.sqDiff x (colMeans d (Q i))) := by
    have := congrArg (List.map Arith.rowSum) (Turned.sqDiffs (h j) (Turned.colMeans d (h i)))
    rwa [List.map_map, List.map_map] at this
  rw [Batch.cell, Batch.cell, e, (h j).length_eq]

theorem batch_value (d k : ℕ) (h : ∀ i, List.Forall₂ (R.Turned σ) (P i) (Q i)) (hr : List.Forall₂ (R.Turned σ) rows rows')
    (I : Index) : Batch.value d k P rows I = Batch.value d k Q rows' I := by
  have hcp : (fun i => (Stat.batch d (P i)).cp) = fun i => (Stat.batch d (Q i)).cp := by funext i; exact (Turns.batch d (h i)).2.2
  have hspr : Batch.spread d P = Batch.spread d Q := by
    funext i; rw [Batch.spread, Batch.spread, (Turns.batch d (h i)).2.2, (h i).length_eq]
  have hsep : Batch.separation d P rows = Batch.separation d Q rows' := by
    funext i
    rw [Batch.separation, Batch.separation, (h i).length_eq, ((Turned.colMeans d (h i)).sub (Turned.colMeans d hr)).sqs]
  have hd : ∀ J, Batch.distances d k P J = Batch.distances d k Q J := fun J => by rw [Batch.distances, Batch.distances, batch_table d h]
  have hq : Batch.quotient d P = Batch.quotient d Q := by
    funext i j; rw [Batch.quotient, Batch.quotient, hspr, batch_table d h]
  have hv : R.Turned σ (Batch.vBar d k P) (Batch.vBar d k Q) := by
    refine Turned.colMeans d ?_
    induction List.range k with
    | nil => exact .nil
    | cons i l ih => exact .cons (Turned.colMeans d (h i)) ih
  have hb : Batch.betaT d k P = Batch.betaT d k Q := by
    rw [Batch.betaT, Batch.betaT]
    congr 2
    apply List.map_congr_left
    intro i _
    exact ((Turned.colMeans d (h i)).sub hv).dot_self
  have hl : (fun i => (P i).length) = fun i => (Q i).length := by funext i; exact (h i).length_eq
  have hp : Batch.psTerm d k P = Batch.psTerm d k Q := by
    funext i
    rw [Batch.psTerm, Batch.psTerm, Batch.largest, Batch.largest, hl, (h i).length_eq, batch_table d h, hb]
  have hs : Batch.silhouette d k P = Batch.silhouette d k Q := by
    funext i; simp only [Batch.silhouette, batch_cell d h]
  cases I <;> simp only [Batch.value, hcp, hspr, hsep, hd, hq, hp, hs, batch_cell d h, hr.length_eq]

end Batch
end Reflect

/-! ## rCIP -/

/-- What is known in addition of the operations of rCIP. -/
structure ReflectCov (F : Type) [Arith F] extends Reflect F where
  same_mul : ∀ {a b c e : F}, Opp a b → Opp c e → Same (a * c) (b * e)
  same_smul : ∀ (k : F) {a b}, Same a b → Same (k * a) (k * b)
  same_plus : ∀ (k : F) {a b}, Same a b → Same (k + a) (k + b)
  same_minus : ∀ {a b c e : F}, Same a b → Same c e → Same (a - c) (b - e)
  same_solid : ∀ {a b c : F}, Same a b → Solid c → a + c = b + c
  same_exp : ∀ {a b : F}, Same a b → Arith.exp a = Arith.exp b
  solid_delta : ∀ d, Solid (Arith.one * Arith.delta d) ∧ Solid (0 * Arith.delta d)
  opp_vm : ∀ {v w : List F} (B : Arr2 F) (j : ℕ), List.Forall₂ Opp v w → Opp (Arith.vm v B j) (Arith.vm w B j)
  same_mm : ∀ {A A' B B' : Arr2 F} (i j : ℕ), (∀ r ∈ B.rows, j < r.length) → List.Forall₂ (List.Forall₂ Opp) A.rows A'.rows →
    List.Forall₂ (List.Forall₂ Opp) B.rows B'.rows → Same (Arith.mm A B i j) (Arith.mm A' B' i j)

namespace ReflectCov

variable {R : ReflectCov F}

/-- All features are reversed. -/
abbrev Back (R : ReflectCov F) : List F → List F → Prop := R.toReflect.Turned fun _ => true

theorem back_iff {u w : List F} : R.Back u w ↔ List.Forall₂ R.Opp u w := by
  rw [List.forall₂_iff_get]
  constructor
  · rintro ⟨h, h'⟩
    refine ⟨h, fun j h1 h2 => ?_⟩
    have := h' j (u.get ⟨j, h1⟩) (w.get ⟨j, h2⟩) (by simp) (by simp)
    simpa [Reflect.Rel] using this
  · rintro ⟨h, h'⟩
    refine ⟨h, fun j a b ha hb => ?_⟩
    obtain ⟨h1, rfl⟩ := List.getElem?_eq_some_iff.mp ha
    obtain ⟨h2, rfl⟩ := List.getElem?_eq_some_iff.mp hb
    simpa [Reflect.Rel] using h' j h1 h2

theorem zip_plus (l : List F) {m m' : List F} (h : List.Forall₂ R.Same m m') :
    List.Forall₂ R.Same (List.zipWith (· + ·) l m) (List.zipWith (· + ·) l m') := by
  induction h generalizing l with
  | nil => cases l <;> exact .nil
  | cons hx _ ih =>
    cases l with
    | nil => exact .nil
    | cons a l => exact .cons (R.same_plus a hx) (ih l)

theorem zip2_plus (A : List (List F)) {B B' : List (List F)} (h : List.Forall₂ (List.Forall₂ R.Same) B B') :
    List.Forall₂ (List.Forall₂ R.Same) (List.zipWith (List.zipWith (· + ·)) A B) (List.zipWith (List.zipWith (· + ·)) A B') := by
  induction h generalizing A with
  | nil => cases A <;> exact .nil
  | cons hx _ ih =>
    cases A with
    | nil => exact .nil
    | cons a l => exact .cons (zip_plus a hx) (ih l)

theorem zip_solid {m m' : List F} (h : List.Forall₂ R.Same m m') {r : List F} (hr : ∀ x ∈ r, R.Solid x) :
    List.zipWith (· + ·) m r = List.zipWith (· + ·) m' r := by
  induction h generalizing r with
  | nil => rfl
  | cons hx _ ih =>
    cases r with
    | nil => rfl
    | cons a r =>
      rw [List.zipWith_cons_cons, List.zipWith_cons_cons, R.same_solid hx (hr a List.mem_cons_self),
        ih fun x hx => hr x (List.mem_cons_of_mem _ hx)]

theorem zip2_solid {A A' : List (List F)} (h : List.Forall₂ (List.Forall₂ R.Same) A A') {B : List (List F)}
    (hB : ∀ r ∈ B, ∀ x ∈ r, R.Solid x) : List.zipWith (List.zipWith (· + ·)) A B = List.zipWith (List.zipWith (· + ·)) A' B := by
  induction h generalizing B with
  | nil => rfl
  | cons hx _ ih =>
    cases B with
    | nil => rfl
    | cons a r =>
      rw [List.zipWith_cons_cons, List.zipWith_cons_cons, zip_solid hx (hB a List.mem_cons_self),
        ih fun x hx => hB x (List.mem_cons_of_mem _ hx)]

theorem ridge_solid (d : ℕ) : ∀ r ∈ (ridge (F := F) d).rows, ∀ x ∈ r, R.Solid x := by
  intro r hr x hx
  obtain ⟨i, _, rfl⟩ := List.mem_map.mp hr
  obtain ⟨j, _, rfl⟩ := List.mem_map.mp hx
  split
  · exact (R.solid_delta d).1
  · exact (R.solid_delta d).2

theorem smul_same (k : F) {l m : List F} (h : List.Forall₂ R.Same l m) : List.Forall₂ R.Same (l.map (k * ·)) (m.map (k * ·)) := by
  induction h with
  | nil => exact .nil
  | cons hx _ ih => exact .cons (R.same_smul k hx) ih

theorem smul2_same (k : F) {A B : List (List F)} (h : List.Forall₂ (List.Forall₂ R.Same) A B) :
    List.Forall₂ (List.Forall₂ R.Same) (A.map (List.map (k * ·))) (B.map (List.map (k * ·))) := by
  induction h with
  | nil => exact .nil
  | cons hx _ ih => exact .cons (smul_same k hx) ih

theorem outer_same {u u' w w' : List F} (h : List.Forall₂ R.Opp u u') (h' : List.Forall₂ R.Opp w w') :
    List.Forall₂ (List.Forall₂ R.Same) (u.map fun p => w.map fun q => p * q) (u'.map fun p => w'.map fun q => p * q) := by
  induction h with
  | nil => exact .nil
  | cons hx _ ih =>
    refine .cons ?_ ih
    clear ih
    induction h' with
    | nil => exact .nil
    | cons hy _ ih => exact .cons (R.same_mul hx hy) ih

/-- rCIP's statistics before and after reversing. -/
structure Turns (R : ReflectCov F) (s t : Gauss F) : Prop where
  n : s.n = t.n
  v : R.Back s.v t.v
  sigma : s.sigma = t.sigma

theorem Turns.more (d : ℕ) {s t : Gauss F} (h : R.Turns s t) {x y : List F} (hx : R.Back x y) :
    R.Turns (Gauss.more d s x) (Gauss.more d t y) := by
  have hdx := back_iff.mp (hx.sub h.v)
  refine ⟨by simp [Gauss.more, h.n], ?_, ?_⟩
  · have := h.v.blend (s.n + 1) hx
    simpa [Gauss.more, h.n] using this
  · simp only [Gauss.more, h.n, h.sigma]
    simp only [zip2]
    rw [zip2_solid (zip2_plus _ (smul2_same _ (outer_same hdx hdx))) (ridge_solid d)]

theorem Turns.of (d : ℕ) {l m : List (List F)} (h : List.Forall₂ R.Back l m) : R.Turns (Gauss.of d l) (Gauss.of d m) := by
  cases h with
  | nil => exact ⟨rfl, .nil, rfl⟩
  | @cons x y l m hx h =>
    have : ∀ {s t : Gauss F}, R.Turns s t → R.Turns (l.foldl (Gauss.more d) s) (m.foldl (Gauss.more d) t) := by
      clear hx
      induction h with
      | nil => exact fun h => h
      | cons hx _ ih => exact fun h => ih (h.more d hx)
    exact this ⟨rfl, hx, rfl⟩

theorem Turns.overlap {d : ℕ} {s t s' t' : Gauss F} (h : R.Turns s s') (h' : R.Turns t t') {r : F} (ho : Overlap d s t r) :
    Overlap d s' t' r := by
  obtain ⟨k, D, B, h1, h2, h3, h4⟩ := ho
  rw [h.sigma, h'.sigma] at h2 h3
  refine ⟨k, D, B, h1, h2, h3, ?_⟩
  rw [h4]
  have hdv := h.v.sub h'.v
  congr 1
  apply R.same_exp
  refine Reflect.Turned.dot (R := R.toReflect) (σ := fun _ => true) ?_ hdv
  refine back_iff.mpr ?_
  induction List.range d with
  | nil => exact .nil
  | cons j l ih => exact .cons (R.opp_vm B j (back_iff.mp (hdv.smul _))) ih

variable {S T : Samples F}

/-- The same labels, and all features reversed. -/
abbrev Reversed (R : ReflectCov F) (S T : Samples F) : Prop := R.toReflect.Mirrored (fun _ => true) S T

theorem gauss_turns (h : R.Reversed S T) (d : ℕ) (c : ℤ) : R.Turns (gauss d S c) (gauss d T c) := Turns.of d (h.own c)

theorem returns (h : R.Reversed S T) {d : ℕ} {r : F} (hr : Returns d .rCIP S r) : Returns d .rCIP T r := by
  obtain ⟨g, hg, hr⟩ := hr
  refine ⟨g, fun a ha => ?_, by rw [← h.order]; exact hr⟩
  rw [← h.order] at ha ⊢
  refine ⟨(hg a ha).1, fun b hb hab => ?_⟩
  have := (hg a ha).2 b hb hab
  rw [← h.newer]
  split at this
  · rw [if_pos ‹_›]; exact (gauss_turns h d a).overlap (gauss_turns h d b) this
  · rw [if_neg ‹_›]; exact (gauss_turns h d b).overlap (gauss_turns h d a) this

theorem minus_same {l m l' m' : List F} (h : List.Forall₂ R.Same l m) (h' : List.Forall₂ R.Same l' m') :
    List.Forall₂ R.Same (List.zipWith (· - ·) l l') (List.zipWith (· - ·) m m') := by
  induction h generalizing l' m' with
  | nil => cases h' <;> exact .nil
  | cons hx _ ih =>
    cases h' with
    | nil => exact .nil
    | cons hy h' => exact .cons (R.same_minus hx hy) (ih h')

theorem minus2_same {A B A' B' : List (List F)} (h : List.Forall₂ (List.Forall₂ R.Same) A B) (h' : List.Forall₂ (List.Forall₂ R.Same) A' B') :
    List.Forall₂ (List.Forall₂ R.Same) (List.zipWith (List.zipWith (· - ·)) A A') (List.zipWith (List.zipWith (· - ·)) B B') := by
  induction h generalizing A' B' with
  | nil => cases h' <;> exact .nil
  | cons hx _ ih =>
    cases h' with
    | nil => exact .nil
    | cons hy h' => exact .cons (minus_same hx hy) (ih h')

omit [Arith F] in
theorem map_rel {α β : Type} {Q : β → β → Prop} {f g : α → β} (l : List α) (h : ∀ a ∈ l, Q (f a) (g a)) :
    List.Forall₂ Q (l.map f) (l.map g) := by
  induction l with
  | nil => exact .nil
  | cons a l ih => exact .cons (h a List.mem_cons_self) (ih fun b hb => h b (List.mem_cons_of_mem _ hb))

theorem Turns.batch (d : ℕ) {l m : List (List F)} (h : List.Forall₂ R.Back l m) (hl : ∀ x ∈ l, x.length = d) :
    R.Turns (Batch.gauss d l) (Batch.gauss d m) := by
  have hv : R.Back (colMeans d l) (colMeans d m) := Reflect.Turned.colMeans d h
  refine ⟨h.length_eq, hv, ?_⟩
  have hrows : List.Forall₂ (List.Forall₂ R.Opp) l m := h.imp fun _ _ => back_iff.mp
  have hcols : List.Forall₂ (List.Forall₂ R.Opp) ((List.range d).map fun j => l.map fun x => x.getD j 0)
      ((List.range d).map fun j => m.map fun x => x.getD j 0) := by
    induction List.range d with
    | nil => exact .nil
    | cons j js ih =>
      refine .cons ?_ ih
      clear ih hrows hv hl
      induction h with
      | nil => exact .nil
      | cons hx _ ih =>
        refine .cons ?_ ih
        have := hx.getD j
        simpa [Reflect.Rel] using this
  simp only [Batch.gauss, zip2]
  rw [h.length_eq]
  split
  · congr 1
    rw [zip2_solid (smul2_same _ (minus2_same ?_ (smul2_same _ (outer_same (back_iff.mp hv) (back_iff.mp hv))))) (ridge_solid d)]
    exact map_rel _ fun i _ => map_rel _ fun j hj => R.same_mm
      (A := ⟨m.length, (List.range d).map fun j => l.map fun x => x.getD j 0⟩)
      (A' := ⟨m.length, (List.range d).map fun j => m.map fun x => x.getD j 0⟩) (B := ⟨d, l⟩) (B' := ⟨d, m⟩) i j
      (fun r hr => (List.mem_range.mp hj).trans_eq (hl r hr).symm) hcols hrows
  · rfl

theorem batch_returns {d k : ℕ} {P Q : ℕ → List (List F)} {rows rows' : List (List F)} (h : ∀ i, List.Forall₂ R.Back (P i) (Q i))
    (hP : ∀ i, ∀ x ∈ P i, x.length = d) {r : F} (hr : Batch.Returns d k P rows .rCIP r) : Batch.Returns d k Q rows' .rCIP r := by
  obtain ⟨g, hg, hr⟩ := hr
  exact ⟨g, fun i j hij hj => (Turns.batch d (h i) (hP i)).overlap (Turns.batch d (h j) (hP j)) (hg i j hij hj), hr⟩

end ReflectCov
end Verif.Gen
