import Verif.Gen.Uniform
import Verif.Gen.SpecBatch

/-!
# Units of measurement

Two arithmetics `F` and `G` and for every `w` a relation between their numbers: `Rel w a b` is to mean that `b` is `a` after a change of
the unit of length, for a quantity of dimension length `^ w`.  The operations are assumed to respect these relations.  Then so do the
specifications of `Verif/Gen/Spec.lean` and `Verif/Gen/SpecBatch.lean`: the samples have dimension 1, compactness and squared distances
have dimension 2, the values have dimension 0 (GD43: -1, because it divides a distance by mean squares).

With relations that do not depend on `w` it is a statement about homomorphisms of arithmetics.
-/

namespace Verif.Gen

variable {F G : Type} [Arith F] [Arith G]

/-- Relations between the numbers of two arithmetics that the operations respect. -/
structure Units (F G : Type) [Arith F] [Arith G] where
  Rel : ℤ → F → G → Prop
  zero : ∀ w, Rel w 0 0
  add : ∀ {w a b c e}, Rel w a b → Rel w c e → Rel w (a + c) (b + e)
  sub : ∀ {w a b c e}, Rel w a b → Rel w c e → Rel w (a - c) (b - e)
  mul : ∀ {v w a b c e}, Rel v a b → Rel w c e → Rel (v + w) (a * c) (b * e)
  div : ∀ {v w a b c e}, Rel v a b → Rel w c e → Rel (v - w) (a / c) (b / e)
  neg : ∀ {w a b}, Rel w a b → Rel w (-a) (-b)
  sq : ∀ {w a b}, Rel w a b → Rel (w + w) (Arith.sq a) (Arith.sq b)
  sqrt : ∀ {w a b}, Rel (w + w) a b → Rel w (Arith.sqrt a) (Arith.sqrt b)
  exp : ∀ {a b}, Rel 0 a b → Rel 0 (Arith.exp a) (Arith.exp b)
  max2 : ∀ {w a b c e}, Rel w a b → Rel w c e → Rel w (Arith.max2 a c) (Arith.max2 b e)
  one : Rel 0 Arith.one Arith.one
  two : Rel 0 Arith.two Arith.two
  ofNat : ∀ n, Rel 0 (Arith.ofNat n) (Arith.ofNat n)
  oneMinusInv : ∀ n, Rel 0 (Arith.oneMinusInv n) (Arith.oneMinusInv n)
  invNat : ∀ n, Rel 0 (Arith.invNat n) (Arith.invNat n)
  intDiv : ∀ m n, Rel 0 (Arith.intDiv m n) (Arith.intDiv m n)
  chFactor : ∀ m n, Rel 0 (Arith.chFactor m n) (Arith.chFactor m n)
  npSum : ∀ {w l m}, List.Forall₂ (Rel w) l m → Rel w (Arith.npSum l) (Arith.npSum m)
  pySum : ∀ {w l m}, List.Forall₂ (Rel w) l m → Rel w (Arith.pySum l) (Arith.pySum m)
  rowSum : ∀ {w l m}, List.Forall₂ (Rel w) l m → Rel w (Arith.rowSum l) (Arith.rowSum m)
  sum2 : ∀ {w l m}, List.Forall₂ (List.Forall₂ (Rel w)) l m → Rel w (Arith.sum2 l) (Arith.sum2 m)
  colMean : ∀ {w l m}, List.Forall₂ (Rel w) l m → Rel w (Arith.colMean l) (Arith.colMean m)
  dot : ∀ {v w l m l' m'}, List.Forall₂ (Rel v) l m → List.Forall₂ (Rel w) l' m' → Rel (v + w) (Arith.dot l l') (Arith.dot m m')
  minOf : ∀ {w a b l m}, Rel w a b → List.Forall₂ (Rel w) l m → Rel w (Arith.minOf a l) (Arith.minOf b m)
  maxOf : ∀ {w a b l m}, Rel w a b → List.Forall₂ (Rel w) l m → Rel w (Arith.maxOf a l) (Arith.maxOf b m)

namespace Units

variable {U : Units F G}

omit [Arith F] [Arith G] in
theorem map_rel {α : Type} {A B : Type} {Q : A → B → Prop} {f : α → A} {g : α → B} (l : List α) (h : ∀ a, Q (f a) (g a)) :
    List.Forall₂ Q (l.map f) (l.map g) := by
  induction l with
  | nil => exact .nil
  | cons a l ih => exact .cons (h a) ih

omit [Arith F] [Arith G] in
theorem zip_rel {A B C D X Y : Type} {P : A → B → Prop} {Q : C → D → Prop} {R : X → Y → Prop} {f : A → C → X} {g : B → D → Y}
    (h : ∀ {a b c e}, P a b → Q c e → R (f a c) (g b e)) {l : List A} {m : List B} {l' : List C} {m' : List D}
    (h1 : List.Forall₂ P l m) (h2 : List.Forall₂ Q l' m') : List.Forall₂ R (List.zipWith f l l') (List.zipWith g m m') := by
  induction h1 generalizing l' m' with
  | nil => cases h2 <;> exact .nil
  | cons a _ ih =>
    cases h2 with
    | nil => exact .nil
    | cons b h2 => exact .cons (h a b) (ih h2)

omit [Arith F] [Arith G] in
theorem each_rel {A B X Y : Type} {P : A → B → Prop} {R : X → Y → Prop} {f : A → X} {g : B → Y} (h : ∀ {a b}, P a b → R (f a) (g b))
    {l : List A} {m : List B} (h1 : List.Forall₂ P l m) : List.Forall₂ R (l.map f) (m.map g) := by
  induction h1 with
  | nil => exact .nil
  | cons a _ ih => exact .cons (h a) ih

/-- Vectors of dimension length `^ w`. -/
abbrev Vec (U : Units F G) (w : ℤ) : List F → List G → Prop := List.Forall₂ (U.Rel w)

theorem cast {v w : ℤ} {a : F} {b : G} (h : U.Rel v a b) (e : v = w) : U.Rel w a b := e ▸ h

theorem scal {w : ℤ} {a : F} {b : G} {k : F} {l : G} (hk : U.Rel 0 k l) (h : U.Rel w a b) : U.Rel w (k * a) (l * b) :=
  cast (U.mul hk h) (by ring)

theorem over {w : ℤ} {a : F} {b : G} {k : F} {l : G} (h : U.Rel w a b) (hk : U.Rel 0 k l) : U.Rel w (a / k) (b / l) :=
  cast (U.div h hk) (by ring)

theorem ratio {w : ℤ} {a c : F} {b e : G} (h : U.Rel w a b) (h' : U.Rel w c e) : U.Rel 0 (a / c) (b / e) :=
  cast (U.div h h') (by ring)

theorem inner {u w : List F} {u' w' : List G} (h : U.Vec 1 u u') (h' : U.Vec 1 w w') : U.Rel 2 (Arith.dot u w) (Arith.dot u' w') :=
  U.dot h h'

theorem vAdd {w : ℤ} {u x : List F} {u' x' : List G} (h : U.Vec w u u') (h' : U.Vec w x x') :
    U.Vec w (List.zipWith (· + ·) u x) (List.zipWith (· + ·) u' x') := zip_rel (f := (· + ·)) (g := (· + ·)) U.add h h'

theorem vSub {w : ℤ} {u x : List F} {u' x' : List G} (h : U.Vec w u u') (h' : U.Vec w x x') :
    U.Vec w (List.zipWith (· - ·) u x) (List.zipWith (· - ·) u' x') := zip_rel (f := (· - ·)) (g := (· - ·)) U.sub h h'

theorem vScal {w : ℤ} {u : List F} {u' : List G} {k : F} {l : G} (hk : U.Rel 0 k l) (h : U.Vec w u u') :
    U.Vec w (u.map (k * ·)) (u'.map (l * ·)) := each_rel (f := (k * ·)) (g := (l * ·)) (scal hk) h

theorem vSq {u : List F} {u' : List G} (h : U.Vec 1 u u') : U.Vec 2 (u.map Arith.sq) (u'.map Arith.sq) := each_rel (fun h => U.sq h) h

theorem vGet {w : ℤ} {u : List F} {u' : List G} (h : U.Vec w u u') (j : ℕ) : U.Rel w (u.getD j 0) (u'.getD j 0) := by
  induction h generalizing j with
  | nil => exact U.zero w
  | cons a _ ih =>
    cases j with
    | zero => exact a
    | succ j => exact ih j

theorem vBlend (n : ℕ) {v x : List F} {v' x' : List G} (h : U.Vec 1 v v') (h' : U.Vec 1 x x') : U.Vec 1 (blend n v x) (blend n v' x') :=
  vAdd (vScal (U.oneMinusInv n) h) (vScal (U.invNat n) h')

theorem low_rel {w : ℤ} {l : List F} {m : List G} (h : U.Vec w l m) : U.Rel w (low l) (low m) := by
  cases h with
  | nil => exact U.zero w
  | cons a h => exact U.minOf a h

theorem high_rel {w : ℤ} {l : List F} {m : List G} (h : U.Vec w l m) : U.Rel w (high l) (high m) := by
  cases h with
  | nil => exact U.zero w
  | cons a h => exact U.maxOf a h

/-! ## Streams -/

/-- The same stream in other units. -/
def Same (U : Units F G) (S : Samples F) (T : Samples G) : Prop := List.Forall₂ (fun p q => U.Vec 1 p.1 q.1 ∧ p.2 = q.2) S T

variable {S : Samples F} {T : Samples G}

theorem Same.labels (h : U.Same S T) : S.map Prod.snd = T.map Prod.snd := by
  unfold Same at h
  induction h with
  | nil => rfl
  | cons h _ ih => simp [h.2, ih]

theorem Same.rows (h : U.Same S T) : List.Forall₂ (U.Vec 1) (S.map Prod.fst) (T.map Prod.fst) := each_rel (fun h => h.1) h

theorem Same.length (h : U.Same S T) : S.length = T.length := List.Forall₂.length_eq h

theorem Same.order (h : U.Same S T) : order S = order T := by rw [Gen.order, Gen.order, h.labels]

theorem Same.own (h : U.Same S T) (c : ℤ) : List.Forall₂ (U.Vec 1) (own S c) (own T c) := by
  unfold Same at h
  unfold Gen.own
  induction h with
  | nil => exact .nil
  | @cons p q S T h _ ih =>
    rw [List.filter_cons, List.filter_cons, ← h.2]
    split
    · exact .cons h.1 ih
    · exact ih

omit [Arith F] in
theorem newer_labels (S : Samples F) (a b : ℤ) :
    newer S a b = decide (((S.map Prod.snd).reverse.find? fun c => decide (c = a ∨ c = b)) = some a) := by
  rw [newer, ← List.map_reverse, List.find?_map]
  rfl

theorem Same.newer (h : U.Same S T) (a b : ℤ) : newer S a b = newer T a b := by rw [newer_labels, newer_labels, h.labels]

theorem Same.dim {d : ℕ} (h : U.Same S T) (hS : S.Dim d) : T.Dim d := by
  unfold Same at h
  induction h with
  | nil => simp [Samples.Dim]
  | cons h _ ih =>
    intro p hp
    rcases List.mem_cons.mp hp with rfl | hp
    · rw [← h.1.length_eq]; exact hS _ List.mem_cons_self
    · exact ih (fun p hp => hS p (List.mem_cons_of_mem _ hp)) p hp

theorem Same.append {S' : Samples F} {T' : Samples G} (h : U.Same S T) (h' : U.Same S' T') : U.Same (S ++ S') (T ++ T') :=
  List.rel_append h h'

theorem Same.prefixes (h : U.Same S T) : List.Forall₂ U.Same S.inits T.inits := by
  have key : ∀ {S : Samples F} {T : Samples G}, U.Same S T → ∀ {f : Samples F → Samples F} {g : Samples G → Samples G},
      (∀ {S T}, U.Same S T → U.Same (f S) (g T)) → List.Forall₂ U.Same (S.inits.map f) (T.inits.map g) := by
    intro S T h
    unfold Same at h
    induction h with
    | nil => exact fun hf => .cons (hf .nil) .nil
    | @cons p q S T hp h ih =>
      intro f g hf
      rw [List.inits_cons, List.inits_cons, List.map_cons, List.map_cons, List.map_map, List.map_map]
      exact .cons (hf .nil) (ih (f := f ∘ _) (g := g ∘ _) fun h' => hf (.cons hp h'))
  simpa using key h (f := id) (g := id) fun h => h

/-! ## Statistics -/

/-- The statistics of a cluster in two units. -/
structure Stats (U : Units F G) (s : Stat F) (t : Stat G) : Prop where
  n : s.n = t.n
  v : U.Vec 1 s.v t.v
  cp : U.Rel 2 s.cp t.cp
  g : U.Vec 1 s.g t.g

theorem Stats.more {s : Stat F} {t : Stat G} (h : U.Stats s t) {x : List F} {y : List G} (hx : U.Vec 1 x y) : U.Stats (s.more x) (t.more y) := by
  have hv := vBlend (s.n + 1) h.v hx
  have hdv := vSub h.v hv
  have hdx := vSub hx hv
  rw [h.n] at hv hdv hdx
  refine ⟨by simp [Stat.more, h.n], by simpa [Stat.more, h.n] using hv, ?_, ?_⟩
  · simp only [Stat.more, h.n]
    exact U.add (U.add (U.add h.cp (inner hdx hdx)) (scal (U.ofNat _) (inner hdv hdv))) (scal U.two (inner hdv h.g))
  · simp only [Stat.more, h.n]
    exact vAdd (vAdd h.g hdx) (vScal (U.ofNat _) hdv)

theorem Stats.of {l : List (List F)} {m : List (List G)} (h : List.Forall₂ (U.Vec 1) l m) : U.Stats (Stat.of l) (Stat.of m) := by
  cases h with
  | nil => exact ⟨rfl, .nil, U.zero 2, .nil⟩
  | @cons x y l m hx h =>
    have : ∀ {s : Stat F} {t : Stat G}, U.Stats s t → U.Stats (l.foldl Stat.more s) (m.foldl Stat.more t) := by
      clear hx
      induction h with
      | nil => exact fun h => h
      | cons hx _ ih => exact fun h => ih (h.more hx)
    exact this ⟨rfl, hx, U.zero 2, each_rel (fun _ => U.zero 1) hx⟩

theorem Same.stat (h : U.Same S T) (c : ℤ) : U.Stats (stat S c) (stat T c) := Stats.of (h.own c)

theorem vCentre {l : List (List F)} {m : List (List G)} (h : List.Forall₂ (U.Vec 1) l m) (n : ℕ) {v : List F} {w : List G}
    (h' : U.Vec 1 v w) : U.Vec 1 (centre n v l) (centre n w m) := by
  induction h generalizing n v w with
  | nil => exact h'
  | cons hx _ ih => exact ih (n + 1) (vBlend (n + 1) h' hx)

theorem Same.mu (h : U.Same S T) : U.Vec 1 (mu S) (mu T) := by
  cases h with
  | nil => exact .nil
  | cons hp h => exact vCentre (Same.rows h) 1 hp.1

/-! ## Distances -/

/-- The dimension of the distances in the table. -/
def distDim : Index → ℤ
  | .GD43 => 1
  | _ => 2

/-- The dimension of the value. -/
def valueDim : Index → ℤ
  | .GD43 => -1
  | _ => 0

theorem between_rel {I : Index} {s t : Stat F} {s' t' : Stat G} (hn : s.n = s'.n) (hn' : t.n = t'.n) (hv : U.Vec 1 s.v s'.v)
    (hv' : U.Vec 1 t.v t'.v) (hc : U.Rel 2 s.cp s'.cp) (hc' : U.Rel 2 t.cp t'.cp) :
    U.Rel (distDim I) (between I s t) (between I s' t') := by
  have e := U.npSum (vSq (vSub hv hv'))
  cases I <;> simp only [between, distDim] <;> first | exact e | skip
  · exact U.sqrt e
  · rw [hn, hn']; exact over (U.add hc hc') (U.ofNat _)

theorem Same.table (h : U.Same S T) (I : Index) (a b : ℤ) : U.Rel (distDim I) (table I S a b) (table I T a b) := by
  rw [Gen.table, Gen.table, h.newer]
  have ha := h.stat a
  have hb := h.stat b
  split
  · exact U.zero _
  · split
    · exact between_rel ha.n hb.n ha.v hb.v ha.cp hb.cp
    · exact between_rel hb.n ha.n hb.v ha.v hb.cp ha.cp

theorem Same.distances (h : U.Same S T) (I : Index) : U.Vec (distDim I) (distances I S) (distances I T) := by
  rw [Gen.distances, Gen.distances, ← h.order]
  exact map_rel _ fun p => h.table I p.1 p.2

theorem Same.separation (h : U.Same S T) (c : ℤ) : U.Rel 2 (separation S c) (separation T c) := by
  rw [Gen.separation, Gen.separation, (h.stat c).n]
  exact scal (U.ofNat _) (U.pySum (vSq (vSub (h.stat c).v h.mu)))

theorem Stats.spread {s : Stat F} {t : Stat G} (h : U.Stats s t) : U.Rel 2 (spread s) (spread t) := by
  rw [Gen.spread, Gen.spread, h.n]
  split
  · exact U.zero 2
  · exact over h.cp (U.ofNat _)

theorem Same.quotient (h : U.Same S T) (a b : ℤ) : U.Rel 0 (quotient S a b) (quotient T a b) :=
  ratio (U.add (h.stat a).spread (h.stat b).spread) (h.table .DB b a)

theorem Same.quotients (h : U.Same S T) (a b : ℤ) : U.Rel 0 (quotients S a b) (quotients T a b) := by
  rw [Gen.quotients, Gen.quotients, ← h.order]
  refine U.add ?_ ?_
  · split
    · exact h.quotient b a
    · exact U.zero 0
  · split
    · exact h.quotient a b
    · exact U.zero 0

theorem Same.vBar (h : U.Same S T) (d : ℕ) : U.Vec 1 (vBar S d) (vBar T d) := by
  rw [Gen.vBar, Gen.vBar, ← h.order]
  exact map_rel _ fun j => U.colMean (map_rel _ fun c => vGet (h.stat c).v j)

theorem Same.betaT (h : U.Same S T) (d : ℕ) : U.Rel 2 (betaT S d) (betaT T d) := by
  rw [Gen.betaT, Gen.betaT, ← h.order]
  exact over (U.pySum (map_rel _ fun c => inner (vSub (h.stat c).v (h.vBar d)) (vSub (h.stat c).v (h.vBar d)))) (U.ofNat _)

theorem Same.psTerm (h : U.Same S T) (d : ℕ) (c : ℤ) : U.Rel 0 (psTerm S d c) (psTerm T d c) := by
  have e : (fun c => (Gen.stat S c).n) = fun c => (Gen.stat T c).n := by funext c; exact (h.stat c).n
  rw [Gen.psTerm, Gen.psTerm, ← h.order, (h.stat c).n, e]
  exact U.sub (U.intDiv _ _) (U.exp (ratio (U.neg (low_rel (map_rel _ fun b => h.table .PS c b))) (h.betaT d)))

/-! ## cSIL -/

theorem Stats.silMore {s : Stat F} {t : Stat G} (h : U.Stats s t) {x : List F} {y : List G} (hx : U.Vec 1 x y) :
    U.Stats (Sil.more s x) (Sil.more t y) := by
  refine ⟨by simp [Sil.more, h.n], ?_, U.add h.cp (inner hx hx), vAdd h.g hx⟩
  have hv := vBlend (s.n + 1) h.v hx
  simpa [Sil.more, h.n] using hv

theorem Stats.silOf {l : List (List F)} {m : List (List G)} (h : List.Forall₂ (U.Vec 1) l m) : U.Stats (Sil.of l) (Sil.of m) := by
  cases h with
  | nil => exact ⟨rfl, .nil, U.zero 2, .nil⟩
  | @cons x y l m hx h =>
    have : ∀ {s : Stat F} {t : Stat G}, U.Stats s t → U.Stats (l.foldl Sil.more s) (m.foldl Sil.more t) := by
      clear hx
      induction h with
      | nil => exact fun h => h
      | cons hx _ ih => exact fun h => ih (h.silMore hx)
    exact this ⟨rfl, hx, inner hx hx, hx⟩

theorem Same.sil (h : U.Same S T) (c : ℤ) : U.Stats (sil S c) (sil T c) := Stats.silOf (h.own c)

theorem Stats.near {s : Stat F} {t : Stat G} (h : U.Stats s t) {w : List F} {w' : List G} (hw : U.Vec 1 w w') :
    U.Rel 2 (near s w) (near t w') := by
  rw [Gen.near, Gen.near, ← h.n]
  exact over (U.sub (U.add h.cp (scal (U.ofNat _) (inner hw hw))) (scal U.two (inner h.g hw))) (U.ofNat _)

theorem Stats.far {s : Stat F} {t : Stat G} (h : U.Stats s t) {x g w : List F} {x' g' w' : List G} (hx : U.Vec 1 x x') (hg : U.Vec 1 g g')
    (hw : U.Vec 1 w w') : U.Rel 2 (far s x g w) (far t x' g' w') := by
  simp only [Gen.far]
  rw [← h.n]
  exact over (U.sub (U.add (U.add h.cp (inner (vSub hx hw) (vSub hx hw))) (scal (U.ofNat _) (inner hw hw))) (scal U.two (inner hg hw)))
    (U.ofNat _)

theorem Same.cellRev (h : U.Same S T) (a b : ℤ) : U.Rel 2 (cellRev S a b) (cellRev T a b) := by
  unfold Same at h
  induction h with
  | nil => exact U.zero 2
  | @cons p q S T hp h ih =>
    obtain ⟨x, c⟩ := p
    obtain ⟨y, c'⟩ := q
    obtain ⟨hx, hc⟩ := hp
    dsimp only at hx hc
    subst hc
    have hr : U.Same S.reverse T.reverse := List.forall₂_reverse_iff.mpr h
    have hr' : U.Same (S.reverse ++ [(x, c)]) (T.reverse ++ [(y, c)]) := hr.append (.cons ⟨hx, rfl⟩ .nil)
    simp only [Gen.cellRev]
    rw [← hr.order]
    split
    · exact ih
    split
    · split
      · exact (hr.sil c).far hx (vAdd (hr.sil c).g hx) (hr.sil b).v
      · exact U.sub (U.add (inner hx hx) (inner (hr.sil b).v (hr.sil b).v)) (inner hx (hr.sil b).v)
    split
    · exact (hr.sil a).near (hr'.sil c).v
    split
    · exact (hr.sil c).far hx (hr.sil c).g (hr'.sil c).v
    · exact U.zero 2

theorem Same.cell (h : U.Same S T) (a b : ℤ) : U.Rel 2 (cell S a b) (cell T a b) :=
  Same.cellRev (List.forall₂_reverse_iff.mpr h) a b

theorem Same.silhouette (h : U.Same S T) (c : ℤ) : U.Rel 0 (silhouette S c) (silhouette T c) := by
  simp only [Gen.silhouette]
  rw [← h.order]
  have hb := low_rel (map_rel ((Gen.order S).filter (· ≠ c)) fun b => h.cell b c)
  exact ratio (U.sub hb (h.cell c c)) (U.max2 (h.cell c c) hb)

/-! ## Values -/

/-- cSIL tests whether its matrix has an entry other than zero. -/
def live (S : Samples F) : Bool := (order S).any fun a => (order S).any fun b => Arith.truthy (cell S a b)

theorem Same.value (h : U.Same S T) (d : ℕ) (I : Index) (hl : I = .cSIL → live S = live T) :
    U.Rel (valueDim I) (value d I S) (value d I T) := by
  have hcp : U.Vec 2 ((Gen.order S).map fun c => (Gen.stat S c).cp) ((Gen.order S).map fun c => (Gen.stat T c).cp) :=
    map_rel _ fun c => (h.stat c).cp
  have hsep : U.Vec 2 ((Gen.order S).map (Gen.separation S)) ((Gen.order S).map (Gen.separation T)) := map_rel _ fun c => h.separation c
  have hq : U.Vec 2 ((Gen.order S).map fun c => (Gen.stat S c).cp / Arith.ofNat (Gen.stat S c).n)
      ((Gen.order S).map fun c => (Gen.stat T c).cp / Arith.ofNat (Gen.stat T c).n) := map_rel _ fun c => by
    rw [(h.stat c).n]; exact over (h.stat c).cp (U.ofNat _)
  have hmean : U.Rel 2 (Arith.two * high ((Gen.order S).map fun c => (Gen.stat S c).cp / Arith.ofNat (Gen.stat S c).n))
      (Arith.two * high ((Gen.order S).map fun c => (Gen.stat T c).cp / Arith.ofNat (Gen.stat T c).n)) := scal U.two (high_rel hq)
  unfold Gen.value
  rw [← h.order]
  dsimp only
  split
  · exact U.zero _
  cases I <;> dsimp only
  case CH => rw [← h.length]; exact cast (U.mul (ratio (U.pySum hsep) (U.pySum hcp)) (U.chFactor _ _)) rfl
  case WB => exact cast (U.mul (ratio (U.pySum hcp) (U.pySum hsep)) (U.ofNat _)) rfl
  case XB => rw [← h.length]; exact ratio (U.pySum hcp) (scal (U.ofNat _) (low_rel (h.distances .XB)))
  case DB => exact over (U.npSum (map_rel _ fun b => high_rel (map_rel _ fun a => h.quotients a b))) (U.ofNat _)
  case GD43 => exact cast (U.div (low_rel (h.distances .GD43)) hmean) rfl
  case GD53 => exact ratio (low_rel (h.distances .GD53)) hmean
  case PS => exact U.npSum (map_rel _ fun c => h.psTerm d c)
  case cSIL =>
    have e := hl rfl
    rw [live, live, ← h.order] at e
    rw [e]
    split
    · exact over (U.npSum (map_rel _ fun c => h.silhouette c)) (U.ofNat _)
    · exact U.zero 0
  case rCIP => exact U.zero 0

/-! ## Batches -/

section Batch
variable {P : ℕ → List (List F)} {Q : ℕ → List (List G)} {rows : List (List F)} {rows' : List (List G)}

theorem vMeans (d : ℕ) {l : List (List F)} {m : List (List G)} (h : List.Forall₂ (U.Vec 1) l m) : U.Vec 1 (colMeans d l) (colMeans d m) :=
  map_rel _ fun j => U.colMean (each_rel (fun h => vGet h j) h)

theorem vSqDiff {x v : List F} {y w : List G} (h : U.Vec 1 x y) (h' : U.Vec 1 v w) : U.Vec 2 (sqDiff x v) (sqDiff y w) :=
  vSq (vSub h (each_rel (fun h => cast (U.mul h U.one) (by ring)) h'))

theorem batch_cp (d : ℕ) {l : List (List F)} {m : List (List G)} (h : List.Forall₂ (U.Vec 1) l m) :
    U.Rel 2 (Stat.batch d l).cp (Stat.batch d m).cp :=
  U.sum2 (each_rel (fun hx => vSqDiff hx (vMeans d h)) h)

theorem both_rel {w : ℤ} {f : ℕ → ℕ → F} {g : ℕ → ℕ → G} (h : ∀ i j, U.Rel w (f i j) (g i j)) (i j : ℕ) :
    U.Rel w (Batch.both f i j) (Batch.both g i j) := by
  unfold Batch.both
  refine U.add ?_ ?_
  · split
    · exact h i j
    · exact U.zero w
  · split
    · exact h j i
    · exact U.zero w

theorem batch_table (d : ℕ) (h : ∀ i, List.Forall₂ (U.Vec 1) (P i) (Q i)) (I : Index) (i j : ℕ) :
    U.Rel (distDim I) (Batch.table d P I i j) (Batch.table d Q I i j) := by
  have e : ∀ i j, U.Rel (distDim I) (between I (Stat.batch d (P i)) (Stat.batch d (P j))) (between I (Stat.batch d (Q i)) (Stat.batch d (Q j))) :=
    fun i j => between_rel (h i).length_eq (h j).length_eq (vMeans d (h i)) (vMeans d (h j)) (batch_cp d (h i)) (batch_cp d (h j))
  simp only [Batch.table]
  split
  · split
    · exact e i j
    · exact U.zero _
  · exact both_rel e i j

theorem batch_distances (d k : ℕ) (h : ∀ i, List.Forall₂ (U.Vec 1) (P i) (Q i)) (I : Index) :
    U.Vec (distDim I) (Batch.distances d k P I) (Batch.distances d k Q I) := map_rel _ fun p => batch_table d h I p.1 p.2

theorem batch_spread (d : ℕ) (h : ∀ i, List.Forall₂ (U.Vec 1) (P i) (Q i)) (i : ℕ) : U.Rel 2 (Batch.spread d P i) (Batch.spread d Q i) := by
  rw [Batch.spread, Batch.spread, (h i).length_eq]
  exact over (batch_cp d (h i)) (U.ofNat _)

theorem batch_quotient (d : ℕ) (h : ∀ i, List.Forall₂ (U.Vec 1) (P i) (Q i)) (i j : ℕ) :
    U.Rel 0 (Batch.quotient d P i j) (Batch.quotient d Q i j) :=
  ratio (U.add (batch_spread d h i) (batch_spread d h j)) (batch_table d h .DB j i)

theorem batch_separation (d : ℕ) (h : ∀ i, List.Forall₂ (U.Vec 1) (P i) (Q i)) (hr : List.Forall₂ (U.Vec 1) rows rows') (i : ℕ) :
    U.Rel 2 (Batch.separation d P rows i) (Batch.separation d Q rows' i) := by
  rw [Batch.separation, Batch.separation, (h i).length_eq]
  exact scal (U.ofNat _) (U.npSum (vSq (vSub (vMeans d (h i)) (vMeans d hr))))

theorem batch_betaT (d k : ℕ) (h : ∀ i, List.Forall₂ (U.Vec 1) (P i) (Q i)) : U.Rel 2 (Batch.betaT d k P) (Batch.betaT d k Q) := by
  have hv : U.Vec 1 (Batch.vBar d k P) (Batch.vBar d k Q) := vMeans d (map_rel _ fun i => vMeans d (h i))
  exact over (U.pySum (map_rel _ fun i => inner (vSub (vMeans d (h i)) hv) (vSub (vMeans d (h i)) hv))) (U.ofNat _)

theorem batch_psTerm (d k : ℕ) (h : ∀ i, List.Forall₂ (U.Vec 1) (P i) (Q i)) (i : ℕ) :
    U.Rel 0 (Batch.psTerm d k P i) (Batch.psTerm d k Q i) := by
  have hl : (fun i => (P i).length) = fun i => (Q i).length := by funext i; exact (h i).length_eq
  rw [Batch.psTerm, Batch.psTerm, Batch.largest, Batch.largest, hl, (h i).length_eq]
  exact U.sub (U.intDiv _ _) (U.exp (ratio (U.neg (low_rel (map_rel _ fun j => batch_table d h .PS i j))) (batch_betaT d k h)))

theorem batch_cell (d : ℕ) (h : ∀ i, List.Forall₂ (U.Vec 1) (P i) (Q i)) (j i : ℕ) : U.Rel 2 (Batch.cell d P j i) (Batch.cell d Q j i) := by
  rw [Batch.cell, Batch.cell, (h j).length_eq]
  exact over (U.pySum (each_rel (fun hx => U.rowSum (vSqDiff hx (vMeans d (h i)))) (h j))) (U.ofNat _)

theorem batch_silhouette (d k : ℕ) (h : ∀ i, List.Forall₂ (U.Vec 1) (P i) (Q i)) (i : ℕ) :
    U.Rel 0 (Batch.silhouette d k P i) (Batch.silhouette d k Q i) := by
  have hb := low_rel (map_rel ((List.range k).filter (· ≠ i)) fun j => batch_cell d h j i)
  exact ratio (U.sub hb (batch_cell d h i i)) (U.max2 (batch_cell d h i i) hb)

/-- The same test in a batch. -/
def batchLive (d k : ℕ) (P : ℕ → List (List F)) : Bool :=
  (List.range k).any fun j => (List.range k).any fun i => Arith.truthy (Batch.cell d P j i)

theorem batch_value (d k : ℕ) (h : ∀ i, List.Forall₂ (U.Vec 1) (P i) (Q i)) (hr : List.Forall₂ (U.Vec 1) rows rows') (I : Index)
    (hl : I = .cSIL → batchLive d k P = batchLive d k Q) : U.Rel (valueDim I) (Batch.value d k P rows I) (Batch.value d k Q rows' I) := by
  have hcp : U.Vec 2 ((List.range k).map fun i => (Stat.batch d (P i)).cp) ((List.range k).map fun i => (Stat.batch d (Q i)).cp) :=
    map_rel _ fun i => batch_cp d (h i)
  have hsep : U.Vec 2 ((List.range k).map (Batch.separation d P rows)) ((List.range k).map (Batch.separation d Q rows')) :=
    map_rel _ fun i => batch_separation d h hr i
  have hmean : U.Rel 2 (Arith.two * high ((List.range k).map (Batch.spread d P))) (Arith.two * high ((List.range k).map (Batch.spread d Q))) :=
    scal U.two (high_rel (map_rel _ fun i => batch_spread d h i))
  unfold Batch.value
  cases I <;> dsimp only
  case CH => rw [← hr.length_eq]; exact cast (U.mul (ratio (U.pySum hsep) (U.pySum hcp)) (U.chFactor _ _)) rfl
  case WB => exact cast (U.mul (ratio (U.pySum hcp) (U.pySum hsep)) (U.ofNat _)) rfl
  case XB => rw [← hr.length_eq]; exact ratio (U.pySum hcp) (scal (U.ofNat _) (low_rel (batch_distances d k h .XB)))
  case DB => exact over (U.npSum (map_rel _ fun j => high_rel (map_rel _ fun i => both_rel (batch_quotient d h) j i))) (U.ofNat _)
  case GD43 => exact cast (U.div (low_rel (batch_distances d k h .GD43)) hmean) rfl
  case GD53 => exact ratio (low_rel (batch_distances d k h .GD53)) hmean
  case PS => exact U.npSum (map_rel _ fun i => batch_psTerm d k h i)
  case cSIL =>
    have e := hl rfl
    rw [batchLive, batchLive] at e
    rw [e]
    split
    · exact over (U.npSum (map_rel _ fun i => batch_silhouette d k h i)) (U.ofNat _)
    · exact U.zero 0
  case rCIP => exact U.zero 0

end Batch
end Units
end Verif.Gen
