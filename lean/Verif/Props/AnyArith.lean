import Verif.Gen.Uniform
import Verif.Gen.Cents

/-!
# C62–C66: what holds in every floating point arithmetic

The theorems of the other files compare the classes with textbook definitions, in exact real arithmetic.  The theorems here hold
for **every** type `F` of floats with **any** operations (`Verif/Gen/Arith.lean`), so for float64 with all its rounding.
They say which floating point expression is evaluated, on which samples, in which order — nothing is said about its numerical
accuracy.  `Verif/Gen/Spec.lean` writes these expressions down.
-/

namespace Verif.Gen

variable {F : Type} [Arith F] {d : ℕ}

/-- A stream in the arithmetic with two decimal places; one feature. -/
def sample : Samples Cents := [([⟨0⟩], 7), ([⟨210⟩], 7), ([⟨500⟩], -1), ([⟨533⟩], -1), ([⟨100⟩], 7)]

theorem sample_dim : sample.Dim 1 := by
  intro p hp
  simp only [sample, List.mem_cons, List.not_mem_nil, or_false] at hp
  rcases hp with rfl | rfl | rfl | rfl | rfl <;> rfl

/-! ## C62: no exception, one value per sample, and which one -/

/-- **C62** (all classes but rCIP): in every arithmetic, feeding any samples with the same number of features under any labels raises
nothing and returns for each prefix of the stream the value of the specification. -/
theorem C62_every_arithmetic (I : Index) (hI : I ≠ .rCIP) (S : Samples F) (hS : S.Dim d) :
    (feed (mod F I) S (mod F I).fresh).val = .ok (S.inits.tail.map (value d I)) := by
  obtain ⟨o, h⟩ := run_value hI hS
  rw [h]; rfl

example : (feed (mod Cents .CH) sample (mod Cents .CH).fresh).val.toOption = some [⟨0⟩, ⟨0⟩, ⟨472⟩, ⟨1506⟩, ⟨2736⟩] := by
  decide +kernel
example : (feed (mod Cents .DB) sample (mod Cents .DB).fresh).val.toOption = some [⟨0⟩, ⟨0⟩, ⟨7⟩, ⟨6⟩, ⟨4⟩] := by
  decide +kernel

/-- **C62** (rCIP): if `np.linalg.inv` of a `d × d` array is a `d × d` array, feeding samples either returns for each prefix a value
of the specification, or raises an exception of the libraries: an overflowing power, `np.linalg.det` or `np.linalg.inv` of the sum of
the covariances of two clusters of the samples so far; or `d = 0`. -/
theorem C62_rCIP (hi : InvShape F d) (S : Samples F) (hS : S.Dim d) :
    (∃ vs, (feed (mod F .rCIP) S (mod F .rCIP).fresh).val = .ok vs ∧ List.Forall₂ (Returns d .rCIP) S.inits.tail vs) ∨
      ∃ e, (feed (mod F .rCIP) S (mod F .rCIP).fresh).val = .error e ∧ ∃ P, P <+: S ∧ LibRaises d (Summed d P) e := by
  rcases (refinesE .rCIP fun _ => hi).run hS with ⟨vs, o, h1, h2, _⟩ | ⟨e, o, h1, P, h2, _, h3⟩
  · exact Or.inl ⟨vs, by rw [h1]; rfl, h2⟩
  · exact Or.inr ⟨e, by rw [h1]; rfl, P, h2, h3⟩

theorem Cents.invShape (d : ℕ) : InvShape Cents d := by
  intro A B hA h
  simp only [Arith.inv] at h
  split at h
  · cases h
  · injection h with h
    subst h
    refine ⟨hA.1, by simpa using hA.2.1, ?_⟩
    intro r hr
    obtain ⟨r', hr', rfl⟩ := List.mem_map.mp hr
    simpa using hA.2.2 r' hr'

example : (feed (mod Cents .rCIP) sample (mod Cents .rCIP).fresh).val.toOption = some [⟨0⟩, ⟨0⟩, ⟨-36⟩, ⟨-36⟩, ⟨-125⟩] := by
  decide +kernel
/-- Three features are too many for this arithmetic. -/
example : (feed (mod Cents .rCIP) [([⟨1⟩, ⟨2⟩, ⟨3⟩], 0)] (mod Cents .rCIP).fresh).val = .error .overflowError := by
  rfl

/-- While one label has been seen, every class that returns returns exactly `0`. -/
theorem C62_one_cluster {I : Index} {S : Samples F} {r : F} (h : (order S).length ≤ 1) (hr : Returns d I S r) : r = 0 := by
  cases I with
  | rCIP => obtain ⟨g, _, hr⟩ := hr; rw [hr, if_pos h]
  | _ => rw [show r = value d _ S from hr, value, if_pos h]

/-! ## C63: a record depends on the samples of its own cluster only -/

omit [Arith F] in
theorem entry_order {α : Type} {o : Obj F} {S : Samples F} (h : o.labelMap = mapOf (order S)) (f : ℤ → α) (c : ℤ) :
    o.entry ((order S).map f) c = if c ∈ order S then some (f c) else none := by
  rw [Obj.entry, h, lookup_mapOf]
  by_cases hc : c ∈ order S
  · rw [if_pos hc, if_pos hc]; exact getElem?_map_idxOf hc f
  · rw [if_neg hc, if_neg hc]; rfl

/-- **C63**: after any stream that raised nothing, in every arithmetic, the count and the centroid recorded for a label are computed
from the samples of that label, in their order; likewise compactness and (rCIP) covariance.  Labels never presented have no
record. -/
theorem C63_own_samples (I : Index) (hi : I = .rCIP → InvShape F d) (S : Samples F) (hS : S.Dim d) (hne : S ≠ []) {vs : List F}
    {o : Obj F} (h : feed (mod F I) S (mod F I).fresh = .ok vs o) :
    (∀ c, (∃ x, (x, c) ∈ S) → o.count c = some (own S c).length ∧ o.centroid c = some (Stat.of (own S c)).v ∧
      (Common6 I → o.compactness c = some (Stat.of (own S c)).cp) ∧
      (I = .cSIL → o.compactness c = some (Sil.of (own S c)).cp) ∧
      (I = .rCIP → o.page c = some (Gauss.of d (own S c)).sigma)) ∧
    ∀ c, (∀ x, (x, c) ∉ S) → o.count c = none ∧ o.centroid c = none := by
  obtain ⟨hm, hR, _⟩ := after hi hS hne h
  have nv := held_nv hR
  refine ⟨fun c hc => ?_, fun c hc => ?_⟩
  · have hc' := (mem_order S).mpr hc
    refine ⟨?_, ?_, ?_, ?_, ?_⟩
    · rw [Obj.count, nv.n, entry_order hm, if_pos hc', stat_n S hc' hS]
    · rw [Obj.centroid, nv.v, entry_order hm, if_pos hc']; rfl
    · intro hI
      rw [Obj.compactness, (held_common hI hR).cg.cp, Option.bind_some, entry_order hm, if_pos hc']; rfl
    · rintro rfl
      rw [Obj.compactness, (RepSil.tables hR).cp, Option.bind_some, entry_order hm, if_pos hc']; rfl
    · rintro rfl
      rw [Obj.page, (RepG.toMidG hR).sigma, entry_order hm, if_pos hc']; rfl
  · have hc' : c ∉ order S := by rw [mem_order]; simpa using hc
    rw [Obj.count, Obj.centroid, nv.n, nv.v, entry_order hm, entry_order hm, if_neg hc', if_neg hc']
    exact ⟨rfl, rfl⟩

/-- **C63**, consequence: two streams with the same samples of label `c`, in the same order, whatever else they contain and
however it is interleaved, leave the same record for `c`, bit for bit. -/
theorem C63_interleaving (I : Index) (hi : I = .rCIP → InvShape F d) {S T : Samples F} (hS : S.Dim d) (hT : T.Dim d) {vs ws : List F}
    {o o' : Obj F} (h : feed (mod F I) S (mod F I).fresh = .ok vs o) (h' : feed (mod F I) T (mod F I).fresh = .ok ws o')
    {c : ℤ} (hc : ∃ x, (x, c) ∈ S) (he : own S c = own T c) :
    o.count c = o'.count c ∧ o.centroid c = o'.centroid c ∧ (I ≠ .PS → I ≠ .rCIP → o.compactness c = o'.compactness c) ∧
      (I = .rCIP → o.page c = o'.page c) := by
  have hc' : ∃ x, (x, c) ∈ T := by
    rw [← mem_order T]
    by_contra hn
    rw [← own_eq_nil, ← he, own_eq_nil, mem_order] at hn
    exact hn hc
  have hne : S ≠ [] := by rintro rfl; simp at hc
  have hne' : T ≠ [] := by rintro rfl; simp at hc'
  obtain ⟨a1, a2, a3, a4, a5⟩ := (C63_own_samples I hi S hS hne h).1 c hc
  obtain ⟨b1, b2, b3, b4, b5⟩ := (C63_own_samples I hi T hT hne' h').1 c hc'
  rw [← he] at b1 b2 b3 b4 b5
  refine ⟨a1.trans b1.symm, a2.trans b2.symm, fun h1 h2 => ?_, fun h1 => (a5 h1).trans (b5 h1).symm⟩
  by_cases h3 : I = .cSIL
  · exact (a4 h3).trans (b4 h3).symm
  · have h6 : Common6 I := by
      cases I <;> first | exact absurd rfl h1 | exact absurd rfl h2 | exact absurd rfl h3 | (unfold Common6; simp)
    exact (a3 h6).trans (b3 h6).symm

/-- The same samples, interleaved differently. -/
def sample' : Samples Cents := [([⟨0⟩], 7), ([⟨500⟩], -1), ([⟨210⟩], 7), ([⟨100⟩], 7), ([⟨533⟩], -1)]

example : own sample 7 = own sample' 7 ∧ own sample (-1) = own sample' (-1) := by decide +kernel
example : (feed (mod Cents .XB) sample (mod Cents .XB).fresh).state.centroid 7 = some [⟨103⟩] := by decide +kernel

/-! ## C64: the table of distances is never stale -/

/-- The squared distance of two centroids (XB, DB, PS), its square root (GD43), or the mean scatter of both clusters (GD53). -/
def gap (I : Index) (n m : ℕ) (v w : List F) (p q : F) : F :=
  match I with
  | .GD43 => Arith.sqrt (Arith.npSum ((List.zipWith (· - ·) v w).map Arith.sq))
  | .GD53 => (p + q) / Arith.ofNat (n + m)
  | _ => Arith.npSum ((List.zipWith (· - ·) v w).map Arith.sq)

/-- **C64**: after any stream, in every arithmetic, the table of distances is square, symmetric and zero on the diagonal, and the
entry of two labels is the distance computed from the counts, centroids and compactnesses of their samples up to now. -/
theorem C64_table (I : Index) (hI : Tabled I) (S : Samples F) (hS : S.Dim d) (hne : S ≠ []) {vs : List F} {o : Obj F}
    (h : feed (mod F I) S (mod F I).fresh = .ok vs o) :
    o.core.D.cols = o.core.nClusters ∧ o.core.D.rows.length = o.core.nClusters ∧
    ∀ a b i j, o.labelMap.lookup a = some i → o.labelMap.lookup b = some j → ∃ r s x, o.core.D.rows[i]? = some r ∧
      o.core.D.rows[j]? = some s ∧ r[j]? = some x ∧ s[i]? = some x ∧ (a = b → x = 0) ∧
      (a ≠ b → let A := Stat.of (own S a); let B := Stat.of (own S b)
        x = gap I A.n B.n A.v B.v A.cp B.cp ∨ x = gap I B.n A.n B.v A.v B.cp A.cp) := by
  have hi : I = .rCIP → InvShape F d := by rintro rfl; rcases hI with h | h | h | h | h <;> cases h
  obtain ⟨hm, hR, _⟩ := after hi hS hne h
  have hD := held_table hI hR
  have nv := held_nv hR
  refine ⟨by rw [hD, nv.k]; simp [sqMat], by rw [hD, nv.k]; simp [sqMat], ?_⟩
  intro a b i j ha hb
  rw [hm, lookup_mapOf] at ha hb
  by_cases ha' : a ∈ order S
  case neg => rw [if_neg ha'] at ha; cases ha
  by_cases hb' : b ∈ order S
  case neg => rw [if_neg hb'] at hb; cases hb
  rw [if_pos ha'] at ha
  rw [if_pos hb'] at hb
  injection ha with ha
  injection hb with hb
  subst ha hb
  have hsym : table I S b a = table I S a b := table_symm ha'
  refine ⟨(order S).map (table I S a), (order S).map (table I S b), table I S a b, ?_, ?_, ?_, ?_, ?_, ?_⟩
  · rw [hD]; exact getElem?_map_idxOf ha' _
  · rw [hD]; exact getElem?_map_idxOf hb' _
  · exact getElem?_map_idxOf hb' _
  · rw [← hsym]; exact getElem?_map_idxOf ha' _
  · rintro rfl; exact table_self S
  · intro hab
    have hg : ∀ s t : Stat F, between I s t = gap I s.n t.n s.v t.v s.cp t.cp := by
      intro s t
      rcases hI with rfl | rfl | rfl | rfl | rfl <;> rfl
    rw [table, if_neg hab]
    split
    · left; rw [hg]; rfl
    · right; rw [hg]; rfl

example : (feed (mod Cents .GD43) sample (mod Cents .GD43).fresh).state.core.D.rows =
    [[⟨0⟩, ⟨410⟩], [⟨410⟩, ⟨0⟩]] := by
  decide +kernel

/-! ## C65: interleaving -/

/-- The same labels in the same order of first occurrence, and for each label the same samples in the same order. -/
def Reordered (S T : Samples F) : Prop := order S = order T ∧ ∀ c, own S c = own T c

/-- The arithmetic squares `x - y` and `y - x` to the same number, and `x + y` is `y + x`.  True of IEEE floats. -/
structure Mirror (F : Type) [Arith F] : Prop where
  sq : ∀ x y : F, Arith.sq (x - y) = Arith.sq (y - x)
  add : ∀ x y : F, x + y = y + x

theorem between_symm (hF : Mirror F) (I : Index) (s t : Stat F) : between I s t = between I t s := by
  have e : (List.zipWith (· - ·) s.v t.v).map Arith.sq = (List.zipWith (· - ·) t.v s.v).map Arith.sq := by
    rw [List.map_zipWith, List.map_zipWith, List.zipWith_comm]
    congr 1
    funext x y
    exact hF.sq y x
  cases I <;> simp only [between, e, hF.add s.cp, Nat.add_comm s.n]

theorem value_reordered (hF : Mirror F) {I : Index} (hI : Tabled I) {S T : Samples F} (h : Reordered S T) :
    value d I S = value d I T := by
  obtain ⟨h1, h2⟩ := h
  have hs : stat S = stat T := by funext c; rw [stat, stat, h2]
  have ht : ∀ J, table J S = table J T := by
    intro J
    funext a b
    rw [table, table, hs, between_symm hF J (stat T b), ite_self, ite_self]
  have hd : ∀ J, distances J S = distances J T := by intro J; rw [distances, distances, h1, ht]
  have hl : S.length = T.length := by
    rw [length_eq_sum_own, length_eq_sum_own, h1]
    simp only [h2]
  rcases hI with rfl | rfl | rfl | rfl | rfl
  · simp only [value, h1, hs, hd, hl]
  · simp only [value, h1, quotients, quotient, hs, ht]
  · simp only [value, h1, hs, hd]
  · simp only [value, h1, hs, hd]
  · have : psTerm S d = psTerm T d := by funext c; simp only [psTerm, betaT, vBar, h1, hs, ht]
    simp only [value, h1, this]

omit [Arith F] in
theorem Reordered.dim {S T : Samples F} (h : Reordered S T) (hS : S.Dim d) : T.Dim d := by
  intro p hp
  obtain ⟨x, c⟩ := p
  have : x ∈ own T c := by simp only [own, List.mem_map, List.mem_filter]; exact ⟨(x, c), ⟨hp, by simp⟩, rfl⟩
  rw [← h.2] at this
  exact own_length S x hS this

/-- **C65**: if the arithmetic has the two symmetries of IEEE floats, the value XB, DB, GD43, GD53 or PS return after the last sample
does not depend on how the samples of different clusters were interleaved, bit for bit. -/
theorem C65_interleaving_partial (hF : Mirror F) (I : Index) (hI : Tabled I) {S T : Samples F} (hS : S.Dim d)
    (h : Reordered S T) {vs ws : List F} {o o' : Obj F} (h1 : feed (mod F I) S (mod F I).fresh = .ok vs o)
    (h2 : feed (mod F I) T (mod F I).fresh = .ok ws o') : vs.getLast? = ws.getLast? := by
  have hT := h.dim hS
  have hi : I ≠ .rCIP := by rintro rfl; rcases hI with h | h | h | h | h <;> cases h
  have key : ∀ {S : Samples F} {vs : List F} {o : Obj F}, S.Dim d → feed (mod F I) S (mod F I).fresh = .ok vs o →
      vs.getLast? = if S = [] then none else some (value d I S) := by
    intro S vs o hS h
    obtain ⟨o', h'⟩ := run_value hi hS
    rw [h] at h'
    injection h' with e _
    subst e
    rw [List.getLast?_map]
    induction S using List.reverseRecOn with
    | nil => rfl
    | append_singleton S p _ =>
      rw [if_neg (by simp)]
      have : (S ++ [p]).inits.tail.getLast? = some (S ++ [p]) := by
        cases S with
        | nil => rfl
        | cons q S => simp [List.inits_append]
      rw [this]; rfl
  rw [key hS h1, key hT h2]
  have hl : S.length = T.length := by
    rw [length_eq_sum_own, length_eq_sum_own, h.1]
    simp only [h.2]
  have he : S = [] ↔ T = [] := by rw [← List.length_eq_zero_iff, hl, List.length_eq_zero_iff]
  simp only [he, value_reordered hF hI h]

/-- Entry by entry sums commute. -/
theorem zip2_comm (hF : Mirror F) {A B : Arr2 F} (hA : Sq d A) (hB : Sq d B) : zip2 (· + ·) A B = zip2 (· + ·) B A := by
  rw [zip2, zip2, hA.1, hB.1, List.zipWith_comm]
  congr 2
  funext r q
  rw [List.zipWith_comm]
  congr 1
  funext x y
  exact hF.add y x

/-- `a @ m @ a` does not depend on the sign of `a`.  True of IEEE floats if the libraries treat signs symmetrically. -/
def MirrorForm (F : Type) [Arith F] : Prop := ∀ (v w : List F) (B : Arr2 F) (d : ℕ),
  Arith.dot ((List.range d).map fun j => Arith.vm ((List.zipWith (· - ·) v w).map (Arith.negHalf * ·)) B j)
    (List.zipWith (· - ·) v w) =
  Arith.dot ((List.range d).map fun j => Arith.vm ((List.zipWith (· - ·) w v).map (Arith.negHalf * ·)) B j)
    (List.zipWith (· - ·) w v)

theorem overlap_unique {s t : Gauss F} {r r' : F} (h : Overlap d s t r) (h' : Overlap d s t r') : r = r' := by
  obtain ⟨k, D, B, h1, h2, h3, h4⟩ := h
  obtain ⟨k', D', B', h1', h2', h3', h4'⟩ := h'
  rw [h1] at h1'; injection h1' with e1
  rw [h2] at h2'; injection h2' with e2
  rw [h3] at h3'; injection h3' with e3
  subst e1 e2 e3
  exact h4.trans h4'.symm

theorem overlap_symm (hF : Mirror F) (hQ : MirrorForm F) {s t : Gauss F} {r : F} (hs : Sq d s.sigma) (ht : Sq d t.sigma)
    (h : Overlap d s t r) : Overlap d t s r := by
  obtain ⟨k, D, B, h1, h2, h3, h4⟩ := h
  rw [zip2_comm hF hs ht] at h2 h3
  exact ⟨k, D, B, h1, h2, h3, by rw [h4, hQ]⟩

theorem returns_reordered (hF : Mirror F) (hQ : MirrorForm F) {S T : Samples F} (hS : S.Dim d) (h : Reordered S T) {r r' : F}
    (h1 : Returns d .rCIP S r) (h2 : Returns d .rCIP T r') : r = r' := by
  obtain ⟨g, hg, h1⟩ := h1
  obtain ⟨g', hg', h2⟩ := h2
  have hd : ∀ c, gauss d S c = gauss d T c := fun c => by rw [gauss, gauss, h.2]
  have hg1 : ∀ a ∈ order S, ∀ b ∈ order S, g a b = g' a b := by
    intro a ha b hb
    by_cases hab : a = b
    · subst hab
      rw [(hg a ha).1, (hg' a (h.1 ▸ ha)).1]
    · have e1 := (hg a ha).2 b hb hab
      have e2 := (hg' a (h.1 ▸ ha)).2 b (h.1 ▸ hb) hab
      rw [← hd, ← hd] at e2
      have sa := gauss_sq S ha hS
      have sb := gauss_sq S hb hS
      split at e1 <;> split at e2
      · exact overlap_unique e1 e2
      · exact overlap_unique e1 (overlap_symm hF hQ sb sa e2)
      · exact overlap_unique (overlap_symm hF hQ sb sa e1) e2
      · exact overlap_unique e1 e2
  rw [h1, h2, h.1]
  split
  · rfl
  · congr 1
    apply List.map_congr_left
    intro p hp
    have := mem_pairs hp
    exact hg1 _ (h.1 ▸ this.1) _ (h.1 ▸ this.2)

theorem forall₂_last {α β : Type} {R : α → β → Prop} {l : List α} {a : α} {m : List β} (h : List.Forall₂ R (l ++ [a]) m) :
    ∃ b, m.getLast? = some b ∧ R a b := by
  induction l generalizing m with
  | nil =>
    cases h with
    | cons h1 h2 => cases h2; exact ⟨_, rfl, h1⟩
  | cons c l ih =>
    cases h with
    | cons h1 h2 =>
      obtain ⟨b, hb, hR⟩ := ih h2
      refine ⟨b, ?_, hR⟩
      rw [List.getLast?_cons, hb]; rfl

/-- **C65** for rCIP, if the quadratic form has the symmetry, too. -/
theorem C65_rCIP (hi : InvShape F d) (hF : Mirror F) (hQ : MirrorForm F) {S T : Samples F} (hS : S.Dim d) (h : Reordered S T)
    {vs ws : List F} {o o' : Obj F} (h1 : feed (mod F .rCIP) S (mod F .rCIP).fresh = .ok vs o)
    (h2 : feed (mod F .rCIP) T (mod F .rCIP).fresh = .ok ws o') : vs.getLast? = ws.getLast? := by
  have key : ∀ {S : Samples F} {vs : List F} {o : Obj F}, S.Dim d → S ≠ [] →
      feed (mod F .rCIP) S (mod F .rCIP).fresh = .ok vs o → ∃ r, vs.getLast? = some r ∧ Returns d .rCIP S r := by
    intro S vs o hS hne h
    obtain ⟨-, -, h⟩ := after (fun _ => hi) hS hne h
    have : ∃ l, S.inits.tail = l ++ [S] := by
      induction S using List.reverseRecOn with
      | nil => exact absurd rfl hne
      | append_singleton S p _ =>
        cases S with
        | nil => exact ⟨[], rfl⟩
        | cons q S => exact ⟨_, by simp [List.inits_append]; rfl⟩
    obtain ⟨l, hl⟩ := this
    rw [hl] at h
    exact forall₂_last h
  by_cases hne : S = []
  · subst hne
    have : T = [] := by
      by_contra hn
      obtain ⟨p, hp⟩ := List.exists_mem_of_ne_nil _ hn
      have : p.2 ∈ order T := (mem_order T).mpr ⟨p.1, hp⟩
      rw [← h.1] at this
      exact absurd this (by simp [order])
    subst this
    rw [h1] at h2
    injection h2 with e _
    rw [e]
  · have hneT : T ≠ [] := by
      rintro rfl
      obtain ⟨p, hp⟩ := List.exists_mem_of_ne_nil _ hne
      have : p.2 ∈ order S := (mem_order S).mpr ⟨p.1, hp⟩
      rw [h.1] at this
      exact absurd this (by simp [order])
    obtain ⟨r, e1, r1⟩ := key hS hne h1
    obtain ⟨r', e2, r2⟩ := key (h.dim hS) hneT h2
    rw [e1, e2, returns_reordered hF hQ hS h r1 r2]

theorem Cents.mirror : Mirror Cents where
  sq x y := by
    show Cents.mul _ _ = Cents.mul _ _
    simp only [Cents.mul, Cents.mk.injEq]
    congr 1
    show (x.raw - y.raw) * (x.raw - y.raw) = (y.raw - x.raw) * (y.raw - x.raw)
    ring
  add x y := by
    show Cents.add x y = Cents.add y x
    simp only [Cents.add, Int.add_comm]

/-- Two interleavings of the same samples -/
def early : Samples Cents := [([⟨4⟩], 0), ([⟨496⟩], 1), ([⟨121⟩], 0), ([⟨596⟩], 1)]
def late : Samples Cents := [([⟨4⟩], 0), ([⟨121⟩], 0), ([⟨496⟩], 1), ([⟨596⟩], 1)]

theorem early_late : Reordered early late := by
  refine ⟨by decide, fun c => ?_⟩
  by_cases h0 : c = 0
  · subst h0; rfl
  · by_cases h1 : c = 1
    · subst h1; rfl
    · simp [own, early, late, Ne.symm h0, Ne.symm h1]

theorem sample_reordered : Reordered sample sample' := by
  refine ⟨by decide, fun c => ?_⟩
  by_cases h0 : c = 7
  · subst h0; rfl
  · by_cases h1 : c = -1
    · subst h1; rfl
    · simp [own, sample, sample', Ne.symm h0, Ne.symm h1]

example : (feed (mod Cents .XB) early (mod Cents .XB).fresh).val.toOption.bind List.getLast? =
    (feed (mod Cents .XB) late (mod Cents .XB).fresh).val.toOption.bind List.getLast? := by decide +kernel

/-- **C65** fails for the other classes: with rounding, CH, WB (which keep a running mean of all samples), cSIL (whose matrix keeps
entries computed from centroids of earlier times) depend on the interleaving; rCIP too, in this arithmetic that rounds down, where
`a @ inv @ a` depends on the sign of `a`. -/
theorem C65_others_depend (I : Index) (hI : ¬ Tabled I) : ∃ S T : Samples Cents, S.Dim 1 ∧ Reordered S T ∧
    ∃ a b, (feed (mod Cents I) S (mod Cents I).fresh).val.toOption.bind List.getLast? = some a ∧
      (feed (mod Cents I) T (mod Cents I).fresh).val.toOption.bind List.getLast? = some b ∧ a ≠ b := by
  have hd : early.Dim 1 := by
    intro p hp
    simp only [early, List.mem_cons, List.not_mem_nil, or_false] at hp
    rcases hp with rfl | rfl | rfl | rfl <;> rfl
  by_cases hr : I = .rCIP ∨ I = .cSIL
  · refine ⟨sample, sample', sample_dim, sample_reordered, ?_⟩
    rcases hr with rfl | rfl
    · exact ⟨⟨-125⟩, ⟨-126⟩, by decide +kernel, by decide +kernel, by decide⟩
    · exact ⟨⟨97⟩, ⟨96⟩, by decide +kernel, by decide +kernel, by decide⟩
  refine ⟨early, late, hd, early_late, ?_⟩
  cases I with
  | CH => exact ⟨⟨4000⟩, ⟨4002⟩, by decide +kernel, by decide +kernel, by decide⟩
  | WB => exact ⟨⟨10⟩, ⟨8⟩, by decide +kernel, by decide +kernel, by decide⟩
  | rCIP => exact absurd (Or.inl rfl) hr
  | cSIL => exact absurd (Or.inr rfl) hr
  | XB => exact absurd (Or.inl rfl) hI
  | DB => exact absurd (Or.inr (Or.inl rfl)) hI
  | GD43 => exact absurd (Or.inr (Or.inr (Or.inl rfl))) hI
  | GD53 => exact absurd (Or.inr (Or.inr (Or.inr (Or.inl rfl)))) hI
  | PS => exact absurd (Or.inr (Or.inr (Or.inr (Or.inr rfl)))) hI

/-! ## C66: the classes agree -/

/-- **C66**: two objects of any two classes fed the same stream record the same counts and centroids, bit for bit; objects of the
classes CH, WB, XB, DB, GD43 and GD53 also the same compactness, auxiliary vectors and mean of all samples. -/
theorem C66_same_records (I J : Index) (hi : I = .rCIP → InvShape F d) (hj : J = .rCIP → InvShape F d) (S : Samples F)
    (hS : S.Dim d) (hne : S ≠ []) {vs ws : List F} {o o' : Obj F}
    (h : feed (mod F I) S (mod F I).fresh = .ok vs o) (h' : feed (mod F J) S (mod F J).fresh = .ok ws o') :
    o.labelMap = o'.labelMap ∧ o.core.nSamples = o'.core.nSamples ∧ o.core.nClusters = o'.core.nClusters ∧
    o.core.n = o'.core.n ∧ o.core.v = o'.core.v ∧
    (Common6 I → Common6 J → o.core.CP = o'.core.CP ∧ o.core.G = o'.core.G ∧ o.core.mu = o'.core.mu) := by
  obtain ⟨m1, r1, _⟩ := after hi hS hne h
  obtain ⟨m2, r2, _⟩ := after hj hS hne h'
  have a := held_nv r1
  have b := held_nv r2
  refine ⟨m1.trans m2.symm, (held_nSamples r1).trans (held_nSamples r2).symm, a.k.trans b.k.symm, a.n.trans b.n.symm,
    a.v.trans b.v.symm, fun h1 h2 => ?_⟩
  have a := held_common h1 r1
  have b := held_common h2 r2
  exact ⟨a.cg.cp.trans b.cg.cp.symm, a.cg.g.trans b.cg.g.symm, a.mu.trans b.mu.symm⟩

end Verif.Gen
