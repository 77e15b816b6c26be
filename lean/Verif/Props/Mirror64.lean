import Verif.Gen.B64Reflect
import Verif.Gen.B64Cov
import Verif.Props.AnyArithBatch

/-!
# C90: reversing features

Reversing the sign of a feature in all samples (a mirror image of the data) changes no bit of any value, in binary64.  In exact
arithmetic this is an instance of C25 (isometries); in floats isometries matter through rounding (C89), reflections in coordinates do
not.  The centroids change their sign bit by bit, except that a difference `x - x` is `+0` and never `-0`; so the proof has to follow the
signs of zeros.

`Lib.Ordered` is needed: `np.inner` and `np.mean` add in an order that depends on the lengths only.
-/

namespace Verif.Gen
open Py

variable {F : Type} [Arith F] {d : ℕ}

/-! ## Any arithmetic that treats signs symmetrically -/

theorem mirrored_feed (R : Reflect F) {σ : ℕ → Bool} (I : Index) (hI : I ≠ .rCIP) {S T : Samples F} (hS : S.Dim d)
    (h : R.Mirrored σ S T) : (feed (mod F I) S (mod F I).fresh).val = (feed (mod F I) T (mod F I).fresh).val := by
  rw [C62_every_arithmetic I hI S hS, C62_every_arithmetic I hI T (h.dim hS)]
  exact congrArg Except.ok (h.inits fun h' => h'.value d I)

theorem mirrored_batch (R : Reflect F) {σ : ℕ → Bool} (I : Index) (hI : I ≠ .rCIP) {S T : Samples F} {E G : List (List F)} (hS : S.Dim d)
    (hE : ∀ x ∈ E, x.length = d) (h : R.Mirrored σ S T) (h' : List.Forall₂ (R.Turned σ) E G) (hk : 1 < (order S).length) (o : Obj F)
    (ho : o.core.isSetup = false) : (batchCall d I S E o).val = (batchCall d I T G o).val := by
  have hT := h.dim hS
  have hG : ∀ x ∈ G, x.length = d := by
    clear hk
    induction h' with
    | nil => simp
    | cons hx _ ih =>
      intro x hx'
      rcases List.mem_cons.mp hx' with rfl | hx'
      · rw [← hx.1]; exact hE _ List.mem_cons_self
      · exact ih (fun x hx => hE x (List.mem_cons_of_mem _ hx)) x hx'
  have hl : ∀ i : ℤ, (∃ x, (x, i) ∈ S) ↔ ∃ x, (x, i) ∈ T := fun i => by rw [← mem_order, ← mem_order, h.order]
  by_cases hp : I = .PS → ∃ i < (order S).length, ∃ x, (x, (i : ℤ)) ∈ S
  · obtain ⟨s, h1, -⟩ := C70_batch I hI S E hS hE hk hp o ho
    obtain ⟨s', h2, -⟩ := C70_batch I hI T G hT hG (h.order ▸ hk) (fun e => by
      obtain ⟨i, hi, hx⟩ := hp e
      exact ⟨i, h.order ▸ hi, (hl i).mp hx⟩) o ho
    rw [h1, h2]
    have e : Batch.value d (order S).length (part S) (allRows S E) I = Batch.value d (order T).length (part T) (allRows T G) I := by
      rw [← h.order]
      exact Reflect.batch_value (R := R) (σ := σ) d _ (fun i => h.own i) (List.rel_append h.rows h') I
    exact congrArg Except.ok e
  · rw [Classical.not_imp] at hp
    obtain ⟨rfl, hp⟩ := hp
    have hp' : ∀ i < (order S).length, ∀ x, (x, (i : ℤ)) ∉ S := fun i hi x hx => hp ⟨i, hi, x, hx⟩
    rw [C70_PS_raises S E hS hE hk hp' o ho, C70_PS_raises T G hT hG (h.order ▸ hk) (fun i hi x hx => by
      obtain ⟨y, hy⟩ := (hl i).mpr ⟨x, hx⟩
      exact hp' i (h.order ▸ hi) y hy) o ho]

theorem reversed_feed (R : ReflectCov F) (hF : Mirror F) (hi : InvShape F d) (hd : d ≠ 0) {k : F} (hk : Arith.normConst d = .ok k) {S T : Samples F}
    (hS : S.Dim d) (h : R.Reversed S T) {vs : List F} (hv : (feed (mod F .rCIP) S (mod F .rCIP).fresh).val = .ok vs) :
    (feed (mod F .rCIP) T (mod F .rCIP).fresh).val = .ok vs := by
  have hT := h.dim hS
  rcases C62_rCIP hi S hS with ⟨vs', h1, h2⟩ | ⟨e, h1, -⟩
  case inr => rw [hv] at h1; cases h1
  rw [hv] at h1
  injection h1 with e
  subst e
  rcases C62_rCIP hi T hT with ⟨ws, h3, h4⟩ | ⟨e, -, P, hP, hr⟩
  · rw [h3]
    have key : ∀ {r r' : F} {U : Samples F}, Returns d .rCIP U r → Returns d .rCIP U r' → r = r' := by
      rintro r r' U ⟨g, hg, rfl⟩ ⟨g', hg', rfl⟩
      split
      · rfl
      · congr 1
        apply List.map_congr_left
        intro p hp
        have hp' := mem_pairs hp
        by_cases hab : p.1 = p.2
        · rw [hab, (hg _ hp'.2).1, (hg' _ hp'.2).1]
        · have e1 := (hg _ hp'.1).2 _ hp'.2 hab
          have e2 := (hg' _ hp'.1).2 _ hp'.2 hab
          split at e1
          · rw [if_pos ‹_›] at e2; exact overlap_unique e1 e2
          · rw [if_neg ‹_›] at e2; exact overlap_unique e1 e2
    congr 1
    have h5 : List.Forall₂ (Returns d .rCIP) T.inits.tail vs := by
      have hp : List.Forall₂ (R.Mirrored fun _ => true) S.inits.tail T.inits.tail := by
        have := h.prefixes
        generalize S.inits = Ss at this ⊢
        generalize T.inits = Ts at this ⊢
        cases this with
        | nil => exact .nil
        | cons _ h => exact h
      clear h3 h4 hv hS hT h
      generalize S.inits.tail = Ss at h2 hp
      generalize T.inits.tail = Ts at hp
      induction h2 generalizing Ts with
      | nil => cases hp; exact .nil
      | cons a _ ih =>
        cases hp with
        | cons b hp => exact .cons (ReflectCov.returns b a) (ih _ hp)
    clear h2 h3 hv
    generalize T.inits.tail = Us at h4 h5
    clear h hS hT
    induction h4 generalizing vs with
    | nil => cases h5; rfl
    | cons a _ ih =>
      cases h5 with
      | cons b h5 => rw [key a b, ih h5]
  · exfalso
    rcases hr with ⟨h0, -⟩ | h0 | ⟨A, ⟨a, ha, b, hb, hab, rfl⟩, hr⟩
    · exact hd h0
    · rw [hk] at h0; cases h0
    have hU : R.Reversed (S.take P.length) P := by
      have := h.take P.length
      rwa [← List.prefix_iff_eq_take.mp hP] at this
    have hmem : S.take P.length ∈ S.inits.tail := by
      have h0 : S.take P.length ≠ [] := fun e => by
        rw [e] at hU
        cases hU
        simp [order] at ha
      have : S.take P.length ∈ S.inits := (List.mem_inits _ _).mpr (List.take_prefix _ _)
      cases S with
      | nil => simp at h0
      | cons p S =>
        rw [List.inits_cons] at this ⊢
        exact (List.mem_cons.mp this).resolve_left h0
    obtain ⟨r, g, hg, -⟩ : ∃ r, Returns d .rCIP (S.take P.length) r := by
      clear h hv
      generalize S.take P.length = U at hmem
      generalize S.inits.tail = Us at h2 hmem
      clear hU
      induction h2 with
      | nil => simp at hmem
      | cons a _ ih =>
        rcases List.mem_cons.mp hmem with rfl | hm
        · exact ⟨_, a⟩
        · exact ih hm
    have hUd : Samples.Dim d (S.take P.length) := fun p hp => hS p (List.mem_of_mem_take hp)
    rw [← hU.order] at ha hb
    have sa := gauss_sq _ ha hUd
    have sb := gauss_sq _ hb hUd
    rw [← (ReflectCov.gauss_turns hU d a).sigma, ← (ReflectCov.gauss_turns hU d b).sigma] at hr
    have := (hg a ha).2 b hb hab
    split at this
    · obtain ⟨k, D, B, -, h2, h3, -⟩ := this
      rw [h2, h3] at hr
      rcases hr with hr | hr <;> cases hr
    · obtain ⟨k, D, B, -, h2, h3, -⟩ := this
      rw [zip2_comm hF sb sa] at h2 h3
      rw [h2, h3] at hr
      rcases hr with hr | hr <;> cases hr

theorem Reflect.Mirrored.symm {R : Reflect F} (hs : ∀ {a b : F}, R.Opp a b → R.Opp b a) {σ : ℕ → Bool} {S T : Samples F} (h : R.Mirrored σ S T) :
    R.Mirrored σ T S := by
  refine List.Forall₂.flip (List.Forall₂.imp ?_ h)
  rintro p q ⟨⟨h1, h2⟩, h3⟩
  refine ⟨⟨h1.symm, fun j a b ha hb => ?_⟩, h3.symm⟩
  have := h2 j b a hb ha
  unfold Reflect.Rel at this ⊢
  split
  · rw [if_pos ‹_›] at this; exact hs this
  · rw [if_neg ‹_›] at this; exact this.symm

theorem reversed_batch (R : ReflectCov F) (hi : InvShape F d) (hd : d ≠ 0) {S T : Samples F} {E G : List (List F)} (hS : S.Dim d)
    (hE : ∀ x ∈ E, x.length = d) (hG : ∀ x ∈ G, x.length = d) (h : R.Reversed S T) (hk : 1 < (order S).length) (o : Obj F)
    (ho : o.core.isSetup = false) {r : F} (hv : (batchCall d .rCIP S E o).val = .ok r) : (batchCall d .rCIP T G o).val = .ok r := by
  have hT := h.dim hS
  rcases C70_rCIP hi S E hS hE hk o ho with ⟨r', s, h1, h2, -⟩ | ⟨e, h1, -⟩
  case inr => rw [hv] at h1; cases h1
  rw [h1] at hv
  injection hv with e
  subst e
  have h3 : Batch.Returns d (order T).length (part T) (allRows T G) .rCIP r' := by
    rw [← h.order]
    exact ReflectCov.batch_returns (R := R) (fun i => h.own i) (fun i x hx => own_length S x hS hx) h2
  rcases C70_rCIP hi T G hT hG (h.order ▸ hk) o ho with ⟨r, s, h4, h5, -⟩ | ⟨e, -, -, h4⟩
  · rw [h4, batch_returns_unique h3 h5]; rfl
  · exact (h4 hd _ h3).elim

/-! ## binary64 -/

section
open B64
variable {L : Lib}

/-- The features `j` with `σ j` reversed. -/
def turn (σ : ℕ → Bool) (x : List B64) : List B64 := x.mapIdx fun j a => if σ j then B64.neg a else a

/-- The same in every sample. -/
def mirror (σ : ℕ → Bool) (S : Samples (F64 L)) : Samples (F64 L) := S.map fun p => (turn σ p.1, p.2)

theorem turn_length (σ : ℕ → Bool) (x : List B64) : (turn σ x).length = x.length := List.length_mapIdx

theorem turn_get {σ : ℕ → Bool} {x : List B64} {j : ℕ} {a b : B64} (ha : x[j]? = some a) (hb : (turn σ x)[j]? = some b) :
    (σ j = true → b = B64.neg a) ∧ (σ j = false → b = a) := by
  rw [turn, List.getElem?_mapIdx, ha] at hb
  injection hb with hb
  subst hb
  constructor <;> intro e <;> simp [e]

theorem turn_turned (hL : L.Ordered) (σ : ℕ → Bool) (x : List (F64 L)) : (F64.reflect hL).Turned σ x (turn σ x) := by
  refine ⟨(turn_length σ x).symm, fun j a b ha hb => ?_⟩
  have e := turn_get ha hb
  unfold Reflect.Rel
  split
  · have e := e.1 ‹_›
    subst e
    exact opp_neg a
  · exact (e.2 (Bool.not_eq_true _ ▸ ‹_›)).symm

theorem mirror_mirrored (hL : L.Ordered) (σ : ℕ → Bool) (S : Samples (F64 L)) : (F64.reflect hL).Mirrored σ S (mirror σ S) := by
  unfold mirror Reflect.Mirrored
  induction S with
  | nil => exact .nil
  | cons p S ih => exact .cons ⟨turn_turned hL σ p.1, rfl⟩ ih

theorem add_swap (a b : B64) : B64.add a b = B64.add b a := by
  cases a <;> cases b <;> simp only [B64.add]
  · rw [Int.add_comm, Bool.and_comm]
  · rename_i s t
    cases s <;> cases t <;> rfl

theorem opp_symm {a b : B64} (h : Opp a b) : Opp b a := by
  cases a <;> cases b <;> first | exact h.elim | skip
  · unfold Opp at h ⊢; omega
  · rename_i s t
    simp only [Opp] at h ⊢
    rw [h, Bool.not_not]
  · trivial

theorem F64.mirror : Mirror (F64 L) where
  sq x y := by
    show B64.mul (B64.sub x y) (B64.sub x y) = B64.mul (B64.sub y x) (B64.sub y x)
    refine square_opp (Or.inr ?_)
    have e : B64.sub y x = B64.add (B64.neg x) y := add_swap _ _
    rw [e]
    exact opp_iff.mpr ((opp_iff.mp (opp_neg x)).add (opp_iff.mp (opp_symm (opp_neg y))))
  add := add_swap

/-- **C90**, incremental runs of all classes but rCIP: in binary64, reversing any features in all samples changes no bit of any value,
whatever the samples (NaN, infinities and subnormal numbers included). -/
theorem C90_incremental (hL : L.Ordered) (σ : ℕ → Bool) (I : Index) (hI : I ≠ .rCIP) (S : Samples (F64 L)) (hS : S.Dim d) :
    (feed (mod (F64 L) I) (mirror σ S) (mod (F64 L) I).fresh).val = (feed (mod (F64 L) I) S (mod (F64 L) I).fresh).val :=
  (mirrored_feed (F64.reflect hL) I hI hS (mirror_mirrored hL σ S)).symm

/-- **C90**, batches of all classes but rCIP; rows `E` without labels are allowed. -/
theorem C90_batch (hL : L.Ordered) (σ : ℕ → Bool) (I : Index) (hI : I ≠ .rCIP) (S : Samples (F64 L)) (E : List (List (F64 L)))
    (hS : S.Dim d) (hE : ∀ x ∈ E, x.length = d) (hk : 1 < (order S).length) (o : Obj (F64 L)) (ho : o.core.isSetup = false) :
    (batchCall d I (mirror σ S) (E.map (turn σ)) o).val = (batchCall d I S E o).val := by
  refine (mirrored_batch (F64.reflect hL) (σ := σ) I hI hS hE (mirror_mirrored hL σ S) ?_ hk o ho).symm
  clear hE
  induction E with
  | nil => exact .nil
  | cons x E ih => exact .cons (turn_turned hL σ x) ih

/-- **C90**, rCIP: reversing all features changes no bit of the values of an incremental run, and none of the value of a batch. -/
theorem C90_rCIP (hL : L.OrderedCov) (hi : InvShape (F64 L) d) (hd : d ≠ 0) {k : F64 L} (hk : L.normConst d = .ok k)
    (S : Samples (F64 L)) (hS : S.Dim d) (vs : List (F64 L)) :
    (feed (mod (F64 L) .rCIP) (mirror (fun _ => true) S) (mod (F64 L) .rCIP).fresh).val = .ok vs ↔
      (feed (mod (F64 L) .rCIP) S (mod (F64 L) .rCIP).fresh).val = .ok vs := by
  have h : (F64.reflectCov hL).Reversed S (mirror (fun _ => true) S) := mirror_mirrored hL.toOrdered _ S
  exact ⟨reversed_feed (F64.reflectCov hL) F64.mirror hi hd hk (h.dim hS) (Reflect.Mirrored.symm opp_symm h),
    reversed_feed (F64.reflectCov hL) F64.mirror hi hd hk hS h⟩

/-- **C90**, batches of rCIP. -/
theorem C90_rCIP_batch (hL : L.OrderedCov) (hi : InvShape (F64 L) d) (hd : d ≠ 0) (S : Samples (F64 L)) (E : List (List (F64 L)))
    (hS : S.Dim d) (hE : ∀ x ∈ E, x.length = d) (hk : 1 < (order S).length) (o : Obj (F64 L)) (ho : o.core.isSetup = false) (r : F64 L) :
    (batchCall d .rCIP (mirror (fun _ => true) S) (E.map (turn fun _ => true)) o).val = .ok r ↔ (batchCall d .rCIP S E o).val = .ok r := by
  have h : (F64.reflectCov hL).Reversed S (mirror (fun _ => true) S) := mirror_mirrored hL.toOrdered _ S
  have hE' : ∀ x ∈ E.map (turn fun _ => true), x.length = d := by
    intro x hx
    obtain ⟨y, hy, rfl⟩ := List.mem_map.mp hx
    rw [turn_length]; exact hE y hy
  constructor
  · exact reversed_batch (F64.reflectCov hL) hi hd (h.dim hS) hE' hE (Reflect.Mirrored.symm opp_symm h) (h.order ▸ hk) o ho
  · exact reversed_batch (F64.reflectCov hL) hi hd hS hE hE' h hk o ho

/-! ## Instances -/

/-- From left to right. -/
def left : ℕ → B64.SumPlan
  | 0 => .zero
  | n + 1 => .add (left n) (.item n)

def leftDot : ℕ → B64.Plan
  | 0 => .zero
  | n + 1 => .add (leftDot n) (.prod n)

theorem left_run (l : List B64) (n : ℕ) (h : n ≤ l.length) : (left n).run l = total (l.take n) := by
  induction n with
  | zero => rfl
  | succ n ih =>
    have hn : n < l.length := h
    rw [left, SumPlan.run, ih hn.le, SumPlan.run, List.take_add_one, List.getElem?_eq_getElem hn, total, total,
      List.foldl_append, List.getD_eq_getElem?_getD, List.getElem?_eq_getElem hn]
    rfl

theorem leftDot_run (l : List (B64 × B64)) (n : ℕ) (h : n ≤ l.length) : (leftDot n).run l = total ((l.take n).map fun p => B64.mul p.1 p.2) := by
  induction n with
  | zero => rfl
  | succ n ih =>
    have hn : n < l.length := h
    rw [leftDot, Plan.run, ih hn.le, Plan.run, List.take_add_one, List.getElem?_eq_getElem hn, total, total,
      List.map_append, List.foldl_append]
    rfl

theorem leftDot_zip (a b : List B64) : total (List.zipWith B64.mul a b) = (leftDot (min a.length b.length)).run (a.zip b) := by
  have e : (a.zip b).length = min a.length b.length := List.length_zip
  rw [leftDot_run _ _ e.ge, ← e, List.take_length, List.zip, List.map_zipWith]

theorem Lib.plain_ordered : Lib.plain.Ordered where
  dot m n := ⟨leftDot (min m n), by rintro a b rfl rfl; exact leftDot_zip a b⟩
  colSum n := ⟨left n, by rintro l rfl; rw [left_run l _ le_rfl, List.take_length]; rfl⟩

theorem Lib.rounded_ordered : Lib.rounded.OrderedCov where
  toOrdered := ⟨Lib.plain_ordered.dot, Lib.plain_ordered.colSum⟩
  vm n B j := ⟨leftDot (min n (B.rows.map fun r => r.getD j nan).length), B.rows.map fun r => r.getD j nan, by
    rintro v rfl; exact leftDot_zip _ _⟩
  mm a b i j := ⟨leftDot (min (a.getD i 0) b.length), by
    rintro A B rfl rfl hj
    have hc : (B.rows.map fun r => r.getD j (fin false 0)) = B.rows.map fun r => r.getD j nan := by
      refine List.map_congr_left fun r hr => ?_
      simp [List.getD_eq_getElem?_getD, hj r hr]
    have e : (A.rows.map List.length).getD i 0 = (A.rows.getD i []).length := by
      simp only [List.getD_eq_getElem?_getD, List.getElem?_map]
      cases A.rows[i]? <;> rfl
    have e' : (B.rows.map List.length).length = (B.rows.map fun r => r.getD j nan).length := by simp
    rw [hc, e, e']
    exact leftDot_zip _ _⟩
  exp := by
    show ofMag false ⌊Real.exp (val (fin true 0)) / lam⌋₊ 1 = ofMag false ⌊Real.exp (val (fin false 0)) / lam⌋₊ 1
    have e : val (fin true 0) = val (fin false 0) := by simp only [val]; rfl
    rw [e]
  delta d := by
    have h : (0 : ℝ) ≤ (10 : ℝ) ^ (-(12 : ℝ) / (d : ℝ)) := by positivity
    show Plus (cut ((10 : ℝ) ^ (-(12 : ℝ) / (d : ℝ))))
    rw [cut, decide_eq_false (not_lt.mpr h)]
    exact plus_ofMag _ _

/-- Two clusters; the second feature has zeros of both signs, the smallest subnormal number and its negative. -/
def specks : Samples (F64 L) :=
  [([B64.ofNat 1, fin false 0], 0), ([B64.ofNat 2, fin true 1], 0), ([B64.ofNat 7, fin false 1], 1), ([B64.ofNat 9, fin true 0], 1)]

theorem specks_dim : (specks (L := L)).Dim 2 := by
  intro p hp
  simp only [specks, List.mem_cons, List.not_mem_nil, or_false] at hp
  rcases hp with rfl | rfl | rfl | rfl <;> rfl

theorem specks_order : order (specks (L := L)) = [0, 1] := by rfl

/-- Reversing the second feature only. -/
example : mirror (fun j => j == 1) (specks (L := L)) =
    [([B64.ofNat 1, fin true 0], 0), ([B64.ofNat 2, fin false 1], 0), ([B64.ofNat 7, fin true 1], 1), ([B64.ofNat 9, fin false 0], 1)] := by
  rfl

example (I : Index) (hI : I ≠ .rCIP) : (feed (mod (F64 .plain) I) (mirror (fun j => j == 1) specks) (mod (F64 .plain) I).fresh).val =
    (feed (mod (F64 .plain) I) specks (mod (F64 .plain) I).fresh).val := C90_incremental Lib.plain_ordered _ I hI _ specks_dim

example (I : Index) (hI : I ≠ .rCIP) : (batchCall 2 I (mirror (fun j => j == 1) specks) [] ((mod (F64 .plain) I).fresh)).val =
    (batchCall 2 I specks [] ((mod (F64 .plain) I).fresh)).val :=
  C90_batch Lib.plain_ordered _ I hI _ [] specks_dim (by simp) (by rw [specks_order]; decide) _ (by cases I <;> rfl)

example (vs : List (F64 .rounded)) :
    (feed (mod (F64 .rounded) .rCIP) (mirror (fun _ => true) specks) (mod (F64 .rounded) .rCIP).fresh).val = .ok vs ↔
      (feed (mod (F64 .rounded) .rCIP) specks (mod (F64 .rounded) .rCIP).fresh).val = .ok vs :=
  C90_rCIP Lib.rounded_ordered (Lib.rounded_invShape 2) (by decide) rfl _ specks_dim vs

example (r : F64 .rounded) : (batchCall 2 .rCIP (mirror (fun _ => true) specks) [] ((mod (F64 .rounded) .rCIP).fresh)).val = .ok r ↔
    (batchCall 2 .rCIP specks [] ((mod (F64 .rounded) .rCIP).fresh)).val = .ok r :=
  C90_rCIP_batch Lib.rounded_ordered (Lib.rounded_invShape 2) (by decide) _ [] specks_dim (by simp) (by rw [specks_order]; decide) _ rfl r

end
end Verif.Gen
