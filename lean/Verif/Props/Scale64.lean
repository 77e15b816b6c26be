import Verif.Gen.B64Flag
import Verif.Props.AnyArithBatch
import Verif.Props.Mirror64

/-!
# C94: multiplying all data by a power of two

In exact arithmetic the values of all classes but rCIP do not depend on the unit of length (C24; GD43 does, and is multiplied by `1 / s`).
In floats a change of the unit changes the roundings, except when the factor is a power of two: then no bit of any value changes, as long
as no operation that the value depends on overflows or underflows.  Whether one does is computed along with the value (`Track`): numbers
carry a flag, and an operation sets it when its result is infinite although the operands are finite (and the divisor is not zero), or
when the result is below `2 ^ -1022` and inexact.
-/

namespace Verif.Gen
open Py

variable {d : ℕ}

/-! ## Any two arithmetics -/

section
variable {F G : Type} [Arith F] [Arith G]

omit [Arith F] in
/-- The `i`-th value of a run belongs to the first `i + 1` samples. -/
theorem inits_tail_get {α : Type} (f : Samples F → α) (S : Samples F) (i : ℕ) :
    (S.inits.tail.map f)[i]? = if i < S.length then some (f (S.take (i + 1))) else none := by
  rw [List.getElem?_map, List.getElem?_tail]
  split
  · rw [List.getElem?_eq_getElem (by rw [List.length_inits]; omega), List.getElem_inits]; rfl
  · rw [List.getElem?_eq_none (by rw [List.length_inits]; omega)]; rfl

theorem Units.Same.take {U : Units F G} {S : Samples F} {T : Samples G} (h : U.Same S T) (n : ℕ) : U.Same (S.take n) (T.take n) :=
  List.forall₂_take n h

/-- Whether a call in batch mode raises depends only on the labels. -/
theorem batch_outcome (I : Index) (hI : I ≠ .rCIP) {S : Samples F} {T : Samples G} {E : List (List F)} {E' : List (List G)}
    (hS : S.Dim d) (hE : ∀ x ∈ E, x.length = d) (hT : T.Dim d) (hE' : ∀ x ∈ E', x.length = d) (h : order T = order S)
    (hk : 1 < (order S).length) (o : Obj F) (ho : o.core.isSetup = false) (o' : Obj G) (ho' : o'.core.isSetup = false) :
    ((batchCall d I S E o).val = .ok (Batch.value d (order S).length (part S) (allRows S E) I) ∧
      (batchCall d I T E' o').val = .ok (Batch.value d (order S).length (part T) (allRows T E') I)) ∨
    ∃ e, (batchCall d I S E o).val = .error e ∧ (batchCall d I T E' o').val = .error e := by
  have hm : ∀ i : ℤ, (∃ x, (x, i) ∈ S) ↔ ∃ x, (x, i) ∈ T := fun i => by rw [← mem_order, ← mem_order, h]
  by_cases hp : I = .PS → ∃ i < (order S).length, ∃ x, (x, (i : ℤ)) ∈ S
  · left
    obtain ⟨s, h1, -⟩ := C70_batch I hI S E hS hE hk hp o ho
    obtain ⟨s', h2, -⟩ := C70_batch I hI T E' hT hE' (h ▸ hk) (fun e => by
      obtain ⟨i, hi, hx⟩ := hp e
      exact ⟨i, h ▸ hi, (hm i).mp hx⟩) o' ho'
    rw [h] at h2
    exact ⟨by rw [h1]; rfl, by rw [h2]; rfl⟩
  · right
    rw [Classical.not_imp] at hp
    obtain ⟨rfl, hp⟩ := hp
    have hp' : ∀ i < (order S).length, ∀ x, (x, (i : ℤ)) ∉ S := fun i hi x hx => hp ⟨i, hi, x, hx⟩
    exact ⟨_, C70_PS_raises S E hS hE hk hp' o ho, C70_PS_raises T E' hT hE' (h ▸ hk) (fun i hi x hx => by
      obtain ⟨y, hy⟩ := (hm i).mpr ⟨x, hx⟩
      exact hp' i (h ▸ hi) y hy) o' ho'⟩

end

/-! ## binary64 -/

open B64
variable {L : Lib} {P : Orders}

/-- `b` is `a` multiplied by `2 ^ k`. -/
def By (k : ℤ) (a b : F64 L) : Prop := B64.Scaled k a b

/-- `T` is `S` with all data multiplied by `2 ^ k`. -/
def ScaledBy (k : ℤ) (S T : Samples (F64 L)) : Prop := List.Forall₂ (fun p q => List.Forall₂ (By k) p.1 q.1 ∧ p.2 = q.2) S T

theorem ScaledBy.order {k : ℤ} {S T : Samples (F64 L)} (h : ScaledBy k S T) : Gen.order T = Gen.order S := by
  have hm : T.map Prod.snd = S.map Prod.snd := by
    unfold ScaledBy at h
    induction h with
    | nil => rfl
    | cons h _ ih => rw [List.map_cons, List.map_cons, ih, h.2]
  rw [Gen.order, Gen.order, hm]

theorem ScaledBy.dim {k : ℤ} {S T : Samples (F64 L)} (h : ScaledBy k S T) (hS : S.Dim d) : T.Dim d := by
  unfold ScaledBy at h
  induction h with
  | nil => exact hS
  | cons h _ ih =>
    intro p hp
    rcases List.mem_cons.mp hp with rfl | hp
    · rw [← List.Forall₂.length_eq h.1]; exact hS _ List.mem_cons_self
    · exact ih (fun p hp => hS p (List.mem_cons_of_mem _ hp)) p hp

/-- The number without its flag, and the flag. -/
def Track.num (L : Lib) (x : Track P) : F64 L := Flagged.val x
def Track.hit (x : Track P) : Bool := Flagged.flag x

/-- Data without flags. -/
def clean (P : Orders) (x : List (F64 L)) : List (Track P) := x.map fun a => (⟨a, false⟩ : Flagged)
def cleanAll (P : Orders) (S : Samples (F64 L)) : Samples (Track P) := S.map fun p => (clean P p.1, p.2)

/-- No operation that the value depends on overflows or underflows.  cSIL first tests whether its matrix has an entry other than zero; so
its value depends on the whole matrix. -/
def Quiet (P : Orders) (d : ℕ) (I : Index) (S : Samples (F64 L)) : Prop :=
  Track.hit (value d I (cleanAll P S)) = false ∧
    (I = .cSIL → ∀ a ∈ order S, ∀ b ∈ order S, Track.hit (cell (cleanAll P S) a b) = false)

/-- The same for a batch; `E` are rows without labels. -/
def QuietBatch (P : Orders) (d : ℕ) (I : Index) (S : Samples (F64 L)) (E : List (List (F64 L))) : Prop :=
  Track.hit (Batch.value d (order S).length (part (cleanAll P S)) (allRows (cleanAll P S) (E.map (clean P))) I) = false ∧
    (I = .cSIL → ∀ i < (order S).length, ∀ j < (order S).length, Track.hit (Batch.cell d (part (cleanAll P S)) j i) = false)

theorem clean_is (x : List (F64 L)) : List.Forall₂ Track.Is (clean P x) x := by
  induction x with
  | nil => exact .nil
  | cons a x ih => exact .cons rfl ih

theorem cleanAll_same (hL : L.Follows P) (S : Samples (F64 L)) : (Track.forget hL).Same (cleanAll P S) S := by
  induction S with
  | nil => exact .nil
  | cons p S ih => exact .cons ⟨clean_is p.1, rfl⟩ ih

theorem clean_scales {k : ℤ} {x y : List (F64 L)} (h : List.Forall₂ (By k) x y) : (Track.scale P k).Vec 1 (clean P x) (clean P y) := by
  induction h with
  | nil => exact .nil
  | cons h _ ih => exact .cons (fun _ _ => (one_mul k).symm ▸ h) ih

theorem cleanAll_scales {k : ℤ} {S T : Samples (F64 L)} (h : ScaledBy k S T) : (Track.scale P k).Same (cleanAll P S) (cleanAll P T) := by
  unfold ScaledBy at h
  induction h with
  | nil => exact .nil
  | cons h _ ih => exact .cons ⟨clean_scales h.1, h.2⟩ ih

theorem cleanAll_order (S : Samples (F64 L)) : order (cleanAll P S) = order S := by
  rw [order, order, cleanAll, List.map_map]; rfl

theorem cleanAll_dim {S : Samples (F64 L)} (hS : S.Dim d) : (cleanAll P S).Dim d := by
  intro p hp
  obtain ⟨q, hq, rfl⟩ := List.mem_map.mp hp
  exact (List.length_map _).trans (hS q hq)

theorem cleanAll_take (S : Samples (F64 L)) (n : ℕ) : cleanAll P (S.take n) = (cleanAll P S).take n := List.map_take

/-- The test in cSIL has the same outcome with and without flags. -/
theorem forget_live (hL : L.Follows P) (S : Samples (F64 L)) : Units.live (cleanAll P S) = Units.live S := by
  have h := cleanAll_same hL S
  rw [Units.live, Units.live, cleanAll_order]
  congr 1
  funext a
  congr 1
  funext b
  exact congrArg B64.truthy (h.cell a b)

theorem forget_value (hL : L.Follows P) (I : Index) (S : Samples (F64 L)) : Track.num L (value d I (cleanAll P S)) = value d I S :=
  (cleanAll_same hL S).value d I fun _ => forget_live hL S

/-- The flags come out of the same program: running it on numbers with flags and forgetting them gives the values in binary64. -/
theorem C94_flags (hL : L.Follows P) (I : Index) (hI : I ≠ .rCIP) (S : Samples (F64 L)) (hS : S.Dim d) :
    ∃ vs, (feed (mod (Track P) I) (cleanAll P S) (mod (Track P) I).fresh).val = .ok vs ∧
      (feed (mod (F64 L) I) S (mod (F64 L) I).fresh).val = .ok (vs.map (Track.num L)) ∧
      ∀ i < S.length, vs[i]? = some (value d I (cleanAll P (S.take (i + 1)))) := by
  refine ⟨_, C62_every_arithmetic I hI _ (cleanAll_dim hS), ?_, fun i hi => ?_⟩
  · rw [C62_every_arithmetic I hI S hS]
    congr 1
    apply List.ext_getElem?
    intro i
    rw [inits_tail_get, List.getElem?_map, inits_tail_get, cleanAll, List.length_map]
    split
    · exact congrArg some ((forget_value (d := d) hL I (S.take (i + 1))).symm.trans (by rw [cleanAll_take]; rfl))
    · rfl
  · rw [inits_tail_get, if_pos (by rw [cleanAll, List.length_map]; exact hi), cleanAll_take]

theorem scaled_value (hL : L.Follows P) {k : ℤ} (I : Index) {S T : Samples (F64 L)} (h : ScaledBy k S T) (hq : Quiet P d I S)
    (hq' : Quiet P d I T) : By (if I = .GD43 then -k else 0) (value d I S) (value d I T) := by
  have hs := cleanAll_scales (P := P) h
  have ho := h.order
  have hl : I = .cSIL → Units.live (cleanAll P S) = Units.live (cleanAll P T) := by
    intro e
    rw [Units.live, Units.live, cleanAll_order, cleanAll_order, ho]
    refine Bool.eq_iff_iff.mpr ?_
    simp only [List.any_eq_true]
    have key : ∀ a ∈ order S, ∀ b ∈ order S, Arith.truthy (cell (cleanAll P S) a b) = Arith.truthy (cell (cleanAll P T) a b) :=
      fun a ha b hb => (hs.cell a b (hq.2 e a ha b hb) (hq'.2 e a (ho ▸ ha) b (ho ▸ hb))).truthy
    constructor
    · rintro ⟨a, ha, b, hb, ht⟩
      exact ⟨a, ha, b, hb, key a ha b hb ▸ ht⟩
    · rintro ⟨a, ha, b, hb, ht⟩
      exact ⟨a, ha, b, hb, (key a ha b hb).symm ▸ ht⟩
  have := hs.value d I hl hq.1 hq'.1
  have hw : Units.valueDim I * k = if I = .GD43 then -k else 0 := by cases I <;> simp [Units.valueDim]
  rw [← forget_value hL, ← forget_value hL, ← hw]
  exact this

/-- **C94**, incremental runs of all classes but rCIP.  Multiplying all data by `2 ^ k` raises nothing, and multiplies the `i`-th value by
`2 ^ -k` for GD43 and by one for the other classes, if neither value depends on an overflow or underflow. -/
theorem C94_incremental (hL : L.Follows P) (k : ℤ) (I : Index) (hI : I ≠ .rCIP) (S T : Samples (F64 L)) (hS : S.Dim d) (h : ScaledBy k S T) :
    ∃ vs ws, (feed (mod (F64 L) I) S (mod (F64 L) I).fresh).val = .ok vs ∧ (feed (mod (F64 L) I) T (mod (F64 L) I).fresh).val = .ok ws ∧
      vs.length = S.length ∧ ws.length = S.length ∧
      ∀ i v w, vs[i]? = some v → ws[i]? = some w → Quiet P d I (S.take (i + 1)) → Quiet P d I (T.take (i + 1)) →
        By (if I = .GD43 then -k else 0) v w := by
  have hT : T.Dim d := h.dim hS
  refine ⟨_, _, C62_every_arithmetic I hI S hS, C62_every_arithmetic I hI T hT, by simp, by simp [List.Forall₂.length_eq h], ?_⟩
  intro i v w hv hw hq hq'
  rw [inits_tail_get] at hv hw
  split at hv
  · split at hw
    · injection hv with hv
      injection hw with hw
      subst hv hw
      exact scaled_value hL I (List.forall₂_take _ h) hq hq'
    · cases hw
  · cases hv

/-- The classes other than GD43 and rCIP, when nothing overflows or underflows: not a bit changes. -/
theorem C94_bits (hL : L.Follows P) (k : ℤ) (I : Index) (hI : I ≠ .rCIP) (hI' : I ≠ .GD43) (S T : Samples (F64 L)) (hS : S.Dim d)
    (h : ScaledBy k S T) (hq : ∀ n, Quiet P d I (S.take n)) (hq' : ∀ n, Quiet P d I (T.take n)) :
    (feed (mod (F64 L) I) T (mod (F64 L) I).fresh).val = (feed (mod (F64 L) I) S (mod (F64 L) I).fresh).val := by
  obtain ⟨vs, ws, h1, h2, h3, h4, h5⟩ := C94_incremental hL k I hI S T hS h
  rw [h1, h2]
  congr 1
  apply List.ext_getElem (h4.trans h3.symm)
  intro i hw hv
  have := h5 i _ _ (List.getElem?_eq_getElem hv) (List.getElem?_eq_getElem hw) (hq _) (hq' _)
  rw [if_neg hI'] at this
  exact (scaled_zero.mp this).symm

theorem cleanAll_part (S : Samples (F64 L)) (hL : L.Follows P) (i : ℕ) :
    List.Forall₂ ((Track.forget hL).Vec 1) (part (cleanAll P S) i) (part S i) := (cleanAll_same hL S).own i

theorem cleanAll_rows (S : Samples (F64 L)) (E : List (List (F64 L))) (hL : L.Follows P) :
    List.Forall₂ ((Track.forget hL).Vec 1) (allRows (cleanAll P S) (E.map (clean P))) (allRows S E) := by
  refine List.rel_append (cleanAll_same hL S).rows ?_
  induction E with
  | nil => exact .nil
  | cons x E ih => exact .cons (clean_is x) ih

theorem forget_batch (hL : L.Follows P) (I : Index) (k : ℕ) (S : Samples (F64 L)) (E : List (List (F64 L))) :
    Track.num L (Batch.value d k (part (cleanAll P S)) (allRows (cleanAll P S) (E.map (clean P))) I) =
      Batch.value d k (part S) (allRows S E) I := by
  refine Units.batch_value (U := Track.forget hL) d k (cleanAll_part S hL) (cleanAll_rows S E hL) I fun _ => ?_
  rw [Units.batchLive, Units.batchLive]
  congr 1
  funext a
  congr 1
  funext b
  exact congrArg B64.truthy (Units.batch_cell (U := Track.forget hL) d (cleanAll_part S hL) a b)

/-- **C94**, batches of all classes but rCIP; rows `E` without labels are allowed. -/
theorem C94_batch (hL : L.Follows P) (k : ℤ) (I : Index) (hI : I ≠ .rCIP) (S T : Samples (F64 L)) (E E' : List (List (F64 L))) (hS : S.Dim d)
    (hE : ∀ x ∈ E, x.length = d) (h : ScaledBy k S T) (h' : List.Forall₂ (List.Forall₂ (By k)) E E') (hk : 1 < (order S).length)
    (o : Obj (F64 L)) (ho : o.core.isSetup = false) (hq : QuietBatch P d I S E) (hq' : QuietBatch P d I T E') :
    (∃ v w, (batchCall d I S E o).val = .ok v ∧ (batchCall d I T E' o).val = .ok w ∧ By (if I = .GD43 then -k else 0) v w) ∨
      ∃ e, (batchCall d I S E o).val = .error e ∧ (batchCall d I T E' o).val = .error e := by
  have hE' : ∀ x ∈ E', x.length = d := by
    clear hq hq'
    induction h' with
    | nil => exact hE
    | cons hx _ ih =>
      intro y hy
      rcases List.mem_cons.mp hy with rfl | hy
      · rw [← List.Forall₂.length_eq hx]; exact hE _ List.mem_cons_self
      · exact ih (fun x hx => hE x (List.mem_cons_of_mem _ hx)) y hy
  rcases batch_outcome I hI hS hE (h.dim hS) hE' h.order hk o ho o ho with ⟨h1, h2⟩ | h0
  · refine .inl ⟨_, _, h1, h2, ?_⟩
    have hs := cleanAll_scales (P := P) h
    have hp : ∀ i : ℕ, List.Forall₂ ((Track.scale P k).Vec 1) (part (cleanAll P S) i) (part (cleanAll P T) i) := fun i => hs.own i
    have hr : List.Forall₂ ((Track.scale P k).Vec 1) (allRows (cleanAll P S) (E.map (clean P))) (allRows (cleanAll P T) (E'.map (clean P))) := by
      refine List.rel_append hs.rows ?_
      clear hq hq' h1 h2 hE hE'
      induction h' with
      | nil => exact .nil
      | cons hx _ ih => exact .cons (clean_scales hx) ih
    have hl : I = .cSIL → Units.batchLive d (Gen.order S).length (part (cleanAll P S)) =
        Units.batchLive d (Gen.order S).length (part (cleanAll P T)) := by
      intro e
      have key : ∀ j ∈ List.range (Gen.order S).length, ∀ i ∈ List.range (Gen.order S).length,
          Arith.truthy (Batch.cell d (part (cleanAll P S)) j i) = Arith.truthy (Batch.cell d (part (cleanAll P T)) j i) :=
        fun j hj i hi => (Units.batch_cell (U := Track.scale P k) d hp j i (hq.2 e i (List.mem_range.mp hi) j (List.mem_range.mp hj))
          (hq'.2 e i (h.order ▸ List.mem_range.mp hi) j (h.order ▸ List.mem_range.mp hj))).truthy
      rw [Units.batchLive, Units.batchLive]
      refine Bool.eq_iff_iff.mpr ?_
      simp only [List.any_eq_true]
      constructor
      · rintro ⟨a, ha, b, hb, ht⟩
        exact ⟨a, ha, b, hb, key a ha b hb ▸ ht⟩
      · rintro ⟨a, ha, b, hb, ht⟩
        exact ⟨a, ha, b, hb, (key a ha b hb).symm ▸ ht⟩
    have hq2 := hq'.1
    rw [h.order] at hq2
    have := Units.batch_value (U := Track.scale P k) d _ hp hr I hl hq.1 hq2
    have hw : Units.valueDim I * k = if I = .GD43 then -k else 0 := by cases I <;> simp [Units.valueDim]
    rw [← forget_batch hL, ← forget_batch hL, ← hw]
    exact this
  · exact .inr h0

/-! ## Multiplying the data -/

/-- `X * c` -/
def times (c : F64 L) (S : Samples (F64 L)) : Samples (F64 L) := S.map fun p => (p.1.map fun a => a * c, p.2)

theorem mul_scaled {k : ℤ} {a : B64} {n : ℕ} (ha : Rep a) (hn : (n : ℚ) = unit * 2 ^ k) (h : mulSignals a (fin false n) = false) :
    B64.Scaled k a (B64.mul a (fin false n)) := by
  cases a with
  | fin s m =>
    obtain ⟨h1, h2⟩ := ha
    have hu : (0 : ℚ) < unit := by exact_mod_cast unit_pos
    have hm : signals m 1 = false := by simp [signals, h1, h2, Nat.mod_one]
    have e : ofMag s m 1 = fin s m := by rw [ofMag, h1, if_pos h2]
    have := scaled_ofMag (s := s) (a := m) (b := 1) (a' := m * n) (b' := unit) (j := k) one_pos unit_pos
      (by push_cast; rw [hn]; field_simp) hm h
    rw [e] at this
    simpa [B64.mul] using this
  | inf => exact ha.elim
  | nan => exact ha.elim

/-- Multiplying representable data by the float `2 ^ k` scales them exactly, unless a product overflows, or is inexact below `2 ^ -1022`. -/
theorem C94_times {k : ℤ} {n : ℕ} (hn : (n : ℚ) = unit * 2 ^ k) (S : Samples (F64 L))
    (hS : ∀ p ∈ S, ∀ a ∈ p.1, Rep a ∧ mulSignals a (fin false n) = false) : ScaledBy k S (times (fin false n) S) := by
  unfold ScaledBy times
  rw [List.forall₂_map_right_iff, List.forall₂_same]
  refine fun p hp => ⟨?_, rfl⟩
  rw [List.forall₂_map_right_iff, List.forall₂_same]
  exact fun a ha => mul_scaled (hS p hp a ha).1 hn (hS p hp a ha).2

/-! ## A library, and cases -/

section
/-- Adding from left to right, with the given exponential function. -/
def Orders.left (e : B64 → B64) : Orders where
  exp := e
  npSum := Gen.left
  rowSum := Gen.left
  colSum := Gen.left
  sum2 l := Gen.left l.sum
  dot m n := leftDot (min m n)

def Lib.left (e : B64 → B64) : Lib := { Lib.plain with exp := e }

theorem Lib.left_follows (e : B64 → B64) : (Lib.left e).Follows (.left e) where
  exp := rfl
  npSum l := by rw [Orders.left, left_run l _ le_rfl, List.take_length]; rfl
  rowSum l := by rw [Orders.left, left_run l _ le_rfl, List.take_length]; rfl
  colSum l := by rw [Orders.left, left_run l _ le_rfl, List.take_length]; rfl
  sum2 l := by
    show total l.flatten = (Gen.left (l.map List.length).sum).run l.flatten
    rw [← List.length_flatten, left_run _ _ le_rfl, List.take_length]
  dot a b := leftDot_zip a b

/-- An exponential function for the examples: `1 / (1 - x)`. -/
def roughly (x : B64) : B64 := B64.div (B64.ofNat 1) (B64.sub (B64.ofNat 1) x)

abbrev Rough := F64 (.left roughly)
abbrev roughOrders := Orders.left roughly

def splash : Samples Rough :=
  [([B64.ofNat 1, B64.ofNat 2], 2), ([B64.ofNat 2, B64.ofNat 5], 2), ([B64.ofNat 9, B64.ofNat 4], 0), ([B64.ofNat 7, B64.ofNat 7], 1),
    ([B64.ofNat 8, B64.ofNat 1], 0), ([B64.ofNat 9, B64.ofNat 5], 1)]

theorem splash_dim : splash.Dim 2 := by
  intro p hp
  simp only [splash, List.mem_cons, List.not_mem_nil, or_false] at hp
  rcases hp with rfl | rfl | rfl | rfl | rfl | rfl <;> rfl

/-- `2 ^ -20` -/
def micro : ℕ := 2 ^ 1054

theorem micro_eq : ((micro : ℕ) : ℚ) = unit * 2 ^ (-20 : ℤ) := by
  have h (t u : ℕ) (h : u = t + 20) : ((2 ^ t : ℕ) : ℚ) = (2 ^ u : ℕ) * 2 ^ (-20 : ℤ) := by
    rw [h, pow_add, zpow_neg]
    push_cast
    rw [mul_assoc]
    norm_num
  unfold micro unit
  exact h _ _ rfl

theorem splash_scaled : ScaledBy (-20) splash (times (fin false micro) splash) := by
  refine C94_times micro_eq splash ?_
  have h : ∀ n ∈ [1, 2, 4, 5, 7, 8, 9], (rndMag (unit * n) 1 = unit * n ∧ unit * n < limit) ∧
      mulSignals (fin false (unit * n)) (fin false micro) = false ∧ B64.ofNat n = fin false (unit * n) := by decide +kernel
  have g : ∀ n ∈ [1, 2, 4, 5, 7, 8, 9], Rep (B64.ofNat n) ∧ mulSignals (B64.ofNat n) (fin false micro) = false :=
    fun n hn => by rw [(h n hn).2.2]; exact ⟨(h n hn).1, (h n hn).2.1⟩
  intro p hp a ha
  simp only [splash, List.mem_cons, List.not_mem_nil, or_false] at hp
  rcases hp with rfl | rfl | rfl | rfl | rfl | rfl <;> rcases List.mem_cons.mp ha with rfl | ha <;>
    first
    | exact g _ (by decide)
    | (rw [List.mem_singleton.mp ha]; exact g _ (by decide))

instance (d : ℕ) (I : Index) (S : Samples (F64 L)) : Decidable (Quiet P d I S) := by unfold Quiet; infer_instance
instance (d : ℕ) (I : Index) (S : Samples (F64 L)) (E : List (List (F64 L))) : Decidable (QuietBatch P d I S E) := by
  unfold QuietBatch; infer_instance

theorem splash_quiet : ∀ I ∈ [Index.XB, .CH, .WB, .DB, .PS, .cSIL, .GD43, .GD53],
    Quiet roughOrders 2 I splash ∧ Quiet roughOrders 2 I (times (fin false micro) splash) := by decide +kernel

/-- All classes but rCIP give the same bits for the data and for the data times `2 ^ -20`; GD43 gives a value times `2 ^ 20`. -/
example (I : Index) (hI : I ≠ .rCIP) :
    ∃ vs ws v w, (feed (mod Rough I) splash (mod Rough I).fresh).val = .ok vs ∧
      (feed (mod Rough I) (times (fin false micro) splash) (mod Rough I).fresh).val = .ok ws ∧ vs[5]? = some v ∧ ws[5]? = some w ∧
      By (if I = .GD43 then 20 else 0) v w := by
  obtain ⟨vs, ws, h1, h2, h3, h4, h5⟩ := C94_incremental (Lib.left_follows roughly) (-20) I hI _ _ splash_dim splash_scaled
  have hm : I ∈ [Index.XB, .CH, .WB, .DB, .PS, .cSIL, .GD43, .GD53] := by cases I <;> first | exact absurd rfl hI | decide
  have e3 : vs[5]? = some (vs[5]'(by rw [h3]; decide)) := List.getElem?_eq_getElem _
  have e4 : ws[5]? = some (ws[5]'(by rw [h4]; decide)) := List.getElem?_eq_getElem _
  exact ⟨vs, ws, _, _, h1, h2, e3, e4, h5 5 _ _ e3 e4 (splash_quiet I hm).1 (splash_quiet I hm).2⟩

theorem splash_quiet_batch : ∀ I ∈ [Index.XB, .CH, .WB, .DB, .PS, .cSIL, .GD43, .GD53],
    QuietBatch roughOrders 2 I splash [] ∧ QuietBatch roughOrders 2 I (times (fin false micro) splash) [] := by decide +kernel

example (I : Index) (hI : I ≠ .rCIP) :
    (∃ v w, (batchCall 2 I splash [] (mod Rough I).fresh).val = .ok v ∧
      (batchCall 2 I (times (fin false micro) splash) [] (mod Rough I).fresh).val = .ok w ∧ By (if I = .GD43 then 20 else 0) v w) ∨
    ∃ e, (batchCall 2 I splash [] (mod Rough I).fresh).val = .error e ∧
      (batchCall 2 I (times (fin false micro) splash) [] (mod Rough I).fresh).val = .error e := by
  have hm : I ∈ [Index.XB, .CH, .WB, .DB, .PS, .cSIL, .GD43, .GD53] := by cases I <;> first | exact absurd rfl hI | decide
  exact C94_batch (Lib.left_follows roughly) (-20) I hI _ _ [] [] splash_dim (by simp) splash_scaled .nil (by decide) _ (by cases I <;> rfl)
    (splash_quiet_batch I hm).1 (splash_quiet_batch I hm).2

/-- The values in question are numbers other than zero. -/
example : ∀ I ∈ [Index.XB, .CH, .WB, .DB, .PS, .cSIL, .GD43, .GD53],
    B64.truthy (value (F := Rough) 2 I splash) = true ∧ (match value (F := Rough) 2 I splash with | fin _ _ => true | _ => false) = true := by
  decide +kernel

/-! ## Without the condition, or with another factor -/

def onLine (l : List (ℕ × ℤ)) : Samples (F64 .plain) := l.map fun p => ([B64.ofNat p.1], p.2)

theorem onLine_dim (l : List (ℕ × ℤ)) : (onLine l).Dim 1 := by
  intro p hp
  obtain ⟨q, -, rfl⟩ := List.mem_map.mp hp
  rfl

theorem feed_ne {I : Index} (hI : I ≠ .rCIP) {S T : Samples (F64 L)} (hS : S.Dim d) (hT : T.Dim d) (hl : T.length = S.length) (i : ℕ)
    (hi : i < S.length) (hv : value d I (T.take (i + 1)) ≠ value d I (S.take (i + 1))) :
    (feed (mod (F64 L) I) T (mod (F64 L) I).fresh).val ≠ (feed (mod (F64 L) I) S (mod (F64 L) I).fresh).val := by
  rw [C62_every_arithmetic I hI S hS, C62_every_arithmetic I hI T hT]
  intro e
  have := congrArg (fun l => l[i]?) (Except.ok.inj e)
  simp only [inits_tail_get, hl, if_pos hi] at this
  exact hv (Option.some.inj this)

theorem times_dim {c : F64 L} {S : Samples (F64 L)} (hS : S.Dim d) : (times c S).Dim d := by
  intro p hp
  obtain ⟨q, hq, rfl⟩ := List.mem_map.mp hp
  exact (List.length_map _).trans (hS q hq)

/-- The conditions are needed: XB of 1, 3 | 6 is `0.042`; the same data times `2 ^ -600` are floats too, but all squares vanish, and XB
is nan. -/
theorem C94_underflow : ∃ S T : Samples (F64 .plain), S.Dim 1 ∧ ScaledBy (-600) S T ∧
    (feed (mod (F64 .plain) .XB) T (mod (F64 .plain) .XB).fresh).val ≠ (feed (mod (F64 .plain) .XB) S (mod (F64 .plain) .XB).fresh).val := by
  have h600 (s t u : ℕ) (h : u = t + s) : ((2 ^ t : ℕ) : ℚ) = (2 ^ u : ℕ) * 2 ^ (-(s : ℤ)) := by
    rw [h, pow_add, zpow_neg, zpow_natCast]
    push_cast
    rw [mul_assoc, mul_inv_cancel₀ (by positivity), mul_one]
  have hn : ((2 ^ 474 : ℕ) : ℚ) = unit * 2 ^ (-600 : ℤ) := by
    unfold unit
    exact h600 600 _ _ rfl
  have h : ∀ n ∈ [1, 3, 6], (rndMag (unit * n) 1 = unit * n ∧ unit * n < limit) ∧
      mulSignals (fin false (unit * n)) (fin false (2 ^ 474)) = false ∧ B64.ofNat n = fin false (unit * n) := by decide +kernel
  have g : ∀ n ∈ [1, 3, 6], Rep (B64.ofNat n) ∧ mulSignals (B64.ofNat n) (fin false (2 ^ 474)) = false :=
    fun n hn => by rw [(h n hn).2.2]; exact ⟨(h n hn).1, (h n hn).2.1⟩
  refine ⟨onLine [(1, 0), (3, 0), (6, 1)], times (fin false (2 ^ 474)) (onLine [(1, 0), (3, 0), (6, 1)]), onLine_dim _, C94_times hn _ ?_, ?_⟩
  · intro p hp a ha
    simp only [onLine, List.map_cons, List.map_nil, List.mem_cons, List.not_mem_nil, or_false] at hp
    rcases hp with rfl | rfl | rfl <;> rw [List.mem_singleton.mp ha] <;> exact g _ (by decide)
  · exact feed_ne (by decide) (onLine_dim _) (times_dim (onLine_dim _)) rfl 2 (by decide) (by decide +kernel)

/-- Other factors change bits: XB of 1, 1, 2 | 3, and of the same data times 3. -/
theorem C94_three :
    (feed (mod (F64 .plain) .XB) (times (B64.ofNat 3) (onLine [(1, 0), (1, 0), (2, 0), (3, 1)])) (mod (F64 .plain) .XB).fresh).val ≠
      (feed (mod (F64 .plain) .XB) (onLine [(1, 0), (1, 0), (2, 0), (3, 1)]) (mod (F64 .plain) .XB).fresh).val := by
  exact feed_ne (by decide) (onLine_dim _) (times_dim (onLine_dim _)) rfl 3 (by decide) (by decide +kernel)

end

end Verif.Gen
