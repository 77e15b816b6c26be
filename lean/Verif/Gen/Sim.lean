import Verif.Gen.Spec
import Verif.Gen.Link
import Verif.Api
import Verif.Proofs.Sim

/-!
# Streams in any arithmetic: bookkeeping

How `own`, `stat`, `order`, `newer`, `mu`, `table` change with one more sample, and the step from one call to a stream.
-/

namespace Verif.Gen
open Py

variable {F : Type} {d : ℕ}

section
variable (S : Samples F) (x : List F) {a b c : ℤ}

theorem order_eq : order S = firstSeen (S.map Prod.snd) := rfl

theorem order_append : order (S ++ [(x, c)]) = addKey (order S) c := by simp [order_eq, firstSeen_append]

theorem order_nodup : (order S).Nodup := firstSeen_nodup _

theorem mem_order : c ∈ order S ↔ ∃ x, (x, c) ∈ S := by simp [order_eq, mem_firstSeen]

theorem order_new (h : c ∉ order S) : order (S ++ [(x, c)]) = order S ++ [c] := by rw [order_append, addKey_new h]
theorem order_old (h : c ∈ order S) : order (S ++ [(x, c)]) = order S := by rw [order_append, addKey_old h]

theorem own_append_self : own (S ++ [(x, c)]) c = own S c ++ [x] := by simp [own]
theorem own_append_ne (h : a ≠ c) : own (S ++ [(x, c)]) a = own S a := by simp [own, Ne.symm h]

theorem own_eq_nil : own S c = [] ↔ c ∉ order S := by
  rw [mem_order]
  simp only [own, List.map_eq_nil_iff, List.filter_eq_nil_iff, decide_eq_true_eq, Prod.forall, not_exists]
  constructor
  · intro h x hx; exact h x c hx rfl
  · rintro h x c' hx rfl; exact h x hx

theorem own_length (h : S.Dim d) (hx : x ∈ own S c) : x.length = d := by
  simp only [own, List.mem_map, List.mem_filter] at hx
  obtain ⟨p, ⟨hp, _⟩, rfl⟩ := hx
  exact h p hp

theorem newer_append : newer (S ++ [(x, c)]) a b = if c = a then true else if c = b then false else newer S a b := by
  simp only [newer, List.reverse_append, List.reverse_cons, List.reverse_nil, List.nil_append, List.cons_append,
    List.find?_cons]
  by_cases h1 : c = a
  · simp [h1]
  · by_cases h2 : c = b
    · subst h2; simp [h1]
    · simp [h1, h2]

end

theorem Samples.Dim.append {S : Samples F} {x : List F} {c : ℤ} (h : S.Dim d) (hx : x.length = d) :
    Samples.Dim d (S ++ [(x, c)]) := by
  intro p hp
  rcases List.mem_append.mp hp with hp | hp
  · exact h p hp
  · simp at hp; subst hp; exact hx

variable [Arith F]

section
variable (S : Samples F) (x : List F) {a b c : ℤ}

theorem Stat.of_append {l : List (List F)} (h : l ≠ []) : Stat.of (l ++ [x]) = (Stat.of l).more x := by
  cases l with
  | nil => exact absurd rfl h
  | cons y l => simp [Stat.of]

theorem stat_new (h : c ∉ order S) : stat (S ++ [(x, c)]) c = Stat.one x := by
  rw [stat, own_append_self, (own_eq_nil S).mpr h]; rfl

theorem stat_old (h : c ∈ order S) : stat (S ++ [(x, c)]) c = (stat S c).more x := by
  rw [stat, own_append_self, Stat.of_append]
  · rfl
  · intro e; exact (own_eq_nil S).mp e h

theorem stat_ne (h : a ≠ c) : stat (S ++ [(x, c)]) a = stat S a := by rw [stat, own_append_ne S x h]; rfl

theorem blend_length {n : ℕ} {v x : List F} (hv : v.length = d) (hx : x.length = d) : (blend n v x).length = d := by
  simp [blend, hv, hx]

theorem Stat.of_length {l : List (List F)} (h : l ≠ []) (hl : ∀ x ∈ l, x.length = d) :
    (Stat.of l).n = l.length ∧ (Stat.of l).v.length = d ∧ (Stat.of l).g.length = d := by
  induction l using List.reverseRecOn with
  | nil => exact absurd rfl h
  | append_singleton l x ih =>
    by_cases e : l = []
    · subst e
      have := hl x (by simp)
      simpa [Stat.of, Stat.one] using this
    · obtain ⟨h1, h2, h3⟩ := ih e fun y hy => hl y (by simp [hy])
      have hx := hl x (by simp)
      rw [Stat.of_append _ e]
      simp [Stat.more, h1, h2, h3, hx, blend_length]

theorem stat_n (h : c ∈ order S) (hd : S.Dim d) : (stat S c).n = (own S c).length :=
  (Stat.of_length (fun e => (own_eq_nil S).mp e h) fun x hx => own_length S x hd hx).1
theorem stat_n_pos (h : c ∈ order S) (hd : S.Dim d) : 0 < (stat S c).n := by
  rw [stat_n S h hd]
  exact List.length_pos_iff.mpr fun e => (own_eq_nil S).mp e h
theorem stat_v_length (h : c ∈ order S) (hd : S.Dim d) : (stat S c).v.length = d :=
  (Stat.of_length (fun e => (own_eq_nil S).mp e h) fun x hx => own_length S x hd hx).2.1
theorem stat_g_length (h : c ∈ order S) (hd : S.Dim d) : (stat S c).g.length = d :=
  (Stat.of_length (fun e => (own_eq_nil S).mp e h) fun x hx => own_length S x hd hx).2.2

theorem centre_append (n : ℕ) (v : List F) (l : List (List F)) :
    centre n v (l ++ [x]) = blend (n + l.length + 1) (centre n v l) x := by
  induction l generalizing n v with
  | nil => simp [centre]
  | cons y l ih => simp [centre, ih, Nat.add_comm, Nat.add_left_comm]

theorem mu_append (h : S ≠ []) : mu (S ++ [(x, c)]) = blend (S.length + 1) (mu S) x := by
  cases S with
  | nil => exact absurd rfl h
  | cons p S => simp [mu, centre_append, Nat.add_comm]

theorem mu_length (h : S ≠ []) (hd : S.Dim d) : (mu S).length = d := by
  induction S using List.reverseRecOn with
  | nil => exact absurd rfl h
  | append_singleton S p ih =>
    obtain ⟨x, c⟩ := p
    have hx : x.length = d := hd (x, c) (by simp)
    by_cases e : S = []
    · subst e; simpa [mu, centre] using hx
    · rw [mu_append S x e, blend_length (ih e fun p hp => hd p (by simp [hp])) hx]

theorem table_append_self {I : Index} (hb : b ≠ c) :
    table I (S ++ [(x, c)]) c b = between I (stat (S ++ [(x, c)]) c) (stat S b) := by
  rw [table, if_neg (Ne.symm hb), newer_append, if_pos rfl, if_pos rfl, stat_ne S x hb]

theorem table_append_self' {I : Index} (hb : b ≠ c) :
    table I (S ++ [(x, c)]) b c = between I (stat (S ++ [(x, c)]) c) (stat S b) := by
  rw [table, if_neg hb, newer_append, if_neg (Ne.symm hb), if_pos rfl, if_neg (by simp), stat_ne S x hb]

theorem table_append_ne {I : Index} (ha : a ≠ c) (hb : b ≠ c) : table I (S ++ [(x, c)]) a b = table I S a b := by
  simp only [table, newer_append, if_neg (Ne.symm ha), if_neg (Ne.symm hb), stat_ne S x ha, stat_ne S x hb]

theorem table_self {I : Index} : table I S a a = 0 := if_pos rfl

end

/-! ## From one call to a stream -/

/-- The attributes before the first sample, or after some samples `S`. -/
def Start (init : Core F) (R : Samples F → Core F → Prop) (S : Samples F) (s : Core F) : Prop :=
  (S = [] ∧ s = init) ∨ (S ≠ [] ∧ R S s)

/-- The object after the samples `S`. -/
def Inv (M : Module F) (R : Samples F → Core F → Prop) (S : Samples F) (o : Obj F) : Prop :=
  (S = [] ∧ o = M.fresh) ∨ (S ≠ [] ∧ o.labelMap = mapOf (order S) ∧ R S o.core)

/-- What has to be shown about a module. -/
structure Refines (d : ℕ) (M : Module F) (R : Samples F → Core F → Prop) (V : Samples F → F → Prop) : Prop where
  concrete : M.abstract = false
  step : ∀ (S : Samples F) (s : Core F) (x : List F) (c : ℤ), S.Dim d → x.length = d → Start M.init R S s →
    ∃ s', M.incBody x ((order S).idxOf c) s = .ok () s' ∧ R (S ++ [(x, c)]) s'
  eval : ∀ (S : Samples F) (s : Core F), S ≠ [] → S.Dim d → R S s →
    ∃ s', M.evaluate s = .ok () s' ∧ V S s'.criterion ∧ R S s'

omit [Arith F] in
theorem Refines.call {M : Module F} {R : Samples F → Core F → Prop} {V : Samples F → F → Prop} (h : Refines d M R V)
    {S : Samples F} {o : Obj F} (hI : Inv M R S o) {x : List F} (c : ℤ) (hS : S.Dim d) (hx : x.length = d) :
    ∃ r o', getCvi M (.d1 x) (.int c) o = .ok r o' ∧ V (S ++ [(x, c)]) r ∧ Inv M R (S ++ [(x, c)]) o' := by
  have hmap : o.labelMap = mapOf (order S) := by
    rcases hI with ⟨rfl, rfl⟩ | ⟨_, h, _⟩
    · rfl
    · exact h
  have hstart : Start M.init R S o.core := by
    rcases hI with ⟨rfl, rfl⟩ | ⟨h1, _, h2⟩
    · exact Or.inl ⟨rfl, rfl⟩
    · exact Or.inr ⟨h1, h2⟩
  obtain ⟨s1, h1, hR1⟩ := h.step S o.core x c hS hx hstart
  obtain ⟨s2, h2, hV, hR2⟩ := h.eval _ s1 (by simp) (hS.append hx) hR1
  refine ⟨s2.criterion, ⟨mapOf (order (S ++ [(x, c)])), s2⟩, ?_, hV, Or.inr ⟨by simp, rfl, hR2⟩⟩
  have e : M.update (.d1 x) (.int c) o = .ok () ⟨mapOf (order (S ++ [(x, c)])), s1⟩ := by
    simp [Module.update, Module.paramInc, h.concrete, hmap, getInternalLabel_mapOf, onCore, h1, Res.mapState, order_append]
  simp [getCvi, e, onCore, h2, Res.mapState]

omit [Arith F] in
/-- Feeding a whole stream. -/
theorem Refines.feed {M : Module F} {R : Samples F → Core F → Prop} {V : Samples F → F → Prop} (h : Refines d M R V)
    (T S : Samples F) (o : Obj F) (hI : Inv M R S o) (hS : S.Dim d) (hT : T.Dim d) :
    ∃ vs o', Verif.feed M T o = .ok vs o' ∧ List.Forall₂ V (T.inits.tail.map (S ++ ·)) vs ∧ Inv M R (S ++ T) o' := by
  induction T generalizing S o with
  | nil => exact ⟨[], o, rfl, by simp, by simpa using hI⟩
  | cons p T ih =>
    obtain ⟨x, c⟩ := p
    have hx : x.length = d := hT (x, c) (by simp)
    obtain ⟨r, o1, h1, hV, hI1⟩ := h.call hI c hS hx
    obtain ⟨vs, o2, h2, hvs, hI2⟩ := ih _ o1 hI1 (hS.append hx) fun p hp => hT p (by simp [hp])
    refine ⟨r :: vs, o2, ?_, ?_, by simpa using hI2⟩
    · simp [Verif.feed, h1, h2]
    · rw [inits_tail_cons]
      simp only [List.map_cons, List.map_map]
      refine .cons hV ?_
      have e : ((S ++ ·) ∘ ((x, c) :: ·) : Samples F → Samples F) = fun P => (S ++ [(x, c)]) ++ P := by
        funext P; simp
      rw [e]
      exact hvs

omit [Arith F] in
theorem Refines.run {M : Module F} {R : Samples F → Core F → Prop} {V : Samples F → F → Prop} (h : Refines d M R V)
    {S : Samples F} (hS : S.Dim d) :
    ∃ vs o', Verif.feed M S M.fresh = .ok vs o' ∧ List.Forall₂ V S.inits.tail vs ∧ Inv M R S o' := by
  simpa using h.feed S [] M.fresh (Or.inl ⟨rfl, rfl⟩) (fun _ h => absurd h (by simp)) hS

end Verif.Gen
