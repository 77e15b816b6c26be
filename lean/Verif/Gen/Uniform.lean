import Verif.Gen.All
import Verif.Gen.RefXB
import Verif.Gen.RefCH
import Verif.Gen.RefDB
import Verif.Gen.RefPS
import Verif.Gen.RefCSIL
import Verif.Gen.RefRCIP

/-! # The nine refinements under one name -/

namespace Verif.Gen
open Py

variable {F : Type} [Arith F] {d : ℕ}

/-- The attributes of an object of class `I` after the samples `S`. -/
def Held (I : Index) (d : ℕ) (S : Samples F) (s : Core F) : Prop :=
  match I with
  | .CH | .WB => RepSep d S s
  | .DB => RepDB d S s
  | .PS => RepPS d S s
  | .cSIL => RepSil d S s
  | .rCIP => RepG d S s
  | I => RepD d I S s

theorem refines {I : Index} (hI : I ≠ .rCIP) : Refines d (mod F I) (Held I d) fun S r => r = value d I S := by
  cases I with
  | CH => exact CH.refines
  | WB => exact WB.refines
  | XB => exact XB.refines
  | DB => exact DB.refines
  | GD43 => exact GD43.refines
  | GD53 => exact GD53.refines
  | PS => exact PS.refines
  | rCIP => exact absurd rfl hI
  | cSIL => exact CSIL.refines

theorem refinesE (I : Index) (hi : I = .rCIP → InvShape F d) :
    RefinesE d (mod F I) (Held I d) (Returns d I) fun S e => I = .rCIP ∧ LibRaises d (Summed d S) e := by
  by_cases h : I = .rCIP
  · subst h
    have := RCIP.refines (hi rfl)
    refine ⟨this.concrete, fun S s x c h1 h2 h3 => ?_, this.eval⟩
    rcases this.step S s x c h1 h2 h3 with h | ⟨e, s', h, hE⟩
    · exact Or.inl h
    · exact Or.inr ⟨e, s', h, rfl, hE⟩
  · have := (refines (F := F) (d := d) h).toE fun S e => I = .rCIP ∧ LibRaises d (Summed d S) e
    have e : (Returns d I : Samples F → F → Prop) = fun S r => r = value d I S := by
      funext S r
      cases I <;> first | rfl | exact absurd rfl h
    rw [e]
    exact this

theorem held_nv {I : Index} {S : Samples F} {s : Core F} (h : Held I d S s) : NV d S s := by
  cases I with
  | CH => exact RepSep.toCommon h |>.nv
  | WB => exact RepSep.toCommon h |>.nv
  | XB => exact RepD.toCommon h |>.nv
  | DB => exact (RepDB.toRepD h).toCommon.nv
  | GD43 => exact RepD.toCommon h |>.nv
  | GD53 => exact RepD.toCommon h |>.nv
  | PS => exact RepPS.nv h
  | rCIP => exact (RepG.toMidG h).nv
  | cSIL =>
    have t := RepSil.tables h
    refine ⟨t.dim, t.k, ?_, ?_⟩
    · rw [t.n]; congr 1; exact List.map_congr_left fun c _ => (Sil.of_nv _).1
    · rw [t.v]; congr 1; exact List.map_congr_left fun c _ => (Sil.of_nv _).2

theorem held_nSamples {I : Index} {S : Samples F} {s : Core F} (h : Held I d S s) : s.nSamples = S.length := by
  cases I with
  | CH => exact RepSep.toCommon h |>.nSamples
  | WB => exact RepSep.toCommon h |>.nSamples
  | XB => exact RepD.toCommon h |>.nSamples
  | DB => exact (RepDB.toRepD h).toCommon.nSamples
  | GD43 => exact RepD.toCommon h |>.nSamples
  | GD53 => exact RepD.toCommon h |>.nSamples
  | PS => exact RepPS.nSamples h
  | rCIP => exact RepG.nSamples h
  | cSIL => exact RepSil.nSamples h

/-- The classes that keep `CP`, `G` and `mu` in the same way. -/
def Common6 (I : Index) : Prop := I = .CH ∨ I = .WB ∨ I = .XB ∨ I = .DB ∨ I = .GD43 ∨ I = .GD53

theorem held_common {I : Index} (hI : Common6 I) {S : Samples F} {s : Core F} (h : Held I d S s) : Common d S s := by
  rcases hI with rfl | rfl | rfl | rfl | rfl | rfl
  · exact RepSep.toCommon h
  · exact RepSep.toCommon h
  · exact RepD.toCommon h
  · exact (RepDB.toRepD h).toCommon
  · exact RepD.toCommon h
  · exact RepD.toCommon h

/-- The classes with a table of distances. -/
def Tabled (I : Index) : Prop := I = .XB ∨ I = .DB ∨ I = .GD43 ∨ I = .GD53 ∨ I = .PS

theorem held_table {I : Index} (hI : Tabled I) {S : Samples F} {s : Core F} (h : Held I d S s) :
    s.D = sqMat (order S) (table I S) := by
  rcases hI with rfl | rfl | rfl | rfl | rfl
  · exact RepD.D h
  · exact (RepDB.toRepD h).D
  · exact RepD.D h
  · exact RepD.D h
  · exact RepPS.D h

/-- What a successful stream leaves behind. -/
theorem after {I : Index} (hi : I = .rCIP → InvShape F d) {S : Samples F} (hS : S.Dim d) (hne : S ≠ []) {vs : List F}
    {o : Obj F} (h : Verif.feed (mod F I) S (mod F I).fresh = .ok vs o) :
    o.labelMap = mapOf (order S) ∧ Held I d S o.core ∧ List.Forall₂ (Returns d I) S.inits.tail vs := by
  rcases (refinesE I hi).run hS with ⟨vs', o', h1, h2, h3⟩ | ⟨e, o', h1, _⟩
  · rw [h] at h1
    injection h1 with e1 e2
    subst e1 e2
    rcases h3 with ⟨h3, _⟩ | ⟨_, h3, h4⟩
    · exact absurd h3 hne
    · exact ⟨h3, h4, h2⟩
  · rw [h] at h1; exact absurd h1 (by simp)

theorem run_value {I : Index} (hI : I ≠ .rCIP) {S : Samples F} (hS : S.Dim d) :
    ∃ o, Verif.feed (mod F I) S (mod F I).fresh = .ok (S.inits.tail.map (value d I)) o := by
  obtain ⟨vs, o, h1, h2, _⟩ := (refines (F := F) (d := d) hI).run hS
  refine ⟨o, ?_⟩
  rw [h1]
  congr 1
  rw [List.forall₂_iff_get] at h2
  obtain ⟨hl, hv⟩ := h2
  apply List.ext_getElem
  · rw [← hl]; simp
  · intro i hi1 hi2
    have := hv i (by omega) hi1
    simpa using this

omit [Arith F] in
theorem newer_swap {S : Samples F} {a b : ℤ} (hab : a ≠ b) (ha : a ∈ order S) : newer S b a = !newer S a b := by
  have e : (fun p : List F × ℤ => decide (p.2 = b ∨ p.2 = a)) = fun p => decide (p.2 = a ∨ p.2 = b) := by
    funext p; simp [or_comm]
  rw [newer, newer, e]
  cases h : S.reverse.find? fun p => decide (p.2 = a ∨ p.2 = b) with
  | none =>
    obtain ⟨x, hx⟩ := (mem_order S).mp ha
    have := List.find?_eq_none.mp h (x, a) (by simpa using hx)
    simp at this
  | some p =>
    have := List.find?_some h
    simp only [decide_eq_true_eq] at this
    rcases this with h | h
    · simp [h, hab]
    · simp [h, Ne.symm hab]

theorem table_symm {I : Index} {S : Samples F} {a b : ℤ} (ha : a ∈ order S) : table I S b a = table I S a b := by
  by_cases hab : a = b
  · rw [hab]
  · rw [table, table, if_neg hab, if_neg (Ne.symm hab), newer_swap hab ha]
    cases newer S a b <;> rfl

/-- The statistics' count is the number of samples. -/
theorem Stat.of_n (l : List (List F)) : (Stat.of l).n = l.length := by
  induction l using List.reverseRecOn with
  | nil => rfl
  | append_singleton l x ih =>
    by_cases e : l = []
    · subst e; rfl
    · rw [Stat.of_append _ e]; simp [Stat.more, ih]

omit [Arith F] in
theorem length_eq_sum_own (S : Samples F) : S.length = ((order S).map fun c => (own S c).length).sum := by
  induction S using List.reverseRecOn with
  | nil => rfl
  | append_singleton S p ih =>
    obtain ⟨x, c⟩ := p
    rw [List.length_append, ih]
    by_cases hc : c ∈ order S
    · rw [order_old S x hc]
      have hn := order_nodup S
      generalize order S = ks at hc hn
      induction ks with
      | nil => simp at hc
      | cons a ks ih2 =>
        have hn' := List.nodup_cons.mp hn
        simp only [List.map_cons, List.sum_cons]
        rcases List.mem_cons.mp hc with rfl | hc'
        · have : ks.map (fun a => (own (S ++ [(x, c)]) a).length) = ks.map fun a => (own S a).length :=
            List.map_congr_left fun a ha => by rw [own_append_ne (a := a) (c := c) S x fun e => hn'.1 (e ▸ ha)]
          rw [this, own_append_self]; simp; omega
        · have ha : a ≠ c := fun e => hn'.1 (e ▸ hc')
          rw [own_append_ne S x ha, ← ih2 hc' hn'.2]; simp; omega
    · have : (order S).map (fun a => (own (S ++ [(x, c)]) a).length) = (order S).map fun a => (own S a).length :=
        List.map_congr_left fun a ha => by rw [own_append_ne (a := a) (c := c) S x fun e => hc (e ▸ ha)]
      rw [order_new S x hc, List.map_append, List.sum_append, this, List.map_singleton, own_append_self,
        (own_eq_nil S).mpr hc]
      rfl

theorem mem_pairs {α : Type} {l : List α} {p : α × α} (h : p ∈ pairs l) : p.1 ∈ l ∧ p.2 ∈ l := by
  induction l with
  | nil => simp [pairs] at h
  | cons a l ih =>
    simp only [pairs, List.mem_append, List.mem_map] at h
    rcases h with ⟨b, hb, rfl⟩ | h
    · exact ⟨by simp, by simp [hb]⟩
    · exact ⟨by simp [(ih h).1], by simp [(ih h).2]⟩

end Verif.Gen
