import Verif.Proofs.IncCommon

/-!
# From one-step refinement to whole streams
-/

namespace Verif
open Spec Py

variable {d : ℕ}

/-- The object after the samples `S`. -/
def Inv (M : Module) (R : Stream d → Core → Prop) (S : Stream d) (o : Obj) : Prop :=
  (S = [] ∧ o = M.fresh) ∨ (S ≠ [] ∧ o.labelMap = mapOf (keys S) ∧ R S o.core)

/-- What has to be shown about a module: its incremental update preserves `R`, and its evaluation
yields the specified value and preserves `R`. -/
structure Refines (M : Module) (R : Stream d → Core → Prop) (V : Stream d → XR) : Prop where
  concrete : M.abstract = false
  step : ∀ (S : Stream d) (s : Core) (x : Pt d) (c : ℤ), Start M.init R S s →
    ∃ s', M.incBody (enc x) ((keys S).idxOf c) s = .ok () s' ∧ R (S ++ [(x, c)]) s'
  eval : ∀ (S : Stream d) (s : Core), S ≠ [] → R S s → ∃ s', M.evaluate s = .ok () s' ∧ s'.criterion = V S ∧ R S s'

/-- One call of `get_cvi` in incremental mode. -/
theorem Refines.call {M : Module} {R : Stream d → Core → Prop} {V : Stream d → XR} (h : Refines M R V)
    {S : Stream d} {o : Obj} (hI : Inv M R S o) (x : Pt d) (c : ℤ) :
    ∃ o', getCvi M (.d1 (enc x)) (.int c) o = .ok (V (S ++ [(x, c)])) o' ∧ Inv M R (S ++ [(x, c)]) o' := by
  have hmap : o.labelMap = mapOf (keys S) := by
    rcases hI with ⟨rfl, rfl⟩ | ⟨_, h, _⟩
    · rfl
    · exact h
  have hstart : Start M.init R S o.core := by
    rcases hI with ⟨rfl, rfl⟩ | ⟨h1, _, h2⟩
    · exact Or.inl ⟨rfl, rfl⟩
    · exact Or.inr ⟨h1, h2⟩
  obtain ⟨s1, h1, hR1⟩ := h.step S o.core x c hstart
  obtain ⟨s2, h2, hV, hR2⟩ := h.eval _ s1 (by simp) hR1
  refine ⟨⟨mapOf (keys (S ++ [(x, c)])), s2⟩, ?_, Or.inr ⟨by simp, rfl, hR2⟩⟩
  have e : M.update (.d1 (enc x)) (.int c) o = .ok () ⟨mapOf (keys (S ++ [(x, c)])), s1⟩ := by
    simp [Module.update, Module.paramInc, h.concrete, hmap, getInternalLabel_mapOf, onCore, h1, Res.mapState, keys_append]
  simp [getCvi, e, onCore, h2, Res.mapState, hV]

theorem inits_tail_cons {α : Type} (a : α) (l : List α) : (a :: l).inits.tail = [a] :: l.inits.tail.map (a :: ·) := by
  cases l <;> simp

/-- Feeding a whole stream: every call returns the specified value of the samples so far. -/
theorem Refines.feed {M : Module} {R : Stream d → Core → Prop} {V : Stream d → XR} (h : Refines M R V)
    (T S : Stream d) (o : Obj) (hI : Inv M R S o) :
    ∃ o', Verif.feed M (encS T) o = .ok (T.inits.tail.map fun P => V (S ++ P)) o' ∧ Inv M R (S ++ T) o' := by
  induction T generalizing S o with
  | nil => exact ⟨o, rfl, by simpa using hI⟩
  | cons p T ih =>
    obtain ⟨x, c⟩ := p
    obtain ⟨o1, h1, hI1⟩ := h.call hI x c
    obtain ⟨o2, h2, hI2⟩ := ih _ o1 hI1
    refine ⟨o2, ?_, by simpa using hI2⟩
    rw [inits_tail_cons]
    simp only [encS] at h2
    simp [encS, Verif.feed, h1, h2, Function.comp_def]

theorem Refines.run {M : Module} {R : Stream d → Core → Prop} {V : Stream d → XR} (h : Refines M R V) (S : Stream d) :
    ∃ o', Verif.feed M (encS S) M.fresh = .ok (S.inits.tail.map V) o' ∧ Inv M R S o' := by
  simpa using h.feed S [] M.fresh (Or.inl ⟨rfl, rfl⟩)

end Verif
