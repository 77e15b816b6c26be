import Verif.Compat.CHExact
import Verif.Props.Compat1

/-! # C92: the older interface's `iCH` on every stream -/

namespace Verif
open Spec V0

variable {d : ℕ}

/-- C92, accepted streams: every stream whose labels fit is accepted, and each call returns the value described by `staleCH`. -/
theorem C92_accepts {S : Stream d} (hS : AllFit S) :
    ∃ s, V0.feed V0.CH.update (encS S) V0.CH.init = .ok ((List.range S.length).map fun i => staleCH (S.take (i + 1))) s := by
  obtain ⟨s, h, -⟩ := CH.run hS
  exact ⟨s, h⟩

/-- C92, rejected streams: the first label that does not fit raises; ValueError if it exceeds the number of samples labelled 0 so far,
and IndexError otherwise.  What follows does not matter. -/
theorem C92_rejects {P : Stream d} (hP : AllFit P) (x : Pt d) {c : ℤ} (hc : ¬ Fits (zeros P) c) (T : Stream d) :
    ∃ s, V0.feed V0.CH.update (encS (P ++ (x, c) :: T)) V0.CH.init
      = .err (if (zeros P : ℤ) < c then .valueError else .indexError) s := by
  obtain ⟨s, h, hr⟩ := CH.run hP
  obtain ⟨s', hs'⟩ := CH.step_err (x := x) hc hr
  refine ⟨s', ?_⟩
  have := feed_append_err V0.CH.update (encS P) (encS T) (enc x, c) h hs'
  rw [← this]
  simp [encS]

/-- Every stream either fits or has a first label that does not. -/
theorem C92_cases (S : Stream d) : AllFit S ∨ ∃ P x c T, S = P ++ (x, c) :: T ∧ AllFit P ∧ ¬ Fits (zeros P) c := by
  induction S using List.reverseRecOn with
  | nil => exact .inl AllFit.nil
  | append_singleton S p ih =>
    obtain ⟨x, c⟩ := p
    rcases ih with h | ⟨P, y, a, T, rfl, h1, h2⟩
    · by_cases hf : Fits (zeros S) c
      · left
        intro P q Q hS
        rcases List.eq_nil_or_concat Q with rfl | ⟨Q', b, rfl⟩
        · obtain ⟨rfl, e⟩ := List.append_inj' hS rfl
          simp only [List.cons.injEq, and_true] at e
          rw [← e]
          exact hf
        · rw [List.concat_eq_append, ← List.cons_append, ← List.append_assoc] at hS
          exact h P q Q' (List.append_inj' hS rfl).1
      · exact .inr ⟨S, x, c, [], rfl, h, hf⟩
    · exact .inr ⟨P, y, a, T ++ [(x, c)], by simp, h1, h2⟩

/-- C92: a stream is accepted if and only if each label, when it comes, is 0 or a place of a list as long as the number of
samples labelled 0 before it. -/
theorem C92 (S : Stream d) : (∃ rs s, V0.feed V0.CH.update (encS S) V0.CH.init = .ok rs s) ↔ AllFit S := by
  constructor
  · rintro ⟨rs, s, h⟩
    rcases C92_cases S with hS | ⟨P, x, c, T, rfl, h1, h2⟩
    · exact hS
    · obtain ⟨s', h'⟩ := C92_rejects h1 x h2 T
      rw [h'] at h
      exact absurd h (by simp)
  · intro hS
    obtain ⟨s, h⟩ := C92_accepts hS
    exact ⟨_, s, h⟩

/-- A stream in order is accepted exactly if no cluster after the first is used before there are more samples in cluster 0 than its number. -/
theorem C92_inOrder {S : Stream d} (hS : InOrder S) :
    AllFit S ↔ ∀ P p Q, S = P ++ p :: Q → p.2 ≠ 0 → p.2 < (zeros P : ℤ) := by
  constructor
  · intro h P p Q e hp
    exact ((h P p Q e).resolve_left hp).2
  · intro h P p Q e
    have h0 := (hS P p Q e).1
    by_cases hp : p.2 = 0
    · exact .inl hp
    · exact .inr ⟨by omega, h P p Q e hp⟩

/-- The stream of `C44_value_false` fits; the value is the one found there. -/
theorem demo_allFit : AllFit demo := by
  intro P p Q h
  have hl := congrArg List.length h
  rcases P with _ | ⟨a, _ | ⟨b, _ | ⟨e, P⟩⟩⟩
  · simp only [demo, List.nil_append, List.cons.injEq] at h
    rw [← h.1]
    exact .inl rfl
  · simp only [demo, List.cons_append, List.nil_append, List.cons.injEq] at h
    rw [← h.2.1]
    exact .inl rfl
  · simp only [demo, List.cons_append, List.nil_append, List.cons.injEq] at h
    rw [← h.1, ← h.2.1, ← h.2.2.1]
    exact .inr (by simp [zeros])
  · simp [demo] at hl

example : staleCH demo = .fin (67 / 81) := by
  obtain ⟨s, h, -⟩ := C44_value_false
  obtain ⟨s', h'⟩ := C92_accepts demo_allFit
  rw [h] at h'
  simp [demo, List.range_succ] at h'
  exact h'.1.2.2.symm

/-- A negative label counts from the end: here it names the second of two clusters ... -/
example : refile ([(![0], 0), (![2], 0), (![5], -1)] : Stream 1) = [(![0], 0), (![2], 1), (![5], 1)] := rfl

/-- ... and is accepted. -/
example : Fits (zeros ([(![0], 0), (![2], 0)] : Stream 1)) (-1) := .inr (by simp [zeros])

/-- Rejected: the second cluster after one sample of the first (IndexError), the third (ValueError), and -2 (IndexError). -/
example : ¬ Fits (zeros ([(![0], 0)] : Stream 1)) 1 ∧ ¬ Fits (zeros ([(![0], 0)] : Stream 1)) 2 ∧ ¬ Fits (zeros ([(![0], 0)] : Stream 1)) (-2)
    ∧ ¬ ((zeros ([(![0], 0)] : Stream 1) : ℤ) < 1) ∧ (zeros ([(![0], 0)] : Stream 1) : ℤ) < 2 := by
  simp [Fits, zeros]

end Verif
