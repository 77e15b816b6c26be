import Verif.Props.IndexAccuracy64

/-!
# C80: incremental values below zero

CH, WB, XB, DB, GD43 and GD53 are quotients of sums of squares, and in exact arithmetic they are never negative (C27).  In binary64 an incremental
run of all but DB can return a negative number: the compactness is updated with a term that may be negative, and with two features the rounded
compactness can fall below zero, although nothing overflows or underflows.
-/

namespace Verif.Gen
open Py B64

/-- Samples of cluster `c` with first feature `a / 3` and the given second features. -/
def beam (a : ℕ) (l : List ℕ) (c : ℤ) : Samples (F64 .plain) := l.map fun n => ([lit a 3, B64.ofNat n], c)

/-- The first has two clusters with negative compactness; in the second, one cluster is a single sample. -/
def beams (I : Index) : Samples (F64 .plain) :=
  if I = .GD53 then beam (2 ^ 87) [3, 0, 4, 1, 2] 0 ++ beam 0 [0] 1
  else beam (2 ^ 87) [3, 0, 4, 1, 2] 0 ++ beam (2 ^ 82) [7, 0, 7, 2, 4] 1

theorem beams_dim (I : Index) : (beams I).Dim 2 := by
  intro p hp
  unfold beams beam at hp
  split at hp <;>
  · rcases List.mem_append.mp hp with h | h <;>
    · obtain ⟨n, -, rfl⟩ := List.mem_map.mp h
      rfl

/-- It is finite. -/
def isFin : B64 → Bool
  | .fin _ _ => true
  | _ => false

theorem isFin_spec {a : B64} (h : isFin a = true) : Fin a := by
  cases a with
  | fin s m => trivial
  | inf s => exact absurd h Bool.false_ne_true
  | nan => exact absurd h Bool.false_ne_true

theorem beams_fin (I : Index) : ∀ p ∈ beams I, ∀ a ∈ p.1, Fin a := by
  have h : ((beams I).all fun p => p.1.all isFin) = true := by
    cases I <;> decide +kernel
  intro p hp a ha
  exact isFin_spec (List.all_eq_true.mp (List.all_eq_true.mp h p hp) a ha)

theorem beams_ne (I : Index) : beams I ≠ [] := by
  unfold beams
  split <;> simp [beam]

theorem beams_neg {I : Index} (hI : Common6 I) (hd : I ≠ .DB) : lt (value (F := F64 .plain) 2 I (beams I)) (fin false 0) = true := by
  rcases hI with rfl | rfl | rfl | rfl | rfl | rfl
  case inr.inr.inr.inl => exact absurd rfl hd
  all_goals decide +kernel

/-- **C80** is false of incremental runs of all these classes but DB: with finite samples of two features, the last number returned is less
than zero. -/
theorem C80_false (I : Index) (hI : Common6 I) (hd : I ≠ .DB) :
    ∃ S : Samples (F64 .plain), S.Dim 2 ∧ (∀ p ∈ S, ∀ a ∈ p.1, Fin a) ∧
      ∃ vs v, (feed (mod (F64 .plain) I) S (mod (F64 .plain) I).fresh).val = .ok (vs ++ [v]) ∧ lt v (fin false 0) = true := by
  obtain ⟨vs, h⟩ := run_last (ne_of_common hI).1 (beams_dim I) (beams_ne I)
  have hn := beams_neg hI hd
  generalize value 2 I (beams I) = v at h hn
  exact ⟨beams I, beams_dim I, beams_fin I, vs, v, h, hn⟩

end Verif.Gen
