import Verif.Compat.Spec

/-! # What `iCH` computes: specification

`iCH` never fills the list it compares a new cluster number with, so it takes every sample labelled 0 for the first of a new cluster.  This file
says, in terms of the samples only, which clusters result and which streams are accepted. -/

namespace Verif.V0
open Spec

variable {d : ℕ}

/-- The number of samples labelled 0. -/
def zeros (S : Stream d) : ℕ := S.countP fun p => p.2 = 0

/-- The place in a list of length `k` that Python's `l[c]` means. -/
def place (k : ℕ) (c : ℤ) : ℤ := if c < 0 then c + k else c

/-- The cluster that a sample labelled `c` goes to after `k` samples labelled 0. -/
def filed (k : ℕ) (c : ℤ) : ℤ := if c = 0 then k else place k c

/-- The stream with the clusters its samples go to, after `k` samples labelled 0. -/
def refileFrom (k : ℕ) : Stream d → Stream d
  | [] => []
  | (x, c) :: T => (x, filed k c) :: refileFrom (if c = 0 then k + 1 else k) T

/-- The stream with the clusters its samples go to. -/
def refile (S : Stream d) : Stream d := refileFrom 0 S

/-- The labels that are accepted after `k` samples labelled 0. -/
def Fits (k : ℕ) (c : ℤ) : Prop := c = 0 ∨ (-(k : ℤ) ≤ c ∧ c < k)

/-- Every label is accepted when it comes. -/
def AllFit (S : Stream d) : Prop := ∀ P p Q, S = P ++ p :: Q → Fits (zeros P) p.2

/-- The term of cluster `i` in the between-groups sum of squares, at the end of the stream `P`. -/
noncomputable def between (P : Stream d) (i : ℤ) : ℝ := size (refile P) i * dist2 (centroid (refile P) i) (mean P)

/-- The last sample of `P` refreshes the term of cluster `i`: the term at the place of its *label*, so cluster 0 for a sample labelled 0. -/
def Refreshes (P : Stream d) (i : ℤ) : Prop := ∃ Q x c, P = Q ++ [(x, c)] ∧ place (zeros Q) c = i

open Classical in
/-- The term of cluster `i` as it was when it was last refreshed; 0 if that has not happened. -/
noncomputable def stale (S : Stream d) (i : ℤ) : ℝ :=
  match (S.inits.filter fun P => Refreshes P i).getLast? with
  | some P => between P i
  | none => 0

/-- The value `iCH` returns after the stream `S`. -/
noncomputable def staleCH (S : Stream d) : XR :=
  let k := zeros S
  let B := ∑ i ∈ Finset.range k, stale S i
  if 1 < k ∧ k < S.length then ratio (B * (S.length - k)) (WGSS (refile S) * (k - 1)) else .fin 0

end Verif.V0
