import Verif.Gen.B64Range

/-!
# A library for binary64

`Lib.plain` adds from left to right, starting at zero.  It has no `exp`, `det` and `inv`; so PS and rCIP are not usable with it.
-/

namespace Verif.Gen
open B64

/-- From left to right, starting at zero. -/
def B64.total (l : List B64) : B64 := l.foldl add (fin false 0)

/-- A library that adds from left to right. -/
def Lib.plain : Lib where
  exp _ := nan
  delta _ := nan
  normConst _ := .ok nan
  npSum := total
  rowSum := total
  sum2 l := total l.flatten
  colSum := total
  dot a b := total (List.zipWith mul a b)
  mm A B i j := total (List.zipWith mul (A.rows.getD i []) (B.rows.map fun r => r.getD j nan))
  vm v B j := total (List.zipWith mul v (B.rows.map fun r => r.getD j nan))
  det _ := .ok nan
  inv _ := .error .linAlgError

theorem total_dot (l : List (B64 × B64)) : DotOf l (total (l.map fun p => mul p.1 p.2)) := by
  induction l using List.reverseRecOn with
  | nil => exact DotOf.nil false
  | append_singleton l p ih =>
    have e : total ((l ++ [p]).map fun p => mul p.1 p.2) = add (total (l.map fun p => mul p.1 p.2)) (mul p.1 p.2) := by
      simp [total, List.foldl_append]
    rw [e]
    exact ih.add (DotOf.one p.1 p.2)

theorem Lib.plain_dots (d : ℕ) : Lib.plain.Dots d := by
  intro a b _ _
  have e : List.zipWith mul a b = (a.zip b).map fun p => mul p.1 p.2 := by
    rw [List.zip, List.map_zipWith]
  show DotOf (a.zip b) (total (List.zipWith mul a b))
  rw [e]
  exact total_dot _

/-- The number `a / b`, as written in a program. -/
def B64.lit (a b : ℕ) : B64 := div (B64.ofNat a) (B64.ofNat b)

/-- The features of a list of samples with one feature, as real numbers. -/
noncomputable def reals {L : Lib} (S : Samples (F64 L)) : List ((_root_.Fin 1 → ℝ) × ℤ) := S.map fun p => (fun _ => val (p.1.getD 0 0), p.2)

end Verif.Gen
