import Verif.Py
import Mathlib.LinearAlgebra.Matrix.NonsingularInverse

/-!
# `np.linalg.det` and `np.linalg.inv`

numpy primitives, used by rCIP.py:96-98, 138-140 and 199-201.  LAPACK's algorithms are replaced by Mathlib's
exact determinant and inverse.  Simplification: for an array with non-finite entries `det` is `nan` and `inv` is all
`nan` (numpy may return a mixture of `nan` and `inf`).
-/

namespace Verif.Arr2

/-- The real `n × n` matrix with the entries of `a`; only used when `a` is `n × n` with finite entries. -/
noncomputable def toMatrix (n : ℕ) (a : Arr2) : Matrix (Fin n) (Fin n) ℝ :=
  Matrix.of fun i j => ((a.rows.getD i []).getD j 0).toReal

/-- Are all entries finite? -/
def allFin (a : Arr2) : Bool := a.rows.all fun r => r.all XR.isFin

/-- The array with the entries of a real matrix. -/
def ofMatrix {n m : ℕ} (A : Matrix (Fin n) (Fin m) ℝ) : Arr2 :=
  ⟨m, List.ofFn fun i => List.ofFn fun j => XR.fin (A i j)⟩

/-- `np.linalg.det(a)`: LinAlgError unless square. -/
noncomputable def det (a : Arr2) : Except PyErr XR :=
  if a.rows.length = a.cols then
    if a.allFin then .ok (.fin (a.toMatrix a.cols).det) else .ok .nan
  else .error .linAlgError

open Classical in
/-- `np.linalg.inv(a)`: LinAlgError unless square and non-singular. -/
noncomputable def inv (a : Arr2) : Except PyErr Arr2 :=
  if a.rows.length = a.cols then
    if a.allFin then
      if (a.toMatrix a.cols).det = 0 then .error .linAlgError
      else .ok (ofMatrix (a.toMatrix a.cols)⁻¹)
    else .ok ⟨a.cols, List.replicate a.cols (List.replicate a.cols .nan)⟩
  else .error .linAlgError

end Verif.Arr2
