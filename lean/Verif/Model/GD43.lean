import Verif.Model.Common

/-! # Model of `src/cvi/modules/GD43.py` -/

namespace Verif.GD43
open Py

/-- `GD43._setup`, GD43.py:49-58. -/
noncomputable def setup (sample : Vec) : Py Core Unit := do
  Base.setup sample
  modify fun s => { s with mu := sample }

/-- `np.sqrt(np.sum((v_new - self._v[jx, :]) ** 2))`, GD43.py:96 and 137. -/
noncomputable def dist (s : Core) (vNew : Vec) (jx : ℕ) : Except PyErr XR := do
  let r ← s.v.row jx
  let d ← Vec.sqDist vNew r
  pure d.sqrt

/-- New cluster label, GD43.py:84-109. -/
noncomputable def incNew (sample : Vec) (i : ℕ) : Py Core Unit := do
  let s ← get
  let Dn ← lift (distNew s.nClusters i s.D (dist s sample))
  incClusters
  appendN 1
  appendCP 0
  vstackV sample
  vstackG (Vec.zeros s.dim)
  modify fun s => { s with D := Dn }

/-- Old cluster label, GD43.py:113-146. -/
noncomputable def incOld (sample : Vec) (i : ℕ) : Py Core Unit := do
  let s ← get
  let st ← lift (oldStats sample i s)
  let d ← lift (columnOld s.nClusters i (dist s st.vNew))
  setN i st.nNew
  setV i st.vNew
  setCP i st.cpNew
  setG i st.gNew
  setD i d

/-- `GD43._param_inc` after its first statement, GD43.py:69-149. -/
noncomputable def incBody (sample : Vec) (i : ℕ) : Py Core Unit := do
  let s0 ← get
  setupOrMu setup sample
  let s ← get
  (if (i : ℤ) > (s.nClusters : ℤ) - 1 then incNew sample i else incOld sample i)
  modify fun s => { s with nSamples := s0.nSamples + 1 }

/-- Loop body of `GD43._param_batch`, GD43.py:171-178. -/
noncomputable def batchStep (data : Arr2) (labels : List ℤ) (ix : ℕ) : Py Core Unit := do
  let subset ← lift (data.take (subsetIndices labels ix))
  setN ix subset.rows.length
  setV ix subset.mean0
  let cp ← lift (batchScatter subset subset.mean0)
  setCP ix cp

/-- `np.sqrt(np.sum((self._v[ix, :] - self._v[jx, :]) ** 2))`, GD43.py:183. -/
noncomputable def batchDist (s : Core) (ix jx : ℕ) : Except PyErr XR := do
  let a ← s.v.row ix
  let b ← s.v.row jx
  let d ← Vec.sqDist a b
  pure d.sqrt

/-- `GD43._param_batch`, GD43.py:152-186. -/
noncomputable def paramBatch (data : Arr2) (labels : List ℤ) : Py Core Unit := do
  Base.setupBatch data
  let k := uniqueSize labels
  modify fun s => { s with
    mu := data.mean0
    nClusters := k
    n := ⟨false, List.replicate k 0⟩
    v := Arr2.zeros k s.dim
    CP := some ⟨false, Vec.zeros k⟩
    G := some (Arr2.zeros k s.dim)
    D := Arr2.zeros k k }
  forEach (List.range k) (batchStep data labels)
  let s ← get
  let D ← lift (Arr2.upperTri k (batchDist s))
  let D' ← lift (D.add D.transpose)
  modify fun s => { s with D := D' }

/-- `np.max(np.divide(self._CP, self._n))`, GD43.py:195 (and GD53.py:196). -/
noncomputable def maxScatter (cp : List XR) (n : List ℕ) : Except PyErr XR := do
  let q ← Vec.bin (· / ·) cp (n.map fun m : ℕ => XR.fin (m : ℝ))
  Vec.amax q

/-- `np.min(self._D[np.triu(np.ones((k, k), bool), 1), ])`, GD43.py:197-203 (and GD53.py:198-204):
a boolean mask of another shape than `_D` raises IndexError. -/
noncomputable def minUpper (k : ℕ) (D : Arr2) : Except PyErr XR :=
  if D.rows.length = k ∧ D.cols = k then do
    let values ← D.triu k
    Vec.amin values
  else .error .indexError

/-- `GD43._evaluate`, GD43.py:189-207. -/
noncomputable def evaluate : Py Core Unit := do
  let s ← get
  (if s.nClusters > 1 then do
    let cp ← lift (attr s.CP)
    let m ← lift (maxScatter cp.items s.n.items)
    modify fun s => { s with intra := .fin 2 * m }
    let inter ← lift (minUpper s.nClusters s.D)
    modify fun s => { s with
      inter := inter
      criterion := inter / s.intra }
  else modify fun s => { s with criterion := .fin 0 })

end Verif.GD43

namespace Verif
/-- Class `GD43`, GD43.py:21-207. -/
noncomputable def GD43mod : Module where
  abstract := false
  init := Core.init
  incBody := GD43.incBody
  paramBatch := GD43.paramBatch
  evaluate := GD43.evaluate
end Verif
