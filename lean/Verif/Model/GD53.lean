import Verif.Model.GD43

/-! # Model of `src/cvi/modules/GD53.py` -/

namespace Verif.GD53
open Py

/-- `GD53._setup`, GD53.py:49-58. -/
noncomputable def setup (sample : Vec) : Py Core Unit := do
  Base.setup sample
  modify fun s => { s with mu := sample }

/-- `(CP_new + self._CP[jx]) / (n_new + self._n[jx])`, GD53.py:96 and 137 (`n_new ≥ 1`, so no ZeroDivisionError). -/
noncomputable def dist (s : Core) (cpNew : XR) (nNew : ℕ) (jx : ℕ) : Except PyErr XR := do
  let cps ← attr s.CP
  let c ← cps.get jx
  let m ← s.n.get jx
  pure ((cpNew + c) / .fin ((nNew + m : ℕ) : ℝ))

/-- New cluster label, GD53.py:84-109. -/
noncomputable def incNew (sample : Vec) (i : ℕ) : Py Core Unit := do
  let s ← get
  let Dn ← lift (distNew s.nClusters i s.D (dist s 0 1))
  incClusters
  appendN 1
  appendCP 0
  vstackV sample
  vstackG (Vec.zeros s.dim)
  modify fun s => { s with D := Dn }

/-- Old cluster label, GD53.py:113-146. -/
noncomputable def incOld (sample : Vec) (i : ℕ) : Py Core Unit := do
  let s ← get
  let st ← lift (oldStats sample i s)
  let d ← lift (columnOld s.nClusters i (dist s st.cpNew st.nNew))
  setN i st.nNew
  setV i st.vNew
  setCP i st.cpNew
  setG i st.gNew
  setD i d

/-- `GD53._param_inc` after its first statement, GD53.py:69-149. -/
noncomputable def incBody (sample : Vec) (i : ℕ) : Py Core Unit := do
  let s0 ← get
  setupOrMu setup sample
  let s ← get
  (if (i : ℤ) > (s.nClusters : ℤ) - 1 then incNew sample i else incOld sample i)
  modify fun s => { s with nSamples := s0.nSamples + 1 }

/-- Loop body of `GD53._param_batch`, GD53.py:172-179. -/
noncomputable def batchStep (data : Arr2) (labels : List ℤ) (ix : ℕ) : Py Core Unit := do
  let subset ← lift (data.take (subsetIndices labels ix))
  setN ix subset.rows.length
  setV ix subset.mean0
  let cp ← lift (batchScatter subset subset.mean0)
  setCP ix cp

/-- `(self._CP[ix] + self._CP[jx]) / (self._n[ix] + self._n[jx])`, GD53.py:184.  `_CP[ix]` is a numpy float there
(result of `np.sum`), so a zero denominator gives NaN, not ZeroDivisionError. -/
noncomputable def batchDist (s : Core) (ix jx : ℕ) : Except PyErr XR := do
  let cps ← attr s.CP
  let a ← cps.get ix
  let b ← cps.get jx
  let m ← s.n.get ix
  let l ← s.n.get jx
  pure ((a + b) / .fin ((m + l : ℕ) : ℝ))

/-- `GD53._param_batch`, GD53.py:152-187. -/
noncomputable def paramBatch (data : Arr2) (labels : List ℤ) : Py Core Unit := do
  Base.setupBatch data
  let k := uniqueSize labels
  modify fun s => { s with
    mu := data.mean0
    nClusters := k
    n := ⟨false, List.replicate k 0⟩
    v := Arr2.zeros k s.dim
    CP := some ⟨false, Vec.zeros k⟩
    G := some (Arr2.zeros k s.dim)
    D := Arr2.zeros k k }
  forEach (List.range k) (batchStep data labels)
  let s ← get
  let D ← lift (Arr2.upperTri k (batchDist s))
  let D' ← lift (D.add D.transpose)
  modify fun s => { s with D := D' }

/-- `GD53._evaluate`, GD53.py:190-208. -/
noncomputable def evaluate : Py Core Unit := do
  let s ← get
  (if s.nClusters > 1 then do
    let cp ← lift (attr s.CP)
    let m ← lift (GD43.maxScatter cp.items s.n.items)
    modify fun s => { s with intra := .fin 2 * m }
    let inter ← lift (GD43.minUpper s.nClusters s.D)
    modify fun s => { s with
      inter := inter
      criterion := inter / s.intra }
  else modify fun s => { s with criterion := .fin 0 })

end Verif.GD53

namespace Verif
/-- Class `GD53`, GD53.py:21-208. -/
noncomputable def GD53mod : Module where
  abstract := false
  init := Core.init
  incBody := GD53.incBody
  paramBatch := GD53.paramBatch
  evaluate := GD53.evaluate
end Verif
