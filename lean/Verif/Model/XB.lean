import Verif.Model.Common

/-! # Model of `src/cvi/modules/XB.py` -/

namespace Verif.XB
open Py

/-- `XB._setup`, XB.py:45-55. -/
noncomputable def setup (sample : Vec) : Py Core Unit := do
  Base.setup sample
  modify fun s => { s with SEP := Vec.zeros s.dim, mu := sample }

/-- `np.sum((v_new - self._v[jx, :]) ** 2)`, XB.py:94 and 135. -/
noncomputable def dist (s : Core) (vNew : Vec) (jx : ℕ) : Except PyErr XR := do
  let r ← s.v.row jx
  Vec.sqDist vNew r

/-- New cluster label, XB.py:81-107. -/
noncomputable def incNew (sample : Vec) (i : ℕ) : Py Core Unit := do
  let s ← get
  let Dn ← lift (distNew s.nClusters i s.D (dist s sample))
  incClusters
  appendN 1
  appendCP 0
  vstackV sample
  vstackG (Vec.zeros s.dim)
  modify fun s => { s with D := Dn }

/-- Old cluster label, XB.py:111-144. -/
noncomputable def incOld (sample : Vec) (i : ℕ) : Py Core Unit := do
  let s ← get
  let st ← lift (oldStats sample i s)
  let d ← lift (columnOld s.nClusters i (dist s st.vNew))
  setN i st.nNew
  setV i st.vNew
  setCP i st.cpNew
  setG i st.gNew
  setD i d

/-- `XB._param_inc` after its first statement, XB.py:66-147. -/
noncomputable def incBody (sample : Vec) (i : ℕ) : Py Core Unit := do
  let s0 ← get
  setupOrMu setup sample
  let s ← get
  (if (i : ℤ) > (s.nClusters : ℤ) - 1 then incNew sample i else incOld sample i)
  modify fun s => { s with nSamples := s0.nSamples + 1 }

/-- Loop body of `XB._param_batch`, XB.py:168-175. -/
noncomputable def batchStep (data : Arr2) (labels : List ℤ) (ix : ℕ) : Py Core Unit := do
  let subset ← lift (data.take (subsetIndices labels ix))
  setN ix subset.rows.length
  setV ix subset.mean0
  let cp ← lift (batchScatter subset subset.mean0)
  setCP ix cp

/-- `np.sum((self._v[ix, :] - self._v[jx, :]) ** 2)`, XB.py:180. -/
noncomputable def batchDist (s : Core) (ix jx : ℕ) : Except PyErr XR := do
  let a ← s.v.row ix
  let b ← s.v.row jx
  Vec.sqDist a b

/-- `XB._param_batch`, XB.py:150-181. The distance matrix is left upper triangular. -/
noncomputable def paramBatch (data : Arr2) (labels : List ℤ) : Py Core Unit := do
  Base.setupBatch data
  let k := uniqueSize labels
  modify fun s => { s with
    mu := data.mean0
    nClusters := k
    n := ⟨true, List.replicate k 0⟩
    v := Arr2.zeros k s.dim
    CP := some ⟨true, Vec.zeros k⟩
    D := Arr2.zeros k k }
  forEach (List.range k) (batchStep data labels)
  let s ← get
  let D ← lift (Arr2.upperTri k (batchDist s))
  modify fun s => { s with D := D }

/-- `XB._evaluate`, XB.py:184-206. -/
noncomputable def evaluate : Py Core Unit := do
  let s ← get
  (if s.nClusters > 1 then do
    let cp ← lift (attr s.CP)
    let wgss := cp.items.sum
    modify fun s => { s with WGSS := wgss }
    let values ← lift (s.D.triu s.D.rows.length)
    let sep ← lift (Vec.amin values)
    modify fun s => { s with
      SEP := [sep]
      criterion := wgss / (.fin (s.nSamples : ℝ) * sep) }
  else modify fun s => { s with criterion := .fin 0 })

end Verif.XB

namespace Verif
/-- Class `XB`, XB.py:19-206. -/
noncomputable def XBmod : Module where
  abstract := false
  init := Core.init
  incBody := XB.incBody
  paramBatch := XB.paramBatch
  evaluate := XB.evaluate
end Verif
