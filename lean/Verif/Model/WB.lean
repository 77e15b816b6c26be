import Verif.Model.Common

/-! # Model of `src/cvi/modules/WB.py` -/

namespace Verif.WB
open Py

/-- `WB._setup`, WB.py:49-59. -/
noncomputable def setup (sample : Vec) : Py Core Unit := do
  Base.setup sample
  modify fun s => { s with SEP := Vec.zeros s.dim, mu := sample }

/-- New cluster label, WB.py:85-97. -/
noncomputable def incNew (sample : Vec) : Py Core Unit := do
  let s ← get
  incClusters
  appendN 1
  appendCP 0
  vstackV sample
  vstackG (Vec.zeros s.dim)

/-- Old cluster label, WB.py:101-123. -/
noncomputable def incOld (sample : Vec) (i : ℕ) : Py Core Unit := do
  let s ← get
  let st ← lift (oldStats sample i s)
  setN i st.nNew
  setV i st.vNew
  setCP i st.cpNew
  setG i st.gNew

/-- `self._n[ix] * sum((self._v[ix, :] - self._mu)**2)`, WB.py:129. -/
noncomputable def sepEntry (s : Core) (ix : ℕ) : Except PyErr XR := do
  let nIx ← s.n.get ix
  let r ← s.v.row ix
  let d ← Vec.sqDist r s.mu
  pure (.fin nIx * d)

/-- `_n_samples = n_samples_new` and `_SEP = ...`, WB.py:126-131. -/
noncomputable def finish (nSamplesNew : ℕ) : Py Core Unit := do
  modify fun s => { s with nSamples := nSamplesNew }
  let s ← get
  let sep ← lift (mapE (sepEntry s) (List.range s.nClusters))
  modify fun s => { s with SEP := sep }

/-- `WB._param_inc` after its first statement, WB.py:70-131. -/
noncomputable def incBody (sample : Vec) (i : ℕ) : Py Core Unit := do
  let s0 ← get
  setupOrMu setup sample
  let s ← get
  (if (i : ℤ) > (s.nClusters : ℤ) - 1 then incNew sample else incOld sample i)
  finish (s0.nSamples + 1)

/-- Loop body of `WB._param_batch`, WB.py:152-160. -/
noncomputable def batchStep (data : Arr2) (labels : List ℤ) (ix : ℕ) : Py Core Unit := do
  let subset ← lift (data.take (subsetIndices labels ix))
  setN ix subset.rows.length
  setV ix subset.mean0
  let cp ← lift (batchScatter subset subset.mean0)
  setCP ix cp
  let s ← get
  let d ← lift (Vec.sqDist subset.mean0 s.mu)
  let sep := XR.fin subset.rows.length * d
  (if ix < s.SEP.length then modify fun s => { s with SEP := s.SEP.set ix sep } else raise .indexError)

/-- `WB._param_batch`, WB.py:134-160. -/
noncomputable def paramBatch (data : Arr2) (labels : List ℤ) : Py Core Unit := do
  Base.setupBatch data
  let k := uniqueSize labels
  modify fun s => { s with
    mu := data.mean0
    nClusters := k
    n := ⟨true, List.replicate k 0⟩
    v := Arr2.zeros k s.dim
    CP := some ⟨true, Vec.zeros k⟩
    SEP := Vec.zeros k }
  forEach (List.range k) (batchStep data labels)

/-- `WB._evaluate`, WB.py:163-179. -/
noncomputable def evaluate : Py Core Unit := do
  let s ← get
  (if s.nClusters > 1 then do
    let cp ← lift (attr s.CP)
    let wgss := cp.items.sum
    let bgss := s.SEP.sum
    modify fun s => { s with
      WGSS := wgss
      BGSS := bgss
      criterion := (wgss / bgss) * .fin (s.nClusters : ℝ) }
  else modify fun s => { s with BGSS := .fin 0, criterion := .fin 0 })

end Verif.WB

namespace Verif
/-- Class `WB`, WB.py:21-179. -/
noncomputable def WBmod : Module where
  abstract := false
  init := Core.init
  incBody := WB.incBody
  paramBatch := WB.paramBatch
  evaluate := WB.evaluate
end Verif
