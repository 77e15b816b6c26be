import Verif.Model.WB
import Verif.Gen.Common

/-! # `Verif/Model/WB.lean` over an arbitrary arithmetic -/

namespace Verif.Gen.WB
open Py

variable {F : Type} [Arith F]

/-- `WB._setup`, WB.py:49-59. -/
def setup (sample : Vec F) : Py (Core F) Unit := do
  Base.setup sample
  modify fun s => { s with SEP := Vec.zeros s.dim, mu := sample }

/-- New cluster label, WB.py:85-97. -/
def incNew (sample : Vec F) : Py (Core F) Unit := do
  let s ← get
  incClusters
  appendN 1
  appendCP 0
  vstackV sample
  vstackG (Vec.zeros s.dim)

/-- Old cluster label, WB.py:101-123. -/
def incOld (sample : Vec F) (i : ℕ) : Py (Core F) Unit := do
  let s ← get
  let st ← lift (oldStats sample i s)
  setN i st.nNew
  setV i st.vNew
  setCP i st.cpNew
  setG i st.gNew

/-- `self._n[ix] * sum((self._v[ix, :] - self._mu)**2)`, WB.py:129. -/
def sepEntry (s : Core F) (ix : ℕ) : Except PyErr F := do
  let nIx ← s.n.get ix
  let r ← s.v.row ix
  let d ← Vec.sqDistPy r s.mu
  pure (Arith.ofNat nIx * d)

/-- `_n_samples = n_samples_new` and `_SEP = ...`, WB.py:126-131. -/
def finish (nSamplesNew : ℕ) : Py (Core F) Unit := do
  modify fun s => { s with nSamples := nSamplesNew }
  let s ← get
  let sep ← lift (mapE (sepEntry s) (List.range s.nClusters))
  modify fun s => { s with SEP := sep }

/-- `WB._param_inc` after its first statement, WB.py:70-131. -/
def incBody (sample : Vec F) (i : ℕ) : Py (Core F) Unit := do
  let s0 ← get
  setupOrMu setup sample
  let s ← get
  (if (i : ℤ) > (s.nClusters : ℤ) - 1 then incNew sample else incOld sample i)
  finish (s0.nSamples + 1)

/-- Loop body of `WB._param_batch`, WB.py:152-160. -/
def batchStep (data : Arr2 F) (labels : List ℤ) (ix : ℕ) : Py (Core F) Unit := do
  let subset ← lift (data.take (subsetIndices labels ix))
  setN ix subset.rows.length
  setV ix (Arr2.mean0 subset)
  let cp ← lift (batchScatter subset (Arr2.mean0 subset))
  setCP ix cp
  let s ← get
  let d ← lift (Vec.sqDist (Arr2.mean0 subset) s.mu)
  let sep := Arith.ofNat subset.rows.length * d
  (if ix < s.SEP.length then modify fun s => { s with SEP := s.SEP.set ix sep } else raise .indexError)

/-- `WB._param_batch`, WB.py:134-160. -/
def paramBatch (data : Arr2 F) (labels : List ℤ) : Py (Core F) Unit := do
  Base.setupBatch data
  let k := uniqueSize labels
  modify fun s => { s with
    mu := Arr2.mean0 data
    nClusters := k
    n := ⟨true, List.replicate k 0⟩
    v := Arr2.zeros k s.dim
    CP := some ⟨true, Vec.zeros k⟩
    SEP := Vec.zeros k }
  forEach (List.range k) (batchStep data labels)

/-- `WB._evaluate`, WB.py:163-179. -/
def evaluate : Py (Core F) Unit := do
  let s ← get
  (if s.nClusters > 1 then do
    let cp ← lift (attr s.CP)
    let wgss := Arith.pySum cp.items
    let bgss := Arith.pySum s.SEP
    modify fun s => { s with
      WGSS := wgss
      BGSS := bgss
      criterion := (wgss / bgss) * Arith.ofNat s.nClusters }
  else modify fun s => { s with BGSS := 0, criterion := 0 })

end Verif.Gen.WB

namespace Verif.Gen
/-- Class `WB`, WB.py:21-179. -/
def WBmod {F : Type} [Arith F] : Module F where
  abstract := false
  init := init
  incBody := WB.incBody
  paramBatch := WB.paramBatch
  evaluate := WB.evaluate
end Verif.Gen
