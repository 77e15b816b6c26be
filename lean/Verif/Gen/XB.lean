import Verif.Model.XB
import Verif.Gen.Common

/-! # `Verif/Model/XB.lean` over an arbitrary arithmetic -/

namespace Verif.Gen.XB
open Py

variable {F : Type} [Arith F]

/-- `XB._setup`, XB.py:45-55. -/
def setup (sample : Vec F) : Py (Core F) Unit := do
  Base.setup sample
  modify fun s => { s with SEP := Vec.zeros s.dim, mu := sample }

/-- `np.sum((v_new - self._v[jx, :]) ** 2)`, XB.py:94 and 135. -/
def dist (s : Core F) (vNew : Vec F) (jx : ℕ) : Except PyErr F := do
  let r ← s.v.row jx
  Vec.sqDist vNew r

/-- New cluster label, XB.py:81-107. -/
def incNew (sample : Vec F) (i : ℕ) : Py (Core F) Unit := do
  let s ← get
  let Dn ← lift (distNew s.nClusters i s.D (dist s sample))
  incClusters
  appendN 1
  appendCP 0
  vstackV sample
  vstackG (Vec.zeros s.dim)
  modify fun s => { s with D := Dn }

/-- Old cluster label, XB.py:111-144. -/
def incOld (sample : Vec F) (i : ℕ) : Py (Core F) Unit := do
  let s ← get
  let st ← lift (oldStats sample i s)
  let d ← lift (columnOld s.nClusters i (dist s st.vNew))
  setN i st.nNew
  setV i st.vNew
  setCP i st.cpNew
  setG i st.gNew
  setD i d

/-- `XB._param_inc` after its first statement, XB.py:66-147. -/
def incBody (sample : Vec F) (i : ℕ) : Py (Core F) Unit := do
  let s0 ← get
  setupOrMu setup sample
  let s ← get
  (if (i : ℤ) > (s.nClusters : ℤ) - 1 then incNew sample i else incOld sample i)
  modify fun s => { s with nSamples := s0.nSamples + 1 }

/-- Loop body of `XB._param_batch`, XB.py:168-175. -/
def batchStep (data : Arr2 F) (labels : List ℤ) (ix : ℕ) : Py (Core F) Unit := do
  let subset ← lift (data.take (subsetIndices labels ix))
  setN ix subset.rows.length
  setV ix (Arr2.mean0 subset)
  let cp ← lift (batchScatter subset (Arr2.mean0 subset))
  setCP ix cp

/-- `np.sum((self._v[ix, :] - self._v[jx, :]) ** 2)`, XB.py:180. -/
def batchDist (s : Core F) (ix jx : ℕ) : Except PyErr F := do
  let a ← s.v.row ix
  let b ← s.v.row jx
  Vec.sqDist a b

/-- `XB._param_batch`, XB.py:150-181. The distance matrix is left upper triangular. -/
def paramBatch (data : Arr2 F) (labels : List ℤ) : Py (Core F) Unit := do
  Base.setupBatch data
  let k := uniqueSize labels
  modify fun s => { s with
    mu := Arr2.mean0 data
    nClusters := k
    n := ⟨true, List.replicate k 0⟩
    v := Arr2.zeros k s.dim
    CP := some ⟨true, Vec.zeros k⟩
    D := Arr2.zeros k k }
  forEach (List.range k) (batchStep data labels)
  let s ← get
  let D ← lift (Arr2.upperTri k (batchDist s))
  modify fun s => { s with D := D }

/-- `XB._evaluate`, XB.py:184-206. -/
def evaluate : Py (Core F) Unit := do
  let s ← get
  (if s.nClusters > 1 then do
    let cp ← lift (attr s.CP)
    let wgss := Arith.pySum cp.items
    modify fun s => { s with WGSS := wgss }
    let values ← lift (s.D.triu s.D.rows.length)
    let sep ← lift (Vec.amin values)
    modify fun s => { s with
      SEP := [sep]
      criterion := wgss / (Arith.ofNat s.nSamples * sep) }
  else modify fun s => { s with criterion := 0 })

end Verif.Gen.XB

namespace Verif.Gen
/-- Class `XB`, XB.py:19-206. -/
def XBmod {F : Type} [Arith F] : Module F where
  abstract := false
  init := init
  incBody := XB.incBody
  paramBatch := XB.paramBatch
  evaluate := XB.evaluate
end Verif.Gen
