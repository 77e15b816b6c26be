import Verif.Model.GD43
import Verif.Gen.Common

/-! # `Verif/Model/GD43.lean` over an arbitrary arithmetic -/

namespace Verif.Gen.GD43
open Py

variable {F : Type} [Arith F]

/-- `GD43._setup`, GD43.py:49-58. -/
def setup (sample : Vec F) : Py (Core F) Unit := do
  Base.setup sample
  modify fun s => { s with mu := sample }

/-- `np.sqrt(np.sum((v_new - self._v[jx, :]) ** 2))`, GD43.py:96 and 137. -/
def dist (s : Core F) (vNew : Vec F) (jx : ℕ) : Except PyErr F := do
  let r ← s.v.row jx
  let d ← Vec.sqDist vNew r
  pure (Arith.sqrt d)

/-- New cluster label, GD43.py:84-109. -/
def incNew (sample : Vec F) (i : ℕ) : Py (Core F) Unit := do
  let s ← get
  let Dn ← lift (distNew s.nClusters i s.D (dist s sample))
  incClusters
  appendN 1
  appendCP 0
  vstackV sample
  vstackG (Vec.zeros s.dim)
  modify fun s => { s with D := Dn }

/-- Old cluster label, GD43.py:113-146. -/
def incOld (sample : Vec F) (i : ℕ) : Py (Core F) Unit := do
  let s ← get
  let st ← lift (oldStats sample i s)
  let d ← lift (columnOld s.nClusters i (dist s st.vNew))
  setN i st.nNew
  setV i st.vNew
  setCP i st.cpNew
  setG i st.gNew
  setD i d

/-- `GD43._param_inc` after its first statement, GD43.py:69-149. -/
def incBody (sample : Vec F) (i : ℕ) : Py (Core F) Unit := do
  let s0 ← get
  setupOrMu setup sample
  let s ← get
  (if (i : ℤ) > (s.nClusters : ℤ) - 1 then incNew sample i else incOld sample i)
  modify fun s => { s with nSamples := s0.nSamples + 1 }

/-- Loop body of `GD43._param_batch`, GD43.py:171-178. -/
def batchStep (data : Arr2 F) (labels : List ℤ) (ix : ℕ) : Py (Core F) Unit := do
  let subset ← lift (data.take (subsetIndices labels ix))
  setN ix subset.rows.length
  setV ix (Arr2.mean0 subset)
  let cp ← lift (batchScatter subset (Arr2.mean0 subset))
  setCP ix cp

/-- `np.sqrt(np.sum((self._v[ix, :] - self._v[jx, :]) ** 2))`, GD43.py:183. -/
def batchDist (s : Core F) (ix jx : ℕ) : Except PyErr F := do
  let a ← s.v.row ix
  let b ← s.v.row jx
  let d ← Vec.sqDist a b
  pure (Arith.sqrt d)

/-- `GD43._param_batch`, GD43.py:152-186. -/
def paramBatch (data : Arr2 F) (labels : List ℤ) : Py (Core F) Unit := do
  Base.setupBatch data
  let k := uniqueSize labels
  modify fun s => { s with
    mu := Arr2.mean0 data
    nClusters := k
    n := ⟨false, List.replicate k 0⟩
    v := Arr2.zeros k s.dim
    CP := some ⟨false, Vec.zeros k⟩
    G := some (Arr2.zeros k s.dim)
    D := Arr2.zeros k k }
  forEach (List.range k) (batchStep data labels)
  let s ← get
  let D ← lift (Arr2.upperTri k (batchDist s))
  let D' ← lift (Arr2.add D D.transpose)
  modify fun s => { s with D := D' }

/-- `np.max(np.divide(self._CP, self._n))`, GD43.py:195 (and GD53.py:196). -/
def maxScatter (cp : List F) (n : List ℕ) : Except PyErr F := do
  let q ← Vec.bin (· / ·) cp (n.map Arith.ofNat)
  Vec.amax q

/-- `np.min(self._D[np.triu(np.ones((k, k), bool), 1), ])`, GD43.py:197-203 (and GD53.py:198-204):
a boolean mask of another shape than `_D` raises IndexError. -/
def minUpper (k : ℕ) (D : Arr2 F) : Except PyErr F :=
  if D.rows.length = k ∧ D.cols = k then do
    let values ← D.triu k
    Vec.amin values
  else .error .indexError

/-- `GD43._evaluate`, GD43.py:189-207. -/
def evaluate : Py (Core F) Unit := do
  let s ← get
  (if s.nClusters > 1 then do
    let cp ← lift (attr s.CP)
    let m ← lift (maxScatter cp.items s.n.items)
    modify fun s => { s with intra := Arith.two * m }
    let inter ← lift (minUpper s.nClusters s.D)
    modify fun s => { s with
      inter := inter
      criterion := inter / s.intra }
  else modify fun s => { s with criterion := 0 })

end Verif.Gen.GD43

namespace Verif.Gen
/-- Class `GD43`, GD43.py:21-207. -/
def GD43mod {F : Type} [Arith F] : Module F where
  abstract := false
  init := init
  incBody := GD43.incBody
  paramBatch := GD43.paramBatch
  evaluate := GD43.evaluate
end Verif.Gen
