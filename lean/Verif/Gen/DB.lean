import Verif.Model.DB
import Verif.Gen.Common

/-! # `Verif/Model/DB.lean` over an arbitrary arithmetic -/

namespace Verif.Gen.DB
open Py

variable {F : Type} [Arith F]

/-- `DB._setup`, DB.py:45-54. -/
def setup (sample : Vec F) : Py (Core F) Unit := do
  Base.setup sample
  modify fun s => { s with mu := sample }

/-- `np.sum((v_new - self._v[jx, :]) ** 2)`, DB.py:93 and 136. -/
def dist (s : Core F) (vNew : Vec F) (jx : ℕ) : Except PyErr F := do
  let r ← s.v.row jx
  Vec.sqDist vNew r

/-- New cluster label, DB.py:80-107. -/
def incNew (sample : Vec F) (i : ℕ) : Py (Core F) Unit := do
  let s ← get
  let Dn ← lift (distNew s.nClusters i s.D (dist s sample))
  incClusters
  appendN 1
  appendCP 0
  Verif.DB.appendS 0
  vstackV sample
  vstackG (Vec.zeros s.dim)
  modify fun s => { s with D := Dn }

/-- Old cluster label, DB.py:111-147. -/
def incOld (sample : Vec F) (i : ℕ) : Py (Core F) Unit := do
  let s ← get
  let st ← lift (oldStats sample i s)
  let sNew := st.cpNew / Arith.ofNat st.nNew
  let d ← lift (columnOld s.nClusters i (dist s st.vNew))
  setN i st.nNew
  setV i st.vNew
  setCP i st.cpNew
  setG i st.gNew
  Verif.DB.setS i sNew
  setD i d

/-- `DB._param_inc` after its first statement, DB.py:65-150. -/
def incBody (sample : Vec F) (i : ℕ) : Py (Core F) Unit := do
  let s0 ← get
  setupOrMu setup sample
  let s ← get
  (if (i : ℤ) > (s.nClusters : ℤ) - 1 then incNew sample i else incOld sample i)
  modify fun s => { s with nSamples := s0.nSamples + 1 }

/-- Loop body of `DB._param_batch`, DB.py:177-185.  `_CP[ix]` is a numpy float, so an empty cluster gives NaN. -/
def batchStep (data : Arr2 F) (labels : List ℤ) (ix : ℕ) : Py (Core F) Unit := do
  let subset ← lift (data.take (subsetIndices labels ix))
  setN ix subset.rows.length
  setV ix (Arr2.mean0 subset)
  let cp ← lift (batchScatter subset (Arr2.mean0 subset))
  setCP ix cp
  Verif.DB.setS ix (cp / Arith.ofNat subset.rows.length)

/-- `np.sum((self._v[ix, :] - self._v[jx, :]) ** 2)`, DB.py:190. -/
def batchDist (s : Core F) (ix jx : ℕ) : Except PyErr F := do
  let a ← s.v.row ix
  let b ← s.v.row jx
  Vec.sqDist a b

/-- `DB._param_batch`, DB.py:153-193. -/
def paramBatch (data : Arr2 F) (labels : List ℤ) : Py (Core F) Unit := do
  Base.setupBatch data
  let k := uniqueSize labels
  modify fun s => { s with
    mu := Arr2.mean0 data
    nClusters := k
    n := ⟨false, List.replicate k 0⟩
    v := Arr2.zeros k s.dim
    CP := some ⟨false, Vec.zeros k⟩
    G := some (Arr2.zeros k s.dim)
    D := Arr2.zeros k k
    Sv := ⟨false, Vec.zeros k⟩ }
  forEach (List.range k) (batchStep data labels)
  let s ← get
  let D ← lift (Arr2.upperTri k (batchDist s))
  let D' ← lift (Arr2.add D D.transpose)
  modify fun s => { s with D := D' }

/-- `(self._S[ix] + self._S[jx]) / self._D[jx, ix]`, DB.py:205-207; written to `R[jx, ix]` for `ix < jx`. -/
def ratio (s : Core F) (ix jx : ℕ) : Except PyErr F := do
  let a ← s.Sv.get ix
  let b ← s.Sv.get jx
  let d ← s.D.get jx ix
  pure ((a + b) / d)

/-- The matrix `_R` after DB.py:202-208: `R[jx, ix]` written below the diagonal, then `R + R.T`. -/
def ratios (s : Core F) : Except PyErr (Arr2 F) := do
  let U ← Arr2.upperTri s.nClusters (ratio s)
  Arr2.add U.transpose U.transpose.transpose

/-- `DB._evaluate`, DB.py:196-213. -/
def evaluate : Py (Core F) Unit := do
  let s ← get
  (if s.nClusters > 1 then do
    let R ← lift (ratios s)
    modify fun s => { s with R := R }
    let ms ← lift (mapE (fun j => do let c ← R.col j; Vec.amax c) (List.range R.cols))
    modify fun s => { s with criterion := Arith.npSum ms / Arith.ofNat s.nClusters }
  else modify fun s => { s with criterion := 0 })

end Verif.Gen.DB

namespace Verif.Gen
/-- Class `DB`, DB.py:19-213. -/
def DBmod {F : Type} [Arith F] : Module F where
  abstract := false
  init := init
  incBody := DB.incBody
  paramBatch := DB.paramBatch
  evaluate := DB.evaluate
end Verif.Gen
