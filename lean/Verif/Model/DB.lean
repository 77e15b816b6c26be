import Verif.Model.Common

/-! # Model of `src/cvi/modules/DB.py` -/

namespace Verif.DB
open Py

/-- `DB._setup`, DB.py:45-54. -/
noncomputable def setup (sample : Vec) : Py Core Unit := do
  Base.setup sample
  modify fun s => { s with mu := sample }

/-- `np.sum((v_new - self._v[jx, :]) ** 2)`, DB.py:93 and 136. -/
noncomputable def dist (s : Core) (vNew : Vec) (jx : ℕ) : Except PyErr XR := do
  let r ← s.v.row jx
  Vec.sqDist vNew r

/-- `self._S.append(x)` -/
def appendS {F : Type} (x : F) : Py (Core F) Unit := do
  let s ← get
  let l ← lift (s.Sv.append x)
  modify fun s => { s with Sv := l }

/-- `self._S[i] = x` -/
def setS {F : Type} (i : ℕ) (x : F) : Py (Core F) Unit := do
  let s ← get
  let l ← lift (s.Sv.set i x)
  modify fun s => { s with Sv := l }

/-- New cluster label, DB.py:80-107. -/
noncomputable def incNew (sample : Vec) (i : ℕ) : Py Core Unit := do
  let s ← get
  let Dn ← lift (distNew s.nClusters i s.D (dist s sample))
  incClusters
  appendN 1
  appendCP 0
  appendS 0
  vstackV sample
  vstackG (Vec.zeros s.dim)
  modify fun s => { s with D := Dn }

/-- Old cluster label, DB.py:111-147. -/
noncomputable def incOld (sample : Vec) (i : ℕ) : Py Core Unit := do
  let s ← get
  let st ← lift (oldStats sample i s)
  let sNew := st.cpNew / .fin (st.nNew : ℝ)
  let d ← lift (columnOld s.nClusters i (dist s st.vNew))
  setN i st.nNew
  setV i st.vNew
  setCP i st.cpNew
  setG i st.gNew
  setS i sNew
  setD i d

/-- `DB._param_inc` after its first statement, DB.py:65-150. -/
noncomputable def incBody (sample : Vec) (i : ℕ) : Py Core Unit := do
  let s0 ← get
  setupOrMu setup sample
  let s ← get
  (if (i : ℤ) > (s.nClusters : ℤ) - 1 then incNew sample i else incOld sample i)
  modify fun s => { s with nSamples := s0.nSamples + 1 }

/-- Loop body of `DB._param_batch`, DB.py:177-185.  `_CP[ix]` is a numpy float, so an empty cluster gives NaN. -/
noncomputable def batchStep (data : Arr2) (labels : List ℤ) (ix : ℕ) : Py Core Unit := do
  let subset ← lift (data.take (subsetIndices labels ix))
  setN ix subset.rows.length
  setV ix subset.mean0
  let cp ← lift (batchScatter subset subset.mean0)
  setCP ix cp
  setS ix (cp / .fin (subset.rows.length : ℝ))

/-- `np.sum((self._v[ix, :] - self._v[jx, :]) ** 2)`, DB.py:190. -/
noncomputable def batchDist (s : Core) (ix jx : ℕ) : Except PyErr XR := do
  let a ← s.v.row ix
  let b ← s.v.row jx
  Vec.sqDist a b

/-- `DB._param_batch`, DB.py:153-193. -/
noncomputable def paramBatch (data : Arr2) (labels : List ℤ) : Py Core Unit := do
  Base.setupBatch data
  let k := uniqueSize labels
  modify fun s => { s with
    mu := data.mean0
    nClusters := k
    n := ⟨false, List.replicate k 0⟩
    v := Arr2.zeros k s.dim
    CP := some ⟨false, Vec.zeros k⟩
    G := some (Arr2.zeros k s.dim)
    D := Arr2.zeros k k
    Sv := ⟨false, Vec.zeros k⟩ }
  forEach (List.range k) (batchStep data labels)
  let s ← get
  let D ← lift (Arr2.upperTri k (batchDist s))
  let D' ← lift (D.add D.transpose)
  modify fun s => { s with D := D' }

/-- `(self._S[ix] + self._S[jx]) / self._D[jx, ix]`, DB.py:205-207; written to `R[jx, ix]` for `ix < jx`. -/
noncomputable def ratio (s : Core) (ix jx : ℕ) : Except PyErr XR := do
  let a ← s.Sv.get ix
  let b ← s.Sv.get jx
  let d ← s.D.get jx ix
  pure ((a + b) / d)

/-- The matrix `_R` after DB.py:202-208: `R[jx, ix]` written below the diagonal, then `R + R.T`. -/
noncomputable def ratios (s : Core) : Except PyErr Arr2 := do
  let U ← Arr2.upperTri s.nClusters (ratio s)
  U.transpose.add U.transpose.transpose

/-- `DB._evaluate`, DB.py:196-213. -/
noncomputable def evaluate : Py Core Unit := do
  let s ← get
  (if s.nClusters > 1 then do
    let R ← lift (ratios s)
    modify fun s => { s with R := R }
    let ms ← lift (mapE (fun j => do let c ← R.col j; Vec.amax c) (List.range R.cols))
    modify fun s => { s with criterion := ms.sum / .fin (s.nClusters : ℝ) }
  else modify fun s => { s with criterion := .fin 0 })

end Verif.DB

namespace Verif
/-- Class `DB`, DB.py:19-213. -/
noncomputable def DBmod : Module where
  abstract := false
  init := Core.init
  incBody := DB.incBody
  paramBatch := DB.paramBatch
  evaluate := DB.evaluate
end Verif
