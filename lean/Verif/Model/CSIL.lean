import Verif.Model.Common

/-! # Model of `src/cvi/modules/cSIL.py` -/

namespace Verif.CSIL
open Py

/-- `cSIL._setup`, cSIL.py:43-49. -/
noncomputable def setup (sample : Vec) : Py Core Unit := Base.setup sample

/-- `CP_new + np.inner(v, v) - np.inner(G_new, v)` with `v = self._v[cl, :]`, cSIL.py:85-90. -/
noncomputable def colNew (s : Core) (cpNew : XR) (gNew : Vec) (cl : ℕ) : Except PyErr XR := do
  let r ← s.v.row cl
  let a ← Vec.inner r r
  let b ← Vec.inner gNew r
  pure (cpNew + a - b)

/-- `(self._CP[cl] + self._n[cl] * np.inner(v_new, v_new) - 2 * np.inner(self._G[cl, :], v_new)) / self._n[cl]`,
cSIL.py:91-96 and 147-152. -/
noncomputable def rowEntry (s : Core) (vNew : Vec) (cl : ℕ) : Except PyErr XR := do
  let cps ← attr s.CP
  let cp ← cps.get cl
  let m ← s.n.get cl
  let a ← Vec.inner vNew vNew
  let g ← attr s.G
  let gRow ← g.row cl
  let b ← Vec.inner gRow vNew
  pure ((cp + .fin m * a - .fin 2 * b) / .fin (m : ℝ))

/-- `S_new` for a new cluster label, cSIL.py:76-101. -/
noncomputable def sNew (s : Core) (i : ℕ) (sample : Vec) (cpNew : XR) : Except PyErr Arr2 :=
  if s.nClusters = 0 then .ok (Arr2.zeros 1 1)
  else do
    let Sn ← enlarge s.nClusters s.Sm
    let c ← columnNew s.nClusters (colNew s cpNew sample)
    let r ← columnNew s.nClusters (rowEntry s sample)
    setCross Sn i c r

/-- New cluster label, cSIL.py:70-111. -/
noncomputable def incNew (sample : Vec) (i : ℕ) : Py Core Unit := do
  let s ← get
  let cpNew ← lift (Vec.inner sample sample)
  let Sn ← lift (sNew s i sample cpNew)
  incClusters
  appendN 1
  appendCP cpNew
  vstackV sample
  vstackG sample
  modify fun s => { s with Sm := Sn }

/-- `(CP[i] + np.inner(d, d) + n[i] * np.inner(v, v) - 2 * np.inner(G, v)) / n_new` with `d = sample - v`.
cSIL.py:138-145 (`G = G_new`, `v = self._v[cl, :]`) and cSIL.py:155-162 (`G = self._G[i, :]`, `v = v_new`). -/
noncomputable def colOldEntry (cpOld : XR) (nOld : ℕ) (g sample v : Vec) : Except PyErr XR := do
  let d ← Vec.sub sample v
  let a ← Vec.inner d d
  let b ← Vec.inner v v
  let c ← Vec.inner g v
  pure ((cpOld + a + .fin nOld * b - .fin 2 * c) / .fin ((nOld + 1 : ℕ) : ℝ))

/-- `S_col_new` for an existing cluster, cSIL.py:132-145 and 162. -/
noncomputable def colOld (s : Core) (i : ℕ) (cpOld : XR) (nOld : ℕ) (gN sample : Vec) (own : XR) : Except PyErr Vec :=
  mapE (fun cl => if cl = i then .ok own else do
    let r ← s.v.row cl
    colOldEntry cpOld nOld gN sample r) (List.range s.nClusters)

/-- `S_row_new` for an existing cluster, cSIL.py:131, 147-152 and 163. -/
noncomputable def rowOld (s : Core) (i : ℕ) (vNew : Vec) (own : XR) : Except PyErr Vec :=
  mapE (fun cl => if cl = i then .ok own else rowEntry s vNew cl) (List.range s.nClusters)

/-- `self._S[i, :] = c; self._S[:, i] = r`, cSIL.py:173-174. -/
def setS {F : Type} [Zero F] (i : ℕ) (c r : Vec F) : Py (Core F) Unit := do
  let s ← get
  let S1 ← lift (s.Sm.setRow i c)
  modify fun s => { s with Sm := S1 }
  let S2 ← lift (S1.setCol i r)
  modify fun s => { s with Sm := S2 }

/-- Old cluster label, cSIL.py:115-174. -/
noncomputable def incOld (sample : Vec) (i : ℕ) : Py Core Unit := do
  let s ← get
  let nOld ← lift (s.n.get i)
  let vRow ← lift (s.v.row i)
  let vNew ← lift (runningMean (nOld + 1) vRow sample)
  let cps ← lift (attr s.CP)
  let cpOld ← lift (cps.get i)
  let xx ← lift (Vec.inner sample sample)
  let g ← lift (attr s.G)
  let gRow ← lift (g.row i)
  let gN ← lift (Vec.add gRow sample)
  let own ← lift (colOldEntry cpOld nOld gRow sample vNew)
  let c ← lift (colOld s i cpOld nOld gN sample own)
  let r ← lift (rowOld s i vNew own)
  setN i (nOld + 1)
  setV i vNew
  setCP i (cpOld + xx)
  setG i gN
  setS i c r

/-- `cSIL._param_inc` after its first statement, cSIL.py:61-177. -/
noncomputable def incBody (sample : Vec) (i : ℕ) : Py Core Unit := do
  let s0 ← get
  setupIfFirst setup sample
  let s ← get
  (if (i : ℤ) > (s.nClusters : ℤ) - 1 then incNew sample i else incOld sample i)
  modify fun s => { s with nSamples := s0.nSamples + 1 }

/-- Loop body of `cSIL._param_batch`, cSIL.py:197-209, without the rows of the local matrix `D`.
`D[ix, :] = ...` (line 209) raises IndexError when `ix ≥ n_samples`. -/
noncomputable def batchStep (data : Arr2) (labels : List ℤ) (ix : ℕ) : Py Core Unit := do
  let subset ← lift (data.take (subsetIndices labels ix))
  setN ix subset.rows.length
  setV ix subset.mean0
  let cp ← lift (batchScatter subset subset.mean0)
  setCP ix cp
  (if ix < data.rows.length then pure () else raise .indexError)

/-- Row `ix` of the local matrix `D`: the squared distance of every sample to centroid `ix`, cSIL.py:208-209. -/
noncomputable def distRow (data : Arr2) (s : Core) (ix : ℕ) : Except PyErr Vec := do
  let v ← s.v.row ix
  mapE (fun r => Vec.sqDist r v) data.rows

/-- `sum(D[ix, subset_ind]) / self._n[jx]`, cSIL.py:214-215 (`_n` is an integer array: division by zero gives NaN). -/
noncomputable def batchEntry (data : Arr2) (labels : List ℤ) (s : Core) (jx ix : ℕ) : Except PyErr XR := do
  let d ← distRow data s ix
  let xs ← mapE (fun t => match d[t]? with
    | some x => .ok x
    | none => .error .indexError) (subsetIndices labels jx)
  let m ← s.n.get jx
  pure (xs.sum / .fin (m : ℝ))

/-- `cSIL._param_batch`, cSIL.py:180-215. -/
noncomputable def paramBatch (data : Arr2) (labels : List ℤ) : Py Core Unit := do
  Base.setupBatch data
  let k := uniqueSize labels
  modify fun s => { s with
    nClusters := k
    n := ⟨true, List.replicate k 0⟩
    v := Arr2.zeros k s.dim
    CP := some ⟨true, Vec.zeros k⟩
    Sm := Arr2.zeros k k }
  forEach (List.range k) (batchStep data labels)
  let s ← get
  let rows ← lift (mapE (fun jx => mapE (fun ix => batchEntry data labels s jx ix) (List.range k)) (List.range k))
  modify fun s => { s with Sm := ⟨k, rows⟩ }

/-- The silhouette coefficient of cluster `ix`, cSIL.py:227-232. -/
noncomputable def coef (S : Arr2) (ix : ℕ) : Except PyErr XR := do
  let a ← S.get ix ix
  let c ← S.col ix
  let loc ← Vec.delete c ix
  let b ← Vec.amin loc
  pure ((b - a) / XR.max a b)

/-- `cSIL._evaluate`, cSIL.py:218-237. -/
noncomputable def evaluate : Py Core Unit := do
  modify fun s => { s with silCoefs := Vec.zeros s.nClusters }
  let s ← get
  (if s.nClusters > 1 ∧ s.Sm.any = true then do
    let cs ← lift (mapE (coef s.Sm) (List.range s.nClusters))
    modify fun s => { s with
      silCoefs := cs
      criterion := cs.sum / .fin (s.nClusters : ℝ) }
  else modify fun s => { s with criterion := .fin 0 })

end Verif.CSIL

namespace Verif
/-- Class `cSIL`, cSIL.py:19-237. -/
noncomputable def CSILmod : Module where
  abstract := false
  init := Core.init
  incBody := CSIL.incBody
  paramBatch := CSIL.paramBatch
  evaluate := CSIL.evaluate
end Verif
