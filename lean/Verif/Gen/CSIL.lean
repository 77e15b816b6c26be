import Verif.Model.CSIL
import Verif.Gen.Common

/-! # `Verif/Model/CSIL.lean` over an arbitrary arithmetic -/

namespace Verif.Gen.CSIL
open Py

variable {F : Type} [Arith F]

/-- `cSIL._setup`, cSIL.py:43-49. -/
def setup (sample : Vec F) : Py (Core F) Unit := Base.setup sample

/-- `CP_new + np.inner(v, v) - np.inner(G_new, v)` with `v = self._v[cl, :]`, cSIL.py:85-90. -/
def colNew (s : Core F) (cpNew : F) (gNew : Vec F) (cl : ℕ) : Except PyErr F := do
  let r ← s.v.row cl
  let a ← Vec.inner r r
  let b ← Vec.inner gNew r
  pure (cpNew + a - b)

/-- `(self._CP[cl] + self._n[cl] * np.inner(v_new, v_new) - 2 * np.inner(self._G[cl, :], v_new)) / self._n[cl]`,
cSIL.py:91-96 and 147-152. -/
def rowEntry (s : Core F) (vNew : Vec F) (cl : ℕ) : Except PyErr F := do
  let cps ← attr s.CP
  let cp ← cps.get cl
  let m ← s.n.get cl
  let a ← Vec.inner vNew vNew
  let g ← attr s.G
  let gRow ← g.row cl
  let b ← Vec.inner gRow vNew
  pure ((cp + Arith.ofNat m * a - Arith.two * b) / Arith.ofNat m)

/-- `S_new` for a new cluster label, cSIL.py:76-101. -/
def sNew (s : Core F) (i : ℕ) (sample : Vec F) (cpNew : F) : Except PyErr (Arr2 F) :=
  if s.nClusters = 0 then .ok (Arr2.zeros 1 1)
  else do
    let Sn ← enlarge s.nClusters s.Sm
    let c ← columnNew s.nClusters (colNew s cpNew sample)
    let r ← columnNew s.nClusters (rowEntry s sample)
    setCross Sn i c r

/-- New cluster label, cSIL.py:70-111. -/
def incNew (sample : Vec F) (i : ℕ) : Py (Core F) Unit := do
  let s ← get
  let cpNew ← lift (Vec.inner sample sample)
  let Sn ← lift (sNew s i sample cpNew)
  incClusters
  appendN 1
  appendCP cpNew
  vstackV sample
  vstackG sample
  modify fun s => { s with Sm := Sn }

/-- `(CP[i] + np.inner(d, d) + n[i] * np.inner(v, v) - 2 * np.inner(G, v)) / n_new` with `d = sample - v`.
cSIL.py:138-145 (`G = G_new`, `v = self._v[cl, :]`) and cSIL.py:155-162 (`G = self._G[i, :]`, `v = v_new`). -/
def colOldEntry (cpOld : F) (nOld : ℕ) (g sample v : Vec F) : Except PyErr F := do
  let d ← Vec.sub sample v
  let a ← Vec.inner d d
  let b ← Vec.inner v v
  let c ← Vec.inner g v
  pure ((cpOld + a + Arith.ofNat nOld * b - Arith.two * c) / Arith.ofNat (nOld + 1))

/-- `S_col_new` for an existing cluster, cSIL.py:132-145 and 162. -/
def colOld (s : Core F) (i : ℕ) (cpOld : F) (nOld : ℕ) (gN sample : Vec F) (own : F) : Except PyErr (Vec F) :=
  mapE (fun cl => if cl = i then .ok own else do
    let r ← s.v.row cl
    colOldEntry cpOld nOld gN sample r) (List.range s.nClusters)

/-- `S_row_new` for an existing cluster, cSIL.py:131, 147-152 and 163. -/
def rowOld (s : Core F) (i : ℕ) (vNew : Vec F) (own : F) : Except PyErr (Vec F) :=
  mapE (fun cl => if cl = i then .ok own else rowEntry s vNew cl) (List.range s.nClusters)

/-- Old cluster label, cSIL.py:115-174. -/
def incOld (sample : Vec F) (i : ℕ) : Py (Core F) Unit := do
  let s ← get
  let nOld ← lift (s.n.get i)
  let vRow ← lift (s.v.row i)
  let vNew ← lift (runningMean (nOld + 1) vRow sample)
  let cps ← lift (attr s.CP)
  let cpOld ← lift (cps.get i)
  let xx ← lift (Vec.inner sample sample)
  let g ← lift (attr s.G)
  let gRow ← lift (g.row i)
  let gN ← lift (Vec.add gRow sample)
  let own ← lift (colOldEntry cpOld nOld gRow sample vNew)
  let c ← lift (colOld s i cpOld nOld gN sample own)
  let r ← lift (rowOld s i vNew own)
  setN i (nOld + 1)
  setV i vNew
  setCP i (cpOld + xx)
  setG i gN
  Verif.CSIL.setS i c r

/-- `cSIL._param_inc` after its first statement, cSIL.py:61-177. -/
def incBody (sample : Vec F) (i : ℕ) : Py (Core F) Unit := do
  let s0 ← get
  setupIfFirst setup sample
  let s ← get
  (if (i : ℤ) > (s.nClusters : ℤ) - 1 then incNew sample i else incOld sample i)
  modify fun s => { s with nSamples := s0.nSamples + 1 }

/-- Loop body of `cSIL._param_batch`, cSIL.py:197-209, without the rows of the local matrix `D`.
`D[ix, :] = ...` (line 209) raises IndexError when `ix ≥ n_samples`. -/
def batchStep (data : Arr2 F) (labels : List ℤ) (ix : ℕ) : Py (Core F) Unit := do
  let subset ← lift (data.take (subsetIndices labels ix))
  setN ix subset.rows.length
  setV ix (Arr2.mean0 subset)
  let cp ← lift (batchScatter subset (Arr2.mean0 subset))
  setCP ix cp
  (if ix < data.rows.length then pure () else raise .indexError)

/-- Row `ix` of the local matrix `D`: the squared distance of every sample to centroid `ix`, cSIL.py:208-209. -/
def distRow (data : Arr2 F) (s : Core F) (ix : ℕ) : Except PyErr (Vec F) := do
  let v ← s.v.row ix
  mapE (fun r => do let d ← Vec.sub r (v.map (· * Arith.one)); pure (Arith.rowSum (d.map Arith.sq))) data.rows

/-- `sum(D[ix, subset_ind]) / self._n[jx]`, cSIL.py:214-215 (`_n` is an integer array: division by zero gives NaN). -/
def batchEntry (data : Arr2 F) (labels : List ℤ) (s : Core F) (jx ix : ℕ) : Except PyErr F := do
  let d ← distRow data s ix
  let xs ← mapE (fun t => match d[t]? with
    | some x => .ok x
    | none => .error .indexError) (subsetIndices labels jx)
  let m ← s.n.get jx
  pure (Arith.pySum xs / Arith.ofNat m)

/-- `cSIL._param_batch`, cSIL.py:180-215. -/
def paramBatch (data : Arr2 F) (labels : List ℤ) : Py (Core F) Unit := do
  Base.setupBatch data
  let k := uniqueSize labels
  modify fun s => { s with
    nClusters := k
    n := ⟨true, List.replicate k 0⟩
    v := Arr2.zeros k s.dim
    CP := some ⟨true, Vec.zeros k⟩
    Sm := Arr2.zeros k k }
  forEach (List.range k) (batchStep data labels)
  let s ← get
  let rows ← lift (mapE (fun jx => mapE (fun ix => batchEntry data labels s jx ix) (List.range k)) (List.range k))
  modify fun s => { s with Sm := ⟨k, rows⟩ }

/-- The silhouette coefficient of cluster `ix`, cSIL.py:227-232. -/
def coef (S : Arr2 F) (ix : ℕ) : Except PyErr F := do
  let a ← S.get ix ix
  let c ← S.col ix
  let loc ← Vec.delete c ix
  let b ← Vec.amin loc
  pure ((b - a) / Arith.max2 a b)

/-- `cSIL._evaluate`, cSIL.py:218-237. -/
def evaluate : Py (Core F) Unit := do
  modify fun s => { s with silCoefs := Vec.zeros s.nClusters }
  let s ← get
  (if s.nClusters > 1 ∧ Arr2.any s.Sm = true then do
    let cs ← lift (mapE (coef s.Sm) (List.range s.nClusters))
    modify fun s => { s with
      silCoefs := cs
      criterion := Arith.npSum cs / Arith.ofNat s.nClusters }
  else modify fun s => { s with criterion := 0 })

end Verif.Gen.CSIL

namespace Verif.Gen
/-- Class `cSIL`, cSIL.py:19-237. -/
def CSILmod {F : Type} [Arith F] : Module F where
  abstract := false
  init := init
  incBody := CSIL.incBody
  paramBatch := CSIL.paramBatch
  evaluate := CSIL.evaluate
end Verif.Gen
