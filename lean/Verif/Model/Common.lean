import Verif.Model.Base

/-!
# Statements shared by the incremental updates

The nine `_param_inc` methods contain the same statements over and over.  Each is modelled once, with all places cited.
-/

namespace Verif
open Py

variable {F : Type}

/-- `(1 - 1 / n_new) * old + (1 / n_new) * sample`.
Centroid: CH.py:100-103, WB.py:102-105, XB.py:112-115, DB.py:112-115, GD43.py:114-117, GD53.py:114-117, PS.py:101-104,
rCIP.py:118-121, cSIL.py:116-119.  Mean of all samples: CH.py:75-78, WB.py:77-80, XB.py:73-76, DB.py:72-75,
GD43.py:76-79, GD53.py:76-79.  `n_new ≥ 1` at every use, so the divisions cannot raise. -/
noncomputable def runningMean (nNew : ℕ) (old sample : Vec) : Except PyErr Vec :=
  Vec.add (Vec.smul (.fin (1 - 1 / (nNew : ℝ))) old) (Vec.smul (.fin (1 / (nNew : ℝ))) sample)

/-- `CP + inner(diff_x_v, diff_x_v) + n * inner(delta_v, delta_v) + 2 * inner(delta_v, G[i, :])`.
CH.py:106-111, WB.py:108-113, XB.py:118-123, DB.py:118-123, GD43.py:120-125, GD53.py:120-125. -/
noncomputable def compactnessNew (CPold : XR) (nOld : ℕ) (diffXV deltaV gRow : Vec) : Except PyErr XR := do
  let a ← Vec.inner diffXV diffXV
  let b ← Vec.inner deltaV deltaV
  let c ← Vec.inner deltaV gRow
  pure (CPold + a + .fin nOld * b + .fin 2 * c)

/-- `G[i, :] + diff_x_v + n * delta_v`.
CH.py:112-116, WB.py:114-118, XB.py:124-128, DB.py:124-128, GD43.py:126-130, GD53.py:126-130. -/
noncomputable def gNew (nOld : ℕ) (gRow diffXV deltaV : Vec) : Except PyErr Vec := do
  let t ← Vec.add gRow diffXV
  Vec.add t (Vec.smul (.fin nOld) deltaV)

/-- The column of distances from a new cluster to the `k` existing ones, then a zero for itself:
`d = np.zeros(k + 1); for jx in range(k): d[jx] = f(jx)`.
XB.py:91-95, DB.py:90-94, GD43.py:93-97, GD53.py:93-97, PS.py:82-86, rCIP.py:90-100. -/
def columnNew [Zero F] (k : ℕ) (f : ℕ → Except PyErr F) : Except PyErr (Vec F) := do
  let c ← mapE f (List.range k)
  pure (c ++ [0])

/-- The column of distances from an existing cluster `i`, zero at `i` itself:
`d = np.zeros(k); for jx in range(k): if jx == i: continue; d[jx] = f(jx)`.
XB.py:129-136, DB.py:130-137, GD43.py:131-138, GD53.py:131-138, PS.py:105-112, rCIP.py:129-142. -/
def columnOld [Zero F] (k i : ℕ) (f : ℕ → Except PyErr F) : Except PyErr (Vec F) :=
  mapE (fun jx => if jx = i then .ok 0 else f jx) (List.range k)

/-- `D_new = np.zeros((k+1, k+1)); D_new[0:k, 0:k] = D`.
XB.py:89-90, DB.py:88-89, GD43.py:91-92, GD53.py:91-92, PS.py:80-81, rCIP.py:88-89, cSIL.py:79-80. -/
def enlarge [Zero F] (k : ℕ) (D : Arr2 F) : Except PyErr (Arr2 F) := do
  let b ← D.broadcastTo k k
  pure ⟨k + 1, b.rows.map (· ++ [0]) ++ [Vec.zeros (k + 1)]⟩

/-- `D_new[i, :] = r; D_new[:, i] = c` on a local matrix.
XB.py:96-97, DB.py:95-96, GD43.py:98-99, GD53.py:98-99, PS.py:87-88, rCIP.py:101-102 (there with `r = c`), cSIL.py:100-101. -/
def setCross [Zero F] (D : Arr2 F) (i : ℕ) (r c : Vec F) : Except PyErr (Arr2 F) := do
  let D1 ← D.setRow i r
  D1.setCol i c

/-- `D_new` for a new cluster label.
XB.py:86-97, DB.py:85-96, GD43.py:88-99, GD53.py:88-99, PS.py:77-88, rCIP.py:85-102. -/
def distNew [Zero F] (k i : ℕ) (D : Arr2 F) (f : ℕ → Except PyErr F) : Except PyErr (Arr2 F) :=
  if k = 0 then .ok (Arr2.zeros 1 1)
  else do
    let Dn ← enlarge k D
    let d ← columnNew k f
    setCross Dn i d d

/-- `self._n.append(x)`, with `_n` possibly an array. -/
def appendN (x : ℕ) : Py (Core F) Unit := do
  let s ← get
  let n ← lift (s.n.append x)
  modify fun s => { s with n := n }

/-- `self._CP.append(x)` -/
def appendCP (x : F) : Py (Core F) Unit := do
  let s ← get
  let cp ← lift (attr s.CP)
  let cp ← lift (cp.append x)
  modify fun s => { s with CP := some cp }

/-- `self._v = np.vstack([self._v, x])` -/
def vstackV (x : Vec F) : Py (Core F) Unit := do
  let s ← get
  let v ← lift (s.v.vstack x)
  modify fun s => { s with v := v }

/-- `self._G = np.vstack([self._G, x])` -/
def vstackG (x : Vec F) : Py (Core F) Unit := do
  let s ← get
  let g ← lift (attr s.G)
  let g ← lift (g.vstack x)
  modify fun s => { s with G := some g }

/-- `self._n_clusters += 1` -/
def incClusters : Py (Core F) Unit := modify fun s => { s with nClusters := s.nClusters + 1 }

/-- `self._n[i] = x` -/
def setN (i x : ℕ) : Py (Core F) Unit := do
  let s ← get
  let n ← lift (s.n.set i x)
  modify fun s => { s with n := n }

/-- `self._v[i, :] = x` -/
def setV [Zero F] (i : ℕ) (x : Vec F) : Py (Core F) Unit := do
  let s ← get
  let v ← lift (s.v.setRow i x)
  modify fun s => { s with v := v }

/-- `self._CP[i] = x` -/
def setCP (i : ℕ) (x : F) : Py (Core F) Unit := do
  let s ← get
  let cp ← lift (attr s.CP)
  let cp ← lift (cp.set i x)
  modify fun s => { s with CP := some cp }

/-- `self._G[i, :] = x` -/
def setG [Zero F] (i : ℕ) (x : Vec F) : Py (Core F) Unit := do
  let s ← get
  let g ← lift (attr s.G)
  let g ← lift (g.setRow i x)
  modify fun s => { s with G := some g }

/-- `self._D[i, :] = x; self._D[:, i] = x`.
XB.py:143-144, DB.py:145-147, GD43.py:145-146, GD53.py:145-146, PS.py:117-118, rCIP.py:148-149. -/
def setD [Zero F] (i : ℕ) (x : Vec F) : Py (Core F) Unit := do
  let s ← get
  let D1 ← lift (s.D.setRow i x)
  modify fun s => { s with D := D1 }
  let D2 ← lift (D1.setCol i x)
  modify fun s => { s with D := D2 }

/-- `if self._n_samples == 0: self._setup(sample) else: self._mu = (1 - 1/n) * self._mu + (1/n) * sample`, where
`setupC` is the class's `_setup`.  CH.py:72-78, WB.py:74-80, XB.py:70-76, DB.py:69-75, GD43.py:73-79, GD53.py:73-79. -/
noncomputable def setupOrMu (setupC : Vec → Py Core Unit) (sample : Vec) : Py Core Unit := do
  let s ← get
  if s.nSamples = 0 then setupC sample
  else do
    let mu ← lift (runningMean (s.nSamples + 1) s.mu sample)
    modify fun s => { s with mu := mu }

/-- `if self._n_samples == 0: self._setup(sample)`. PS.py:69-70, rCIP.py:74-75, cSIL.py:64-65. -/
def setupIfFirst (setupC : Vec F → Py (Core F) Unit) (sample : Vec F) : Py (Core F) Unit := do
  let s ← get
  if s.nSamples = 0 then setupC sample else pure ()

/-- The values computed for an existing cluster `i` before anything is assigned: `n_new`, `v_new`, `CP_new`, `G_new`.
CH.py:99-116, WB.py:101-118, XB.py:111-128, DB.py:111-128, GD43.py:113-130, GD53.py:113-130. -/
structure OldStats (F : Type := XR) where
  nNew : ℕ
  vNew : Vec F
  cpNew : F
  gNew : Vec F

/-- See `OldStats`. -/
noncomputable def oldStats (sample : Vec) (i : ℕ) (s : Core) : Except PyErr OldStats := do
  let nOld ← s.n.get i
  let nNew := nOld + 1
  let vRow ← s.v.row i
  let vNew ← runningMean nNew vRow sample
  let deltaV ← Vec.sub vRow vNew
  let diffXV ← Vec.sub sample vNew
  let cps ← attr s.CP
  let cpOld ← cps.get i
  let g ← attr s.G
  let gRow ← g.row i
  let cpNew ← compactnessNew cpOld nOld diffXV deltaV gRow
  let gN ← gNew nOld gRow diffXV deltaV
  pure ⟨nNew, vNew, cpNew, gN⟩

/-- `[x for x in range(len(labels)) if labels[x] == ix]`, the first statement of every batch loop, e.g. CH.py:150-152. -/
def subsetIndices (labels : List ℤ) (ix : ℕ) : List ℕ :=
  (List.range labels.length).filter fun x => decide (labels[x]? = some (ix : ℤ))

/-- `np.unique(labels).size`, e.g. CH.py:142-143. -/
def uniqueSize (labels : List ℤ) : ℕ := labels.dedup.length

/-- `np.sum((subset - v * np.ones((n, 1))) ** 2)`, e.g. CH.py:156-157.  `v` is the mean of the rows of `subset`, so the
shapes agree. -/
noncomputable def batchScatter (subset : Arr2) (v : Vec) : Except PyErr XR := do
  let ds ← mapE (fun r => Vec.sqDist r v) subset.rows
  pure ds.sum

end Verif
