import Verif.Model.Common
import Verif.Linalg
import Mathlib.Analysis.SpecialFunctions.Pow.Real
import Mathlib.Analysis.Real.Pi.Bounds

/-! # Model of `src/cvi/modules/rCIP.py` -/

namespace Verif.RCIP
open Py

/-- `np.eye(dim) * 10.0 ** (-12.0 / dim)`, rCIP.py:57-59 and 163-165.  `-12.0 / 0` on Python numbers raises ZeroDivisionError. -/
noncomputable def deltaTerm (dim : ℕ) : Except PyErr Arr2 :=
  if dim = 0 then .error .zeroDivisionError
  else
    let delta := (10 : ℝ) ^ (-(12 : ℝ) / (dim : ℝ))
    .ok ⟨dim, (List.range dim).map fun i => (List.range dim).map fun j =>
      (if i = j then XR.fin 1 else XR.fin 0) * XR.fin delta⟩

/-- `rCIP._setup`, rCIP.py:47-59. -/
noncomputable def setup (sample : Vec) : Py Core Unit := do
  Base.setup sample
  modify fun s => { s with sigma := [], sigmaShape := (s.dim, s.dim) }
  let s ← get
  let dt ← lift (deltaTerm s.dim)
  modify fun s => { s with deltaTerm := dt }

/-- `1 / np.sqrt((2 * np.pi) ** dim)`, rCIP.py:77 and 166. -/
noncomputable def normConst (dim : ℕ) : XR :=
  .fin 1 / XR.sqrt (.fin ((2 * Real.pi) ^ dim))

/-- `-0.5 * diff_m @ inv @ diff_m`, evaluated left to right, rCIP.py:98, 140, 201. -/
noncomputable def quad (diffM : Vec) (inv : Arr2) : Except PyErr XR := do
  let w ← Arr2.vecMul (Vec.smul (.fin (-(1 / 2))) diffM) inv
  Vec.inner w diffM

/-- `constant * (1 / np.sqrt(np.linalg.det(sigma_q))) * np.exp(-0.5 * diff_m @ np.linalg.inv(sigma_q) @ diff_m)`
with `diff_m = v1 - v2` and `sigma_q = sigma1 + sigma2`.  rCIP.py:92-100, 134-142, 195-203. -/
noncomputable def cip (constant : XR) (v1 v2 : Vec) (sigma1 sigma2 : Arr2) : Except PyErr XR := do
  let diffM ← Vec.sub v1 v2
  let sigmaQ ← Arr2.add sigma1 sigma2
  let dt ← sigmaQ.det
  let inv ← sigmaQ.inv
  let q ← quad diffM inv
  pure (constant * (.fin 1 / XR.sqrt dt) * XR.exp q)

/-- `self._sigma[:, :, j]` -/
def page {F : Type} (s : Core F) (j : ℕ) : Except PyErr (Arr2 F) :=
  match s.sigma[j]? with
  | some p => .ok p
  | none => .error .indexError

/-- The distance of a cluster with centroid `vNew` and covariance `sigmaNew` to cluster `jx`, rCIP.py:92-100, 134-142. -/
noncomputable def dist (s : Core) (vNew : Vec) (sigmaNew : Arr2) (jx : ℕ) : Except PyErr XR := do
  let r ← s.v.row jx
  let sg ← page s jx
  cip s.constant vNew r sigmaNew sg

/-- `self._sigma = np.dstack((self._sigma, x))`, rCIP.py:113. -/
def dstackSigma {F : Type} (x : Arr2 F) : Py (Core F) Unit := do
  let s ← get
  (if s.sigmaShape = (x.rows.length, x.cols) then modify fun s => { s with sigma := s.sigma ++ [x] }
  else raise .valueError)

/-- `self._sigma[:, :, i] = x`, rCIP.py:147, 184-191. -/
def setSigma {F : Type} [Zero F] (i : ℕ) (x : Arr2 F) : Py (Core F) Unit := do
  let s ← get
  (if i < s.sigma.length then do
    let y ← lift (x.broadcastTo s.sigmaShape.1 s.sigmaShape.2)
    modify fun s => { s with sigma := s.sigma.set i y }
  else raise .indexError)

/-- New cluster label, rCIP.py:82-113. -/
noncomputable def incNew (sample : Vec) (i : ℕ) : Py Core Unit := do
  let s ← get
  let Dn ← lift (distNew s.nClusters i s.D (dist s sample s.deltaTerm))
  incClusters
  appendN 1
  vstackV sample
  modify fun s => { s with D := Dn }
  dstackSigma s.deltaTerm

/-- `((n_new - 2) / (n_new - 1)) * (sigma - delta_term) + (1 / n_new) * np.outer(diff_x_v, diff_x_v) + delta_term`
with `n_new = nOld + 1`, rCIP.py:123-128.  `_n` holds Python ints, so `n_new = 1` raises ZeroDivisionError. -/
noncomputable def sigmaNew (nOld : ℕ) (sigma deltaTerm : Arr2) (diffXV : Vec) : Except PyErr Arr2 := do
  let q ← pyDiv ((nOld : ℤ) - 1) (nOld : ℤ)
  let d ← Arr2.sub sigma deltaTerm
  let t ← Arr2.add (Arr2.smul q d) (Arr2.smul (.fin (1 / ((nOld + 1 : ℕ) : ℝ))) (Arr2.outer diffXV diffXV))
  Arr2.add t deltaTerm

/-- Old cluster label, rCIP.py:117-149. -/
noncomputable def incOld (sample : Vec) (i : ℕ) : Py Core Unit := do
  let s ← get
  let nOld ← lift (s.n.get i)
  let vRow ← lift (s.v.row i)
  let vNew ← lift (runningMean (nOld + 1) vRow sample)
  let diffXV ← lift (Vec.sub sample vRow)
  let sg ← lift (page s i)
  let sgNew ← lift (sigmaNew nOld sg s.deltaTerm diffXV)
  let d ← lift (columnOld s.nClusters i (dist s vNew sgNew))
  setN i (nOld + 1)
  setV i vNew
  setSigma i sgNew
  setD i d

/-- `rCIP._param_inc` after its first statement, rCIP.py:71-152. -/
noncomputable def incBody (sample : Vec) (i : ℕ) : Py Core Unit := do
  let s0 ← get
  setupIfFirst setup sample
  modify fun s => { s with constant := normConst s.dim }
  let s ← get
  (if (i : ℤ) > (s.nClusters : ℤ) - 1 then incNew sample i else incOld sample i)
  modify fun s => { s with nSamples := s0.nSamples + 1 }

/-- `(1 / (n - 1)) * (np.transpose(subset) @ subset - n * np.outer(v, v)) + delta_term`, rCIP.py:184-189. -/
noncomputable def batchSigma (subset : Arr2) (v : Vec) (deltaTerm : Arr2) : Except PyErr Arr2 := do
  let sc ← Arr2.matmul subset.transpose subset
  let d ← Arr2.sub sc (Arr2.smul (.fin subset.rows.length) (Arr2.outer v v))
  Arr2.add (Arr2.smul (.fin (1 / ((subset.rows.length : ℝ) - 1))) d) deltaTerm

/-- Loop body of `rCIP._param_batch`, rCIP.py:177-191. -/
noncomputable def batchStep (data : Arr2) (labels : List ℤ) (ix : ℕ) : Py Core Unit := do
  let subset ← lift (data.take (subsetIndices labels ix))
  setN ix subset.rows.length
  setV ix subset.mean0
  let s ← get
  (if subset.rows.length > 1 then do
    let sg ← lift (batchSigma subset subset.mean0 s.deltaTerm)
    setSigma ix sg
  else setSigma ix s.deltaTerm)

/-- Entry `ix, jx` of the batch matrix, rCIP.py:195-203. -/
noncomputable def batchDist (s : Core) (ix jx : ℕ) : Except PyErr XR := do
  let a ← s.v.row ix
  let b ← s.v.row jx
  let p ← page s ix
  let q ← page s jx
  cip s.constant a b p q

/-- `rCIP._param_batch`, rCIP.py:155-205. -/
noncomputable def paramBatch (data : Arr2) (labels : List ℤ) : Py Core Unit := do
  Base.setupBatch data
  let dt ← lift (deltaTerm data.cols)
  let k := uniqueSize labels
  modify fun s => { s with
    deltaTerm := dt
    constant := normConst s.dim
    nClusters := k
    n := ⟨false, List.replicate k 0⟩
    v := Arr2.zeros k s.dim
    sigma := List.replicate k (Arr2.zeros s.dim s.dim)
    sigmaShape := (s.dim, s.dim)
    D := Arr2.zeros k k }
  forEach (List.range k) (batchStep data labels)
  let s ← get
  let D ← lift (Arr2.upperTri k (batchDist s))
  let D' ← lift (D.add D.transpose)
  modify fun s => { s with D := D' }

/-- `rCIP._evaluate`, rCIP.py:208-219. -/
noncomputable def evaluate : Py Core Unit := do
  let s ← get
  (if s.D.rows.length > 1 then do
    let values ← lift (s.D.triu s.D.rows.length)
    modify fun s => { s with criterion := values.sum }
  else modify fun s => { s with criterion := .fin 0 })

end Verif.RCIP

namespace Verif
/-- Class `rCIP`, rCIP.py:19-219. -/
noncomputable def RCIPmod : Module where
  abstract := false
  init := { Core.init with CP := none }
  incBody := RCIP.incBody
  paramBatch := RCIP.paramBatch
  evaluate := RCIP.evaluate
end Verif
