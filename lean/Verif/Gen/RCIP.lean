import Verif.Model.RCIP
import Verif.Gen.Common

/-! # `Verif/Model/RCIP.lean` over an arbitrary arithmetic -/

namespace Verif.Gen.RCIP
open Py

variable {F : Type} [Arith F]

/-- `np.eye(dim) * 10.0 ** (-12.0 / dim)`, rCIP.py:57-59 and 163-165.  `-12.0 / 0` on Python numbers raises ZeroDivisionError. -/
def deltaTerm (dim : ℕ) : Except PyErr (Arr2 F) :=
  if dim = 0 then .error .zeroDivisionError
  else
    .ok ⟨dim, (List.range dim).map fun i => (List.range dim).map fun j =>
      (if i = j then Arith.one else 0) * Arith.delta dim⟩

/-- `rCIP._setup`, rCIP.py:47-59. -/
def setup (sample : Vec F) : Py (Core F) Unit := do
  Base.setup sample
  modify fun s => { s with sigma := [], sigmaShape := (s.dim, s.dim) }
  let s ← get
  let dt ← lift (deltaTerm s.dim)
  modify fun s => { s with deltaTerm := dt }

/-- `-0.5 * diff_m @ inv @ diff_m`, evaluated left to right, rCIP.py:98, 140, 201. -/
def quad (diffM : Vec F) (inv : Arr2 F) : Except PyErr F := do
  let w ← Arr2.vecMul (Vec.smul Arith.negHalf diffM) inv
  Vec.inner w diffM

/-- `constant * (1 / np.sqrt(np.linalg.det(sigma_q))) * np.exp(-0.5 * diff_m @ np.linalg.inv(sigma_q) @ diff_m)`
with `diff_m = v1 - v2` and `sigma_q = sigma1 + sigma2`.  rCIP.py:92-100, 134-142, 195-203. -/
def cip (constant : F) (v1 v2 : Vec F) (sigma1 sigma2 : Arr2 F) : Except PyErr F := do
  let diffM ← Vec.sub v1 v2
  let sigmaQ ← Arr2.add sigma1 sigma2
  let dt ← Arith.det sigmaQ
  let inv ← Arith.inv sigmaQ
  let q ← quad diffM inv
  pure (constant * (Arith.one / Arith.sqrt dt) * Arith.exp q)

/-- The distance of a cluster with centroid `vNew` and covariance `sigmaNew` to cluster `jx`, rCIP.py:92-100, 134-142. -/
def dist (s : Core F) (vNew : Vec F) (sigmaNew : Arr2 F) (jx : ℕ) : Except PyErr F := do
  let r ← s.v.row jx
  let sg ← Verif.RCIP.page s jx
  cip s.constant vNew r sigmaNew sg

/-- New cluster label, rCIP.py:82-113. -/
def incNew (sample : Vec F) (i : ℕ) : Py (Core F) Unit := do
  let s ← get
  let Dn ← lift (distNew s.nClusters i s.D (dist s sample s.deltaTerm))
  incClusters
  appendN 1
  vstackV sample
  modify fun s => { s with D := Dn }
  Verif.RCIP.dstackSigma s.deltaTerm

/-- `((n_new - 2) / (n_new - 1)) * (sigma - delta_term) + (1 / n_new) * np.outer(diff_x_v, diff_x_v) + delta_term`
with `n_new = nOld + 1`, rCIP.py:123-128.  `_n` holds Python ints, so `n_new = 1` raises ZeroDivisionError. -/
def sigmaNew (nOld : ℕ) (sigma deltaTerm : Arr2 F) (diffXV : Vec F) : Except PyErr (Arr2 F) := do
  let q ← pyDiv ((nOld : ℤ) - 1) (nOld : ℤ)
  let d ← Arr2.sub sigma deltaTerm
  let t ← Arr2.add (Arr2.smul q d) (Arr2.smul (Arith.invNat (nOld + 1)) (Arr2.outer diffXV diffXV))
  Arr2.add t deltaTerm

/-- Old cluster label, rCIP.py:117-149. -/
def incOld (sample : Vec F) (i : ℕ) : Py (Core F) Unit := do
  let s ← get
  let nOld ← lift (s.n.get i)
  let vRow ← lift (s.v.row i)
  let vNew ← lift (runningMean (nOld + 1) vRow sample)
  let diffXV ← lift (Vec.sub sample vRow)
  let sg ← lift (Verif.RCIP.page s i)
  let sgNew ← lift (sigmaNew nOld sg s.deltaTerm diffXV)
  let d ← lift (columnOld s.nClusters i (dist s vNew sgNew))
  setN i (nOld + 1)
  setV i vNew
  Verif.RCIP.setSigma i sgNew
  setD i d

/-- `rCIP._param_inc` after its first statement, rCIP.py:71-152. -/
def incBody (sample : Vec F) (i : ℕ) : Py (Core F) Unit := do
  let s0 ← get
  setupIfFirst setup sample
  let s ← get
  let c ← lift (Arith.normConst s.dim)
  modify fun s => { s with constant := c }
  let s ← get
  (if (i : ℤ) > (s.nClusters : ℤ) - 1 then incNew sample i else incOld sample i)
  modify fun s => { s with nSamples := s0.nSamples + 1 }

/-- `(1 / (n - 1)) * (np.transpose(subset) @ subset - n * np.outer(v, v)) + delta_term`, rCIP.py:184-189. -/
def batchSigma (subset : Arr2 F) (v : Vec F) (deltaTerm : Arr2 F) : Except PyErr (Arr2 F) := do
  let sc ← Arr2.matmul subset.transpose subset
  let d ← Arr2.sub sc (Arr2.smul (Arith.ofNat subset.rows.length) (Arr2.outer v v))
  Arr2.add (Arr2.smul (Arith.invPred subset.rows.length) d) deltaTerm

/-- Loop body of `rCIP._param_batch`, rCIP.py:177-191. -/
def batchStep (data : Arr2 F) (labels : List ℤ) (ix : ℕ) : Py (Core F) Unit := do
  let subset ← lift (data.take (subsetIndices labels ix))
  setN ix subset.rows.length
  setV ix (Arr2.mean0 subset)
  let s ← get
  (if subset.rows.length > 1 then do
    let sg ← lift (batchSigma subset (Arr2.mean0 subset) s.deltaTerm)
    Verif.RCIP.setSigma ix sg
  else Verif.RCIP.setSigma ix s.deltaTerm)

/-- Entry `ix, jx` of the batch matrix, rCIP.py:195-203. -/
def batchDist (s : Core F) (ix jx : ℕ) : Except PyErr F := do
  let a ← s.v.row ix
  let b ← s.v.row jx
  let p ← Verif.RCIP.page s ix
  let q ← Verif.RCIP.page s jx
  cip s.constant a b p q

/-- `rCIP._param_batch`, rCIP.py:155-205. -/
def paramBatch (data : Arr2 F) (labels : List ℤ) : Py (Core F) Unit := do
  Base.setupBatch data
  let dt ← lift (deltaTerm data.cols)
  modify fun s => { s with deltaTerm := dt }
  let c ← lift (Arith.normConst data.cols)
  let k := uniqueSize labels
  modify fun s => { s with
    constant := c
    nClusters := k
    n := ⟨false, List.replicate k 0⟩
    v := Arr2.zeros k s.dim
    sigma := List.replicate k (Arr2.zeros s.dim s.dim)
    sigmaShape := (s.dim, s.dim)
    D := Arr2.zeros k k }
  forEach (List.range k) (batchStep data labels)
  let s ← get
  let D ← lift (Arr2.upperTri k (batchDist s))
  let D' ← lift (Arr2.add D D.transpose)
  modify fun s => { s with D := D' }

/-- `rCIP._evaluate`, rCIP.py:208-219. -/
def evaluate : Py (Core F) Unit := do
  let s ← get
  (if s.D.rows.length > 1 then do
    let values ← lift (s.D.triu s.D.rows.length)
    modify fun s => { s with criterion := Arith.npSum values }
  else modify fun s => { s with criterion := 0 })

end Verif.Gen.RCIP

namespace Verif.Gen
/-- Class `rCIP`, rCIP.py:19-219. -/
def RCIPmod {F : Type} [Arith F] : Module F where
  abstract := false
  init := { init with CP := none }
  incBody := RCIP.incBody
  paramBatch := RCIP.paramBatch
  evaluate := RCIP.evaluate
end Verif.Gen
