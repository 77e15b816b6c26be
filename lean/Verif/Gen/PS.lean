import Verif.Model.PS
import Verif.Gen.Common

/-! # `Verif/Model/PS.lean` over an arbitrary arithmetic -/

namespace Verif.Gen.PS
open Py

variable {F : Type} [Arith F]

/-- `PS._setup`, PS.py:43-54: deletes `_G` (just created by the base setup) and `_CP`. -/
def setup (sample : Vec F) : Py (Core F) Unit := do
  Base.setup sample
  modify fun s => { s with G := none }
  let s ← get
  let _ ← lift (attr s.CP)
  modify fun s => { s with CP := none }

/-- `np.sum((v_new - self._v[jx, :]) ** 2)`, PS.py:85 and 111. -/
def dist (s : Core F) (vNew : Vec F) (jx : ℕ) : Except PyErr F := do
  let r ← s.v.row jx
  Vec.sqDist vNew r

/-- New cluster label, PS.py:75-96. -/
def incNew (sample : Vec F) (i : ℕ) : Py (Core F) Unit := do
  let s ← get
  let Dn ← lift (distNew s.nClusters i s.D (dist s sample))
  incClusters
  appendN 1
  vstackV sample
  modify fun s => { s with D := Dn }

/-- Old cluster label, PS.py:100-118. -/
def incOld (sample : Vec F) (i : ℕ) : Py (Core F) Unit := do
  let s ← get
  let nOld ← lift (s.n.get i)
  let vRow ← lift (s.v.row i)
  let vNew ← lift (runningMean (nOld + 1) vRow sample)
  let d ← lift (columnOld s.nClusters i (dist s vNew))
  setN i (nOld + 1)
  setV i vNew
  setD i d

/-- `PS._param_inc` after its first statement, PS.py:65-121. -/
def incBody (sample : Vec F) (i : ℕ) : Py (Core F) Unit := do
  let s0 ← get
  setupIfFirst setup sample
  let s ← get
  (if (i : ℤ) > (s.nClusters : ℤ) - 1 then incNew sample i else incOld sample i)
  modify fun s => { s with nSamples := s0.nSamples + 1 }

/-- Loop body of `PS._param_batch`, PS.py:141-146. -/
def batchStep (data : Arr2 F) (labels : List ℤ) (ix : ℕ) : Py (Core F) Unit := do
  let subset ← lift (data.take (subsetIndices labels ix))
  setN ix subset.rows.length
  setV ix (Arr2.mean0 subset)

/-- `np.sum((self._v[ix, :] - self._v[jx, :]) ** 2)`, PS.py:152. -/
def batchDist (s : Core F) (ix jx : ℕ) : Except PyErr F := do
  let a ← s.v.row ix
  let b ← s.v.row jx
  Vec.sqDist a b

/-- `PS._param_batch`, PS.py:124-155. -/
def paramBatch (data : Arr2 F) (labels : List ℤ) : Py (Core F) Unit := do
  Base.setupBatch data
  let k := uniqueSize labels
  modify fun s => { s with
    mu := Arr2.mean0 data
    nClusters := k
    n := ⟨false, List.replicate k 0⟩
    v := Arr2.zeros k s.dim
    D := Arr2.zeros k k }
  forEach (List.range k) (batchStep data labels)
  let s ← get
  let D ← lift (Arr2.upperTri k (batchDist s))
  let D' ← lift (Arr2.add D D.transpose)
  modify fun s => { s with D := D' }

/-- `delta_v = self._v[ix, :] - self._v_bar; np.inner(delta_v, delta_v)`, PS.py:168-169. -/
def devSq (s : Core F) (ix : ℕ) : Except PyErr F := do
  let r ← s.v.row ix
  let dv ← Vec.sub r s.vBar
  Vec.inner dv dv

/-- `(self._n[ix] / n_max) - np.exp(-np.min(d) / self._beta_t)` with `d = np.delete(self._D[ix, :], ix)`, PS.py:173-178.
`_n` holds Python ints in both modes, so `_n[ix] / n_max` raises ZeroDivisionError when `n_max` is 0. -/
def psTerm (s : Core F) (nMax : ℕ) (ix : ℕ) : Except PyErr F := do
  let r ← s.D.row ix
  let d ← Vec.delete r ix
  let m ← s.n.get ix
  let q ← pyDiv m nMax
  let mn ← Vec.amin d
  pure (q - Arith.exp (-mn / s.betaT))

/-- `PS._evaluate`, PS.py:158-181. -/
def evaluate : Py (Core F) Unit := do
  let s ← get
  (if s.nClusters > 1 then do
    modify fun s => { s with vBar := Arr2.mean0 s.v }
    let s ← get
    let ds ← lift (mapE (devSq s) (List.range s.nClusters))
    modify fun s => { s with betaT := Arith.pySum ds / Arith.ofNat s.nClusters }
    let s ← get
    -- builtin `max` of an empty list raises ValueError (PS.py:171)
    let nMax ← lift (match s.n.items.max? with
      | some m => .ok m
      | none => .error .valueError)
    let ps ← lift (mapE (psTerm s nMax) (List.range s.nClusters))
    modify fun s => { s with PSi := ps, criterion := Arith.npSum ps }
  else modify fun s => { s with criterion := 0 })

end Verif.Gen.PS

namespace Verif.Gen
/-- Class `PS`, PS.py:18-181. -/
def PSmod {F : Type} [Arith F] : Module F where
  abstract := false
  init := init
  incBody := PS.incBody
  paramBatch := PS.paramBatch
  evaluate := PS.evaluate
end Verif.Gen
