import Verif.Model.Common
import Verif.Gen.Arith

/-! # `Verif/Model/Common.lean` over an arbitrary arithmetic -/

namespace Verif.Gen
open Py

variable {F : Type} [Arith F]

/-- `(1 - 1 / n_new) * old + (1 / n_new) * sample`.
Centroid: CH.py:100-103, WB.py:102-105, XB.py:112-115, DB.py:112-115, GD43.py:114-117, GD53.py:114-117, PS.py:101-104,
rCIP.py:118-121, cSIL.py:116-119.  Mean of all samples: CH.py:75-78, WB.py:77-80, XB.py:73-76, DB.py:72-75,
GD43.py:76-79, GD53.py:76-79.  `n_new ≥ 1` at every use, so the divisions cannot raise. -/
def runningMean (nNew : ℕ) (old sample : Vec F) : Except PyErr (Vec F) :=
  Vec.add (Vec.smul (Arith.oneMinusInv nNew) old) (Vec.smul (Arith.invNat nNew) sample)

/-- `CP + inner(diff_x_v, diff_x_v) + n * inner(delta_v, delta_v) + 2 * inner(delta_v, G[i, :])`.
CH.py:106-111, WB.py:108-113, XB.py:118-123, DB.py:118-123, GD43.py:120-125, GD53.py:120-125. -/
def compactnessNew (CPold : F) (nOld : ℕ) (diffXV deltaV gRow : Vec F) : Except PyErr F := do
  let a ← Vec.inner diffXV diffXV
  let b ← Vec.inner deltaV deltaV
  let c ← Vec.inner deltaV gRow
  pure (CPold + a + Arith.ofNat nOld * b + Arith.two * c)

/-- `G[i, :] + diff_x_v + n * delta_v`.
CH.py:112-116, WB.py:114-118, XB.py:124-128, DB.py:124-128, GD43.py:126-130, GD53.py:126-130. -/
def gNew (nOld : ℕ) (gRow diffXV deltaV : Vec F) : Except PyErr (Vec F) := do
  let t ← Vec.add gRow diffXV
  Vec.add t (Vec.smul (Arith.ofNat nOld) deltaV)

/-- `if self._n_samples == 0: self._setup(sample) else: self._mu = (1 - 1/n) * self._mu + (1/n) * sample`, where
`setupC` is the class's `_setup`.  CH.py:72-78, WB.py:74-80, XB.py:70-76, DB.py:69-75, GD43.py:73-79, GD53.py:73-79. -/
def setupOrMu (setupC : Vec F → Py (Core F) Unit) (sample : Vec F) : Py (Core F) Unit := do
  let s ← get
  if s.nSamples = 0 then setupC sample
  else do
    let mu ← lift (runningMean (s.nSamples + 1) s.mu sample)
    modify fun s => { s with mu := mu }

/-- See `OldStats`. -/
def oldStats (sample : Vec F) (i : ℕ) (s : Core F) : Except PyErr (OldStats F) := do
  let nOld ← s.n.get i
  let nNew := nOld + 1
  let vRow ← s.v.row i
  let vNew ← runningMean nNew vRow sample
  let deltaV ← Vec.sub vRow vNew
  let diffXV ← Vec.sub sample vNew
  let cps ← attr s.CP
  let cpOld ← cps.get i
  let g ← attr s.G
  let gRow ← g.row i
  let cpNew ← compactnessNew cpOld nOld diffXV deltaV gRow
  let gN ← gNew nOld gRow diffXV deltaV
  pure ⟨nNew, vNew, cpNew, gN⟩

/-- `np.sum((subset - v * np.ones((n, 1))) ** 2)`, e.g. CH.py:156-157.  `v` is the mean of the rows of `subset`, so the
shapes agree. -/
def batchScatter (subset : Arr2 F) (v : Vec F) : Except PyErr F := do
  let ds ← mapE (fun r => do let d ← Vec.sub r (v.map (· * Arith.one)); pure (d.map Arith.sq)) subset.rows
  pure (Arith.sum2 ds)

/-- The attributes set by the `__init__` methods; see `Verif.Core.init`. -/
def init : Core F where
  dim := 0
  nSamples := 0
  n := ⟨false, []⟩
  v := Arr2.zeros 0 0
  CP := some ⟨false, []⟩
  G := some (Arr2.zeros 0 0)
  nClusters := 0
  criterion := 0
  isSetup := false
  mu := []
  SEP := []
  BGSS := 0
  WGSS := 0
  D := Arr2.zeros 0 0
  R := Arr2.zeros 0 0
  Sv := ⟨false, []⟩
  Sm := Arr2.zeros 0 0
  silCoefs := []
  inter := 0
  intra := 0
  vBar := []
  betaT := 0
  PSi := []
  sigma := []
  sigmaShape := (0, 0)
  deltaTerm := Arr2.zeros 0 0
  constant := 0

end Verif.Gen
