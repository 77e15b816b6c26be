import Verif.Gen.CSIL
import Verif.Gen.RCIP

/-!
# Samples of integers

The rest of the development reads every sample as an array of floats.  numpy keeps the type of the array it is given, so a sample may also be an
array of 64-bit integers, whose arithmetic wraps around.  In two places of the library only such arrays meet:

* `cSIL._param_inc` computes `np.inner(sample, sample)` (cSIL.py:72, 124) and, for a new cluster, `np.inner(v_new, v_new)` with `v_new = sample`
  (cSIL.py:71, 93), multiplies the latter by the Python integer `self._n[cl]` and adds the elements of the Python list `self._CP`;
* `rCIP._param_batch` computes `np.transpose(subset) @ subset` (rCIP.py:186).

Everywhere else in the nine classes a sample meets an array of floats in the same operation (`np.vstack` with `self._v` or `self._G`, a difference with
a centroid, a multiplication by `1 / n_new`) or is averaged by `np.mean`, which computes in floats; there the integers are converted first.

Here are these two methods with the type of each array and number kept.
-/

namespace Verif.Gen.Typed
open Py

/-- The conversion of a 64-bit integer to a float. -/
class FromInt (F : Type) where
  ofInt : ℤ → F

variable {F : Type} [Arith F] [FromInt F]

/-- The remainder modulo `2 ^ 64` in `[-2 ^ 63, 2 ^ 63)`: what is left of the exact result in a 64-bit integer. -/
def wrap (z : ℤ) : ℤ := Int.bmod z (2 ^ 64)

/-- A numpy number. -/
inductive Sc (F : Type)
  | int (z : ℤ)
  | flt (x : F)
  deriving DecidableEq

namespace Sc

/-- As a float. -/
def float : Sc F → F
  | int z => FromInt.ofInt z
  | flt x => x

/-- `a + b` -/
def add : Sc F → Sc F → Sc F
  | int a, int b => int (wrap (a + b))
  | a, b => flt (a.float + b.float)

/-- `a - b` -/
def sub : Sc F → Sc F → Sc F
  | int a, int b => int (wrap (a - b))
  | a, b => flt (a.float - b.float)

/-- `m * a` with a Python integer `m` -/
def nmul (m : ℕ) : Sc F → Sc F
  | int a => int (wrap (m * a))
  | flt x => flt (Arith.ofNat m * x)

/-- `a / m` with a Python integer `m`: always a float -/
def divNat (a : Sc F) (m : ℕ) : F := a.float / Arith.ofNat m

end Sc

/-- A 1-D numpy array, of integers or of floats. -/
inductive TVec (F : Type)
  | ints (l : List ℤ)
  | flts (l : List F)

namespace TVec

/-- As an array of floats. -/
def float : TVec F → Vec F
  | ints l => l.map FromInt.ofInt
  | flts l => l

/-- `np.inner(a, b)` -/
def inner : TVec F → TVec F → Except PyErr (Sc F)
  | ints a, ints b => if a.length = b.length then .ok (.int (wrap (List.zipWith (· * ·) a b).sum)) else .error .valueError
  | a, b => do
    let x ← Vec.inner a.float b.float
    pure (.flt x)

end TVec

/-! ## `cSIL._param_inc` -/

/-- The attributes of a `cSIL` object fed one sample at a time: `_CP` is a Python list whose elements keep their types; the others
are arrays of floats or Python integers, as in `Core`, whose field `CP` is not used. -/
structure TCore (F : Type) where
  core : Core F
  CP : List (Sc F)

/-- Run a method that does not touch `_CP`. -/
def onRest {α : Type} (x : Py (Core F) α) : Py (TCore F) α := fun t => (x t.core).mapState fun c => { t with core := c }

/-- `self._CP[i]` -/
def getCP (t : TCore F) (i : ℕ) : Except PyErr (Sc F) := (⟨false, t.CP⟩ : Seq (Sc F)).get i

/-- cSIL.py:85-90 -/
def colNew (t : TCore F) (cpNew : Sc F) (gNew : TVec F) (cl : ℕ) : Except PyErr F := do
  let r ← t.core.v.row cl
  let a ← TVec.inner (.flts r) (.flts r)
  let b ← TVec.inner gNew (.flts r)
  pure ((cpNew.add a).sub b).float

/-- cSIL.py:91-96 and 147-152 -/
def rowEntry (t : TCore F) (vNew : TVec F) (cl : ℕ) : Except PyErr F := do
  let cp ← getCP t cl
  let m ← t.core.n.get cl
  let a ← TVec.inner vNew vNew
  let g ← attr t.core.G
  let gRow ← g.row cl
  let b ← TVec.inner (.flts gRow) vNew
  pure (((cp.add (a.nmul m)).sub (b.nmul 2)).divNat m)

/-- `S_new` for a new cluster label, cSIL.py:76-101. -/
def sNew (t : TCore F) (i : ℕ) (sample : TVec F) (cpNew : Sc F) : Except PyErr (Arr2 F) :=
  if t.core.nClusters = 0 then .ok (Arr2.zeros 1 1)
  else do
    let Sn ← enlarge t.core.nClusters t.core.Sm
    let c ← columnNew t.core.nClusters (colNew t cpNew sample)
    let r ← columnNew t.core.nClusters (rowEntry t sample)
    setCross Sn i c r

/-- New cluster label, cSIL.py:70-111. -/
def incNew (sample : TVec F) (i : ℕ) : Py (TCore F) Unit := do
  let t ← get
  let cpNew ← lift (TVec.inner sample sample)
  let Sn ← lift (sNew t i sample cpNew)
  onRest incClusters
  onRest (appendN 1)
  modify fun t => { t with CP := t.CP ++ [cpNew] }
  onRest (vstackV sample.float)
  onRest (vstackG sample.float)
  onRest (modify fun s => { s with Sm := Sn })

/-- cSIL.py:138-145 and 155-162 -/
def colOldEntry (cpOld : Sc F) (nOld : ℕ) (g : Vec F) (sample : TVec F) (v : Vec F) : Except PyErr F := do
  let d ← Vec.sub sample.float v
  let a ← TVec.inner (.flts d) (.flts d)
  let b ← TVec.inner (.flts v) (.flts v)
  let c ← TVec.inner (.flts g) (.flts v)
  pure ((((cpOld.add a).add (b.nmul nOld)).sub (c.nmul 2)).divNat (nOld + 1))

/-- `S_col_new` for an existing cluster, cSIL.py:132-145 and 162. -/
def colOld (t : TCore F) (i : ℕ) (cpOld : Sc F) (nOld : ℕ) (gN : Vec F) (sample : TVec F) (own : F) : Except PyErr (Vec F) :=
  mapE (fun cl => if cl = i then .ok own else do
    let r ← t.core.v.row cl
    colOldEntry cpOld nOld gN sample r) (List.range t.core.nClusters)

/-- `S_row_new` for an existing cluster, cSIL.py:131, 147-152 and 163. -/
def rowOld (t : TCore F) (i : ℕ) (vNew : Vec F) (own : F) : Except PyErr (Vec F) :=
  mapE (fun cl => if cl = i then .ok own else rowEntry t (.flts vNew) cl) (List.range t.core.nClusters)

/-- `self._CP[i] = x` -/
def setCP (i : ℕ) (x : Sc F) : Py (TCore F) Unit := do
  let t ← get
  let cp ← lift ((⟨false, t.CP⟩ : Seq (Sc F)).set i x)
  modify fun t => { t with CP := cp.items }

/-- Old cluster label, cSIL.py:115-174. -/
def incOld (sample : TVec F) (i : ℕ) : Py (TCore F) Unit := do
  let t ← get
  let nOld ← lift (t.core.n.get i)
  let vRow ← lift (t.core.v.row i)
  let vNew ← lift (runningMean (nOld + 1) vRow sample.float)
  let cpOld ← lift (getCP t i)
  let xx ← lift (TVec.inner sample sample)
  let g ← lift (attr t.core.G)
  let gRow ← lift (g.row i)
  let gN ← lift (Vec.add gRow sample.float)
  let own ← lift (colOldEntry cpOld nOld gRow sample vNew)
  let c ← lift (colOld t i cpOld nOld gN sample own)
  let r ← lift (rowOld t i vNew own)
  onRest (setN i (nOld + 1))
  onRest (setV i vNew)
  setCP i (cpOld.add xx)
  onRest (setG i gN)
  onRest (Verif.CSIL.setS i c r)

/-- `cSIL._param_inc` after its first statement, cSIL.py:61-177. -/
def incBody (sample : TVec F) (i : ℕ) : Py (TCore F) Unit := do
  let t0 ← get
  onRest (setupIfFirst CSIL.setup sample.float)
  let t ← get
  (if (i : ℤ) > (t.core.nClusters : ℤ) - 1 then incNew sample i else incOld sample i)
  onRest (modify fun s => { s with nSamples := t0.core.nSamples + 1 })

/-- A `cSIL` object. -/
structure TObj (F : Type) where
  labelMap : LabelMap
  core : TCore F

/-- `cSIL()` -/
def fresh : TObj F := ⟨[], ⟨init, []⟩⟩

/-- `get_cvi(sample, label)` in incremental mode, _base.py:137-139 and 176-181, cSIL.py:58. -/
def getCvi (sample : TVec F) (c : ℤ) : Py (TObj F) F := fun o =>
  let r := o.labelMap.getInternalLabel c
  ((do
    incBody sample r.1
    onRest CSIL.evaluate
    let t ← get
    pure t.core.criterion : Py (TCore F) F) o.core).mapState fun t => ⟨r.2, t⟩

/-- One call after the other; the values returned. -/
def feed : List (TVec F × ℤ) → Py (TObj F) (List F)
  | [] => pure []
  | (x, c) :: l => do
    let v ← getCvi x c
    let vs ← feed l
    pure (v :: vs)

/-! ## `rCIP._param_batch` -/

/-- A 2-D array of integers. -/
structure IArr where
  cols : ℕ
  rows : List (List ℤ)

namespace IArr

/-- As an array of floats. -/
def float (a : IArr) : Arr2 F := ⟨a.cols, a.rows.map fun r => r.map FromInt.ofInt⟩

/-- `np.transpose(a) @ a` -/
def gram (a : IArr) : List (List ℤ) :=
  (List.range a.cols).map fun i => (List.range a.cols).map fun j =>
    wrap (a.rows.map fun r => r.getD i 0 * r.getD j 0).sum

/-- `a[i, :]` -/
def row (a : IArr) (i : ℕ) : Except PyErr (List ℤ) :=
  match a.rows[i]? with
  | some r => .ok r
  | none => .error .indexError

/-- `data[idx, :]` -/
def take (a : IArr) (idx : List ℕ) : Except PyErr IArr := do
  let rs ← mapE (fun i => a.row i) idx
  pure ⟨a.cols, rs⟩

end IArr

/-- rCIP.py:184-189 -/
def batchSigma (subset : IArr) (v : Vec F) (deltaTerm : Arr2 F) : Except PyErr (Arr2 F) := do
  let d ← Arr2.sub ⟨subset.cols, subset.gram.map fun r => r.map FromInt.ofInt⟩
    (Arr2.smul (Arith.ofNat subset.rows.length) (Arr2.outer v v))
  Arr2.add (Arr2.smul (Arith.invPred subset.rows.length) d) deltaTerm

/-- rCIP.py:177-191 -/
def batchStep (data : IArr) (labels : List ℤ) (ix : ℕ) : Py (Core F) Unit := do
  let subset ← lift (data.take (subsetIndices labels ix))
  setN ix subset.rows.length
  setV ix (Arr2.mean0 subset.float)
  let s ← get
  (if subset.rows.length > 1 then do
    let sg ← lift (batchSigma subset (Arr2.mean0 subset.float) s.deltaTerm)
    Verif.RCIP.setSigma ix sg
  else Verif.RCIP.setSigma ix s.deltaTerm)

/-- `rCIP._param_batch`, rCIP.py:155-205. -/
def paramBatch (data : IArr) (labels : List ℤ) : Py (Core F) Unit := do
  modify fun s => { s with nSamples := data.rows.length, dim := data.cols, isSetup := true }
  let dt ← lift (RCIP.deltaTerm data.cols)
  modify fun s => { s with deltaTerm := dt }
  let c ← lift (Arith.normConst data.cols)
  let k := uniqueSize labels
  modify fun s => { s with
    constant := c
    nClusters := k
    n := ⟨false, List.replicate k 0⟩
    v := Arr2.zeros k s.dim
    sigma := List.replicate k (Arr2.zeros s.dim s.dim)
    sigmaShape := (s.dim, s.dim)
    D := Arr2.zeros k k }
  forEach (List.range k) (batchStep data labels)
  let s ← get
  let D ← lift (Arr2.upperTri k (RCIP.batchDist s))
  let D' ← lift (Arr2.add D D.transpose)
  modify fun s => { s with D := D' }

/-- `rCIP().get_cvi(data, labels)` on a 2-D array of integers, _base.py:142-162 and 176-181. -/
def batch (data : IArr) (labels : List ℤ) : Py (Core F) F := do
  (if ¬ (labels.dedup.length > 1) then raise .valueError else paramBatch data labels)
  RCIP.evaluate
  let s ← get
  pure s.criterion

end Verif.Gen.Typed
