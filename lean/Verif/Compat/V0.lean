import Verif.Py

/-!
# Model of `src/cvi/compat/v0.py`

The older interface: the classes `iXB`, `iPS`, `iCH`, `iGD43`, `iGD53`, `iDB`, `iSIL` with a method `update(x, c_i)`, the helper classes
`Cluster` and `Clusters`, and the factory `iCVI`.  Cluster numbers are Python `int`s, so negative ones index lists from the end.

Not modelled: `iSIL.s_ij_new_cluster` (never called), the optional arguments `n_new`, `v_new` of `CP_update` (never passed), norm orders other
than 1 and 2.  Except in `iSIL`, arrays are values: the caller is assumed not to write to an array it has passed.
-/

namespace Verif
namespace XR

/-- `abs(x)` -/
noncomputable def abs : XR → XR
  | fin a => fin |a|
  | pinf => pinf
  | ninf => pinf
  | nan => nan

/-- Python `a < b` on floats. -/
noncomputable def lt : XR → XR → Prop
  | nan, _ => False
  | _, nan => False
  | fin a, fin b => a < b
  | fin _, pinf => True
  | ninf, fin _ => True
  | ninf, pinf => True
  | _, _ => False

open Classical in
/-- Builtin `min` of two numbers: the second only if it is smaller. -/
noncomputable def pyMin (a b : XR) : XR := if lt b a then b else a

open Classical in
/-- Builtin `max` of two numbers: the second only if it is larger. -/
noncomputable def pyMax (a b : XR) : XR := if lt a b then b else a

/-- `x ** p` for a non-negative integer `p`. -/
noncomputable def powNat (x : XR) : ℕ → XR
  | 0 => fin 1
  | 1 => x
  | p + 1 => powNat x p * x

end XR

namespace V0
open Py

variable {α : Type}

/-! ## Python lists -/

/-- The position `l[c]` refers to in a list of length `len`. -/
def pyIdx (len : ℕ) (c : ℤ) : Option ℕ :=
  if 0 ≤ c then (if c < len then some c.toNat else none)
  else if -(len : ℤ) ≤ c then some (c + len).toNat else none

/-- `l[c]` -/
def getAt (l : List α) (c : ℤ) : Except PyErr α :=
  match pyIdx l.length c with
  | none => .error .indexError
  | some i => match l[i]? with
    | some a => .ok a
    | none => .error .indexError

/-- `l[c] = a` -/
def setAt (l : List α) (c : ℤ) (a : α) : Except PyErr (List α) :=
  match pyIdx l.length c with
  | none => .error .indexError
  | some i => .ok (l.set i a)

/-- Builtin `min(l)`: ValueError on an empty list. -/
noncomputable def listMin : List XR → Except PyErr XR
  | [] => .error .valueError
  | a :: l => .ok (l.foldl XR.pyMin a)

/-- Builtin `max(l)`: ValueError on an empty list. -/
noncomputable def listMax : List XR → Except PyErr XR
  | [] => .error .valueError
  | a :: l => .ok (l.foldl XR.pyMax a)

/-! ## Functions -/

/-- `a / n` for an array `a` and a number `n`. -/
noncomputable def vdiv (a : Vec) (n : XR) : Vec := a.map fun x => x / n

/-- `np.linalg.norm(x, q)` of a 1-D array for `q = 1` and `q = 2` (the only orders used; other values of `q` give the 2-norm here). -/
noncomputable def norm (q : ℕ) (x : Vec) : XR :=
  if q = 1 then (x.map XR.abs).sum else XR.sqrt x.sumSq

/-- `norm22(x)`, v0.py:150-159. -/
noncomputable def norm22 (x : Vec) : XR := (norm 2 x).sq

/-- The tuple returned by `CP_update`. -/
structure CPUpdate where
  cp : XR
  g : Vec
  v : Vec
  n : ℕ

/-- `CP_update(x, v_old, n_old, g_old, cp_old, p=p, q=q)`, v0.py:162-219.  No caller passes `n_new` or `v_new`. -/
noncomputable def cpUpdate (x vOld : Vec) (nOld : ℕ) (gOld : Option Vec) (cpOld : XR) (p q : ℕ) : Except PyErr CPUpdate := do
  let g := gOld.getD (Vec.zeros x.length)
  let nNew := nOld + 1
  let d ← Vec.sub x vOld
  let vNew ← Vec.add vOld (vdiv d (.fin nNew))
  let deltaV ← Vec.sub vOld vNew
  let z ← Vec.sub x vNew
  let gz ← Vec.add g z
  let gNew ← Vec.add gz (Vec.smul (.fin nOld) deltaV)
  let dg ← Vec.inner deltaV g
  let cp := cpOld + (norm q z).powNat p + .fin nOld * (norm q deltaV).powNat p + (XR.sqrt (.fin 2 * dg)).powNat p
  pure ⟨cp, gNew, vNew, nNew⟩

/-- `cluster_center_update(x, v_old, n_old)`, v0.py:222-246. -/
noncomputable def centerUpdate (x vOld : Vec) (nOld : ℕ) : Except PyErr (Vec × ℕ) := do
  let d ← Vec.sub x vOld
  let vNew ← Vec.add vOld (vdiv d (.fin ((nOld + 1 : ℕ) : ℝ)))
  pure (vNew, nOld + 1)

/-! ## iXB -/

/-- The attributes of `iXB`, v0.py:259-269. -/
structure XB where
  minV : XR
  minVi : List XR
  N : ℕ
  WGSS : XR
  WGSSi : List XR
  output : XR
  centers : List Vec
  sizes : List ℕ
  g : Option Vec

/-- `iXB()`, v0.py:254-269. -/
noncomputable def XB.init : XB := ⟨.pinf, [], 0, 0, [], 0, [], [], none⟩

/-- `norm22(centers[c] - centers[j])` for all `j != c`, v0.py:314-319 and 379-383. -/
noncomputable def sepList (centers : List Vec) (c : ℤ) : Except PyErr (List XR) :=
  mapE (fun j : ℕ => do
    let a ← getAt centers c
    let b ← getAt centers j
    let e ← Vec.sub a b
    pure (norm22 e)) ((List.range centers.length).filter fun j => decide ((j : ℤ) ≠ c))

/-- `iXB.update`, v0.py:288-324.  If a difference of centroids raises, the minimum of the earlier ones is not recorded. -/
noncomputable def XB.update (x : Vec) (c : ℤ) : Py XB XR := do
  modify fun s => { s with N := s.N + 1 }
  let s ← get
  (if c = s.sizes.length then
    modify fun s => { s with
      centers := s.centers ++ [x], sizes := s.sizes ++ [1], WGSSi := s.WGSSi ++ [0], minVi := s.minVi ++ [.pinf] }
  else if c > s.sizes.length then raise .valueError
  else do
    let w ← lift (getAt s.WGSSi c)
    modify fun s => { s with WGSS := s.WGSS - w }
    let v ← lift (getAt s.centers c)
    let n ← lift (getAt s.sizes c)
    let u ← lift (cpUpdate x v n s.g w 2 2)
    let ws ← lift (setAt s.WGSSi c u.cp)
    modify fun s => { s with WGSSi := ws, g := some u.g }
    let cs ← lift (setAt s.centers c u.v)
    modify fun s => { s with centers := cs }
    let ns ← lift (setAt s.sizes c u.n)
    modify fun s => { s with sizes := ns })
  let s ← get
  let w ← lift (getAt s.WGSSi c)
  modify fun s => { s with WGSS := s.WGSS + w }
  let m0 ← lift (setAt s.minVi c .pinf)
  modify fun s => { s with minVi := m0 }
  let ds ← lift (sepList s.centers c)
  let mc := ds.foldl XR.min .pinf
  let m1 ← lift (setAt m0 c mc)
  modify fun s => { s with minVi := m1, minV := XR.pyMin s.minV mc }
  modify fun s => { s with output := s.WGSS / .fin s.N / s.minV }
  let s ← get
  pure s.output

/-! ## iPS -/

/-- The attributes of `iPS`, v0.py:337-344 (`mean_cluster_center` is `None` or a float). -/
structure PS where
  meanCenter : Option XR
  maxSize : ℕ
  output : XR
  PSi : List XR
  centers : List Vec
  sizes : List ℕ

/-- `iPS()`, v0.py:332-344. -/
noncomputable def PS.init : PS := ⟨none, 0, 0, [], [], []⟩

/-- `np.sum(l)` for a list of 1-D arrays: the sum of all entries; arrays of different lengths raise ValueError. -/
noncomputable def sumAll : List Vec → Except PyErr XR
  | [] => .ok 0
  | a :: l => if l.all (fun b => b.length = a.length) then .ok ((a :: l).map List.sum).sum else .error .valueError

/-- `iPS.update`, v0.py:363-403.  The assignment to `self.output` (line 402) is inside the `else`. -/
noncomputable def PS.update (x : Vec) (c : ℤ) : Py PS XR := do
  let s ← get
  (if c ≥ s.centers.length then
    modify fun s => { s with centers := s.centers ++ [x], sizes := s.sizes ++ [1], PSi := s.PSi ++ [0] }
  else do
    let v ← lift (getAt s.centers c)
    let n ← lift (getAt s.sizes c)
    let u ← lift (centerUpdate x v n)
    let cs ← lift (setAt s.centers c u.1)
    modify fun s => { s with centers := cs }
    let ns ← lift (setAt s.sizes c u.2)
    modify fun s => { s with sizes := ns })
  let s ← get
  let n ← lift (getAt s.sizes c)
  modify fun s => { s with maxSize := max s.maxSize n }
  let s ← get
  let bs ← lift (sepList s.centers c)
  (if bs ≠ [] then do
    let b ← lift (Vec.amin bs)
    let t ← lift (sumAll s.centers)
    let k : XR := .fin s.centers.length
    let m := t / k
    modify fun s => { s with meanCenter := some m }
    let bt := (s.centers.map fun cc => norm22 (cc.map fun y => y - m)).sum / k
    let ps ← lift (setAt s.PSi c (.fin ((n : ℝ) / (s.maxSize : ℝ)) - XR.exp (-b / bt)))
    modify fun s => { s with PSi := ps }
  else do
    let ps ← lift (setAt s.PSi c 0)
    modify fun s => { s with PSi := ps }
    modify fun s => { s with output := s.PSi.sum })
  let s ← get
  pure s.output

/-! ## iCH -/

/-- The attributes of `iCH`, v0.py:416-428.  `clusters` is only ever measured; `dataCenter` is the number 0 (`none`) or an array. -/
structure CH where
  clusters : List Unit
  WGSS : XR
  WGSSi : List XR
  BGSS : XR
  BGSSi : List XR
  output : XR
  dataCenter : Option Vec
  N : ℕ
  centers : List Vec
  sizes : List ℕ
  g : Option Vec

/-- `iCH()`, v0.py:411-428. -/
noncomputable def CH.init : CH := ⟨[], 0, [], 0, [], 0, none, 0, [], [], none⟩

/-- `a * center + x` where `center` is the number 0 (`none`) or an array, v0.py:56 and 449. -/
noncomputable def scaleAdd (a : ℝ) (center : Option Vec) (x : Vec) : Except PyErr Vec :=
  match center with
  | none => .ok x
  | some c => Vec.add (Vec.smul (.fin a) c) x

/-- `iCH.update`, v0.py:447-488. -/
noncomputable def CH.update (x : Vec) (c : ℤ) : Py CH XR := do
  modify fun s => { s with N := s.N + 1 }
  let s ← get
  let t ← lift (scaleAdd ((s.N : ℝ) - 1) s.dataCenter x)
  let dc := vdiv t (.fin s.N)
  modify fun s => { s with dataCenter := some dc }
  (if c = s.clusters.length then
    modify fun s => { s with
      centers := s.centers ++ [x], sizes := s.sizes ++ [1], WGSSi := s.WGSSi ++ [0], BGSSi := s.BGSSi ++ [0] }
  else if c > s.sizes.length then raise .valueError
  else do
    let w ← lift (getAt s.WGSSi c)
    modify fun s => { s with WGSS := s.WGSS - w }
    let v ← lift (getAt s.centers c)
    let n ← lift (getAt s.sizes c)
    let u ← lift (cpUpdate x v n s.g w 2 2)
    let ws ← lift (setAt s.WGSSi c u.cp)
    modify fun s => { s with WGSSi := ws, g := some u.g }
    let cs ← lift (setAt s.centers c u.v)
    modify fun s => { s with centers := cs }
    let ns ← lift (setAt s.sizes c u.n)
    modify fun s => { s with sizes := ns }
    modify fun s => { s with WGSS := s.WGSS + u.cp })
  let s ← get
  let b ← lift (getAt s.BGSSi c)
  modify fun s => { s with BGSS := s.BGSS - b }
  let n ← lift (getAt s.sizes c)
  let v ← lift (getAt s.centers c)
  let e ← lift (Vec.sub v dc)
  let bn := XR.fin n * norm22 e
  let bs ← lift (setAt s.BGSSi c bn)
  modify fun s => { s with BGSSi := bs, BGSS := s.BGSS + bn }
  let s ← get
  (if s.centers.length > 1 ∧ (s.N : ℤ) - s.centers.length > 0 then
    modify fun s => { s with output :=
      (s.BGSS / .fin ((s.centers.length : ℝ) - 1)) / (s.WGSS / .fin ((s.N : ℝ) - s.centers.length)) }
  else modify fun s => { s with output := 0 })
  let s ← get
  pure s.output

/-! ## iGD43, iGD53 -/

/-- The attributes of `iGD`, v0.py:508-516. -/
structure GD where
  t : ℕ
  d : Arr2
  D : List XR
  output : XR
  centers : List Vec
  sizes : List ℕ
  g : Option Vec
  CP : List XR

/-- `iGD(t)` for `t = 43` (`iGD43()`) and `t = 53` (`iGD53()`), v0.py:496-516, 592-602. -/
noncomputable def GD.init (t : ℕ) : GD := ⟨t, Arr2.zeros 0 0, [], 0, [], [], none, []⟩

/-- `np.pad(a, [(0, 1), (0, 1)], mode='constant', constant_values=v)` -/
def pad (a : Arr2) (v : XR) : Arr2 :=
  ⟨a.cols + 1, a.rows.map (· ++ [v]) ++ [List.replicate (a.cols + 1) v]⟩

/-- `a[i, j]` -/
def getAt2 (a : Arr2) (i j : ℤ) : Except PyErr XR := do
  let r ← getAt a.rows i
  getAt r j

/-- `a[i, j] = x` -/
def setAt2 (a : Arr2) (i j : ℤ) (x : XR) : Except PyErr Arr2 := do
  let r ← getAt a.rows i
  let r' ← setAt r j x
  let rs ← setAt a.rows i r'
  pure ⟨a.cols, rs⟩

/-- The new entry `d[c, j]`, v0.py:562-578. -/
noncomputable def GD.entry (s : GD) (c j : ℤ) : Except PyErr XR :=
  if s.t = 43 then do
    let a ← getAt s.centers c
    let b ← getAt s.centers j
    let e ← Vec.sub a b
    pure (norm22 e)
  else do
    let a ← getAt s.CP c
    let b ← getAt s.CP j
    let m ← getAt s.sizes c
    let n ← getAt s.sizes j
    pure ((a + b) / .fin ((m + n : ℕ) : ℝ))

/-- `iGD.update`, v0.py:535-584.  `self.cluster_sizes[c_i].len` (line 580) on a Python int raises AttributeError. -/
noncomputable def GD.update (x : Vec) (c : ℤ) : Py GD XR := do
  let s ← get
  (if c = s.centers.length then
    modify fun s => { s with
      centers := s.centers ++ [x], sizes := s.sizes ++ [1], CP := s.CP ++ [0], d := pad s.d .pinf, D := s.D ++ [.ninf] }
  else if c > s.sizes.length then raise .valueError
  else do
    let v ← lift (getAt s.centers c)
    let n ← lift (getAt s.sizes c)
    let cp ← lift (getAt s.CP c)
    let u ← lift (cpUpdate x v n s.g cp 1 2)
    let cps ← lift (setAt s.CP c u.cp)
    modify fun s => { s with CP := cps, g := some u.g }
    let cs ← lift (setAt s.centers c u.v)
    modify fun s => { s with centers := cs }
    let ns ← lift (setAt s.sizes c u.n)
    modify fun s => { s with sizes := ns }
    forEach ((List.range cs.length).filter fun j : ℕ => decide (c ≠ (j : ℤ))) (fun j : ℕ => do
      let s ← get
      let e ← lift (s.entry c j)
      let d1 ← lift (setAt2 s.d c j e)
      let d2 ← lift (setAt2 d1 j c e)
      modify fun s => { s with d := d2 })
    let s ← get
    let _ ← lift (getAt s.CP c)
    let _ ← lift (getAt s.sizes c)
    raise .attributeError)
  let s ← get
  pure s.output

/-! ## iDB -/

/-- The attributes of `iDB`, v0.py:915-926. -/
structure DB where
  R : List XR
  S : List XR
  M : Arr2
  output : XR
  N : ℕ
  centers : List Vec
  sizes : List ℕ
  g : Option Vec
  CP : List XR

/-- `iDB()`, v0.py:910-926. -/
noncomputable def DB.init : DB := ⟨[], [], Arr2.zeros 0 0, 0, 0, [], [], none, []⟩

/-- `iDB.update`, v0.py:945-1000.  Simplification: the rest of the `else` branch after `CP_update` (lines 974-999) is not modelled, because
`self.CP[c_i]` in its arguments always raises: `CP` is never appended to; `none` marks that point. -/
noncomputable def DB.update (x : Vec) (c : ℤ) : Py DB (Option XR) := do
  modify fun s => { s with N := s.N + 1 }
  let s ← get
  (if c = s.centers.length then do
    modify fun s => { s with
      centers := s.centers ++ [x], sizes := s.sizes ++ [1], R := s.R ++ [0], S := s.S ++ [0], M := pad s.M 0 }
    let s ← get
    pure (some s.output)
  else if c > s.sizes.length then raise .valueError
  else do
    let v ← lift (getAt s.centers c)
    let n ← lift (getAt s.sizes c)
    let cp ← lift (getAt s.CP c)
    let u ← lift (cpUpdate x v n s.g cp 1 1)
    let cps ← lift (setAt s.CP c u.cp)
    modify fun s => { s with CP := cps, g := some u.g }
    pure none)

/-! ## iSIL -/

/-- The attributes of `iSIL`, v0.py:613-625, and the caller's arrays.  `g` holds the arrays that were passed as the first sample of each
cluster themselves (`self.g.append(x)`, line 865), so it is a list of references. -/
structure SIL where
  heap : ℕ → Vec
  sc : List XR
  b : Arr2
  output : XR
  N : ℕ
  centers : List Vec
  sizes : List ℕ
  CP : List XR
  g : List ℕ
  sij : Arr2

/-- `iSIL()`, v0.py:610-625, for a caller with the given arrays. -/
noncomputable def SIL.init (heap : ℕ → Vec) : SIL := ⟨heap, [], Arr2.zeros 0 0, 0, 0, [], [], [], [], Arr2.zeros 0 0⟩

/-- `iSIL.s_ij_new`, v0.py:690-724, with `nj_old = nj - 1` as its only caller passes it.  `np.dot(a, b)` and `np.linalg.norm(a) ** 2` are
`Vec.inner` and `norm22`. -/
noncomputable def SIL.sijNew (x : Vec) (i j : ℕ) (J : ℤ) (nj : ℕ) (cpj : XR) (vj vi gj : Vec) (old : XR) : Except PyErr XR := do
  let zi ← Vec.sub x vi
  let zj ← Vec.sub x vj
  if (i : ℤ) ≠ J then
    if (j : ℤ) = J then do
      let p ← Vec.inner vi gj
      pure (.fin (1 / (nj : ℝ)) * (cpj + norm22 zi + .fin nj * norm22 vi - .fin 2 * p))
    else pure old
  else
    if (j : ℤ) = J then do
      let p ← Vec.inner vj gj
      pure (.fin (1 / (nj : ℝ)) * (cpj + norm22 zj + .fin ((nj : ℝ) - 1) * norm22 vj - .fin 2 * p))
    else do
      let p ← Vec.inner vi gj
      pure (.fin (1 / (nj : ℝ)) * (cpj + .fin nj * norm22 vi - .fin 2 * p))

/-- `[self.sij[i, ij] for ij in range(len(self.cluster_centers)) if ij != J]`, v0.py:812-816 and 822-826. -/
def SIL.others (s : SIL) (i : ℕ) (J : ℤ) : Except PyErr (List XR) :=
  mapE (fun j : ℕ => getAt2 s.sij i j) ((List.range s.centers.length).filter fun j => decide ((j : ℤ) ≠ J))

/-- `iSIL.sci`, v0.py:794-829. -/
noncomputable def SIL.sci (s : SIL) (J : ℤ) (i : ℕ) : Except PyErr XR := do
  let l ← s.others i J
  let mn ← listMin l
  let a ← getAt2 s.sij i J
  let l' ← s.others i J
  let mx ← listMax l'
  pure ((mn - a) / XR.pyMax a mx)

/-- `a += x` in place: the shape of `a` cannot change. -/
noncomputable def addInPlace (a x : Vec) : Except PyErr Vec := do
  let x' ← x.broadcastTo a.length
  Vec.add a x'

/-- The entry of row `i` and column `j` computed by the double loop, v0.py:877-893. -/
noncomputable def SIL.loopEntry (s : SIL) (x : Vec) (c : ℤ) (i j : ℕ) : Except PyErr XR := do
  let nj ← getAt s.sizes j
  let cpj ← getAt s.CP j
  let vj ← getAt s.centers j
  let vi ← getAt s.centers i
  let gj ← getAt s.g j
  let old ← getAt2 s.sij i j
  SIL.sijNew x i j c nj cpj vj vi (s.heap gj) old

/-- The matrix after the double loop.  Simplification: if an entry raises, the earlier ones are not recorded. -/
noncomputable def SIL.loop (s : SIL) (x : Vec) (c : ℤ) : Except PyErr Arr2 := do
  let k := s.sizes.length
  let es ← mapE (fun i => mapE (fun j => s.loopEntry x c i j) (List.range k)) (List.range k)
  pure ⟨s.sij.cols, (List.zipWith (fun e r => e ++ r.drop k) es (s.sij.rows.take k)) ++ s.sij.rows.drop k⟩

/-- `iSIL.update(x, c_i)` where `x` is the caller's array number `b`, v0.py:848-902. -/
noncomputable def SIL.update (b : ℕ) (c : ℤ) : Py SIL XR := do
  let s ← get
  let x := s.heap b
  (if c = s.sizes.length then
    modify fun s => { s with
      centers := s.centers ++ [x], sizes := s.sizes ++ [1], sc := s.sc ++ [0]
      b := pad s.b .pinf, sij := pad (pad s.b .pinf) 0
      CP := s.CP ++ [norm22 x], g := s.g ++ [b] }
  else if c > s.sizes.length then raise .valueError
  else pure ())
  modify fun s => { s with N := s.N + 1 }
  let s ← get
  let v ← lift (getAt s.centers c)
  let n ← lift (getAt s.sizes c)
  let u ← lift (centerUpdate x v n)
  let cs ← lift (setAt s.centers c u.1)
  modify fun s => { s with centers := cs }
  let ns ← lift (setAt s.sizes c u.2)
  modify fun s => { s with sizes := ns }
  let s ← get
  let m ← lift (s.loop x c)
  modify fun s => { s with sij := m }
  -- `self.cp_update(x, c_i)`, v0.py:627-640
  let cp ← lift (getAt s.CP c)
  let cps ← lift (setAt s.CP c (cp + norm22 x))
  modify fun s => { s with CP := cps }
  let gc ← lift (getAt s.g c)
  let gn ← lift (addInPlace (s.heap gc) x)
  modify fun s => { s with heap := Function.update s.heap gc gn }
  let s ← get
  let es ← lift (mapE (s.sci c) (List.range s.centers.length))
  modify fun s => { s with output := .fin (1 / (s.centers.length : ℝ)) * es.sum }
  let s ← get
  pure s.output

/-! ## iCVI -/

/-- The classes the factory can build. -/
inductive Cls where
  | iDB | iSIL | iGD43 | iGD53 | iCH | iPS | iXB
  deriving DecidableEq, Repr

/-- `iCVI(name)`, v0.py:1003-1022: the class of the object returned. -/
def iCVI (name : String) : Except PyErr Cls :=
  if name = "iDB" then .ok .iDB
  else if name = "iSIL" then .ok .iSIL
  else if name = "iGD43" then .ok .iGD43
  else if name = "iGD53" then .ok .iGD53
  else if name = "iCH" then .ok .iCH
  else if name = "iPS" then .ok .iPS
  else if name = "iXB" then .ok .iXB
  else .error .valueError

/-! ## Cluster, Clusters -/

/-- The attributes of `Cluster`, v0.py:31-38.  `center` is the number 0 (`none`) or an array; `box` is the empty list (`none`) or an array. -/
structure Cluster where
  radial : Bool
  boxed : Bool
  len : ℕ
  center : Option Vec
  box : Option Vec
  points : List Vec
  indices : List ℤ
  dim : ℕ

/-- `Cluster(radial, box)`, v0.py:19-38. -/
def Cluster.init (radial boxed : Bool) : Cluster := ⟨radial, boxed, 0, none, none, [], [], 0⟩

open Classical in
/-- `Cluster.add_point(x, i)`, v0.py:52-70, with assertions enabled.  `if self.bounding_box` (line 62) on an array raises ValueError: it has an
even number of entries, so never exactly one, and none only if `x` is empty, which `np.max` rejects before. -/
noncomputable def Cluster.addPoint (x : Vec) (i : Option ℤ) : Py Cluster Unit := do
  let s ← get
  (if s.points = [] then modify fun s => { s with dim := x.length } else pure ())
  let s ← get
  (if s.dim = x.length then pure () else raise .assertionError)
  (if s.radial then do
    let t ← lift (scaleAdd s.len s.center x)
    modify fun s => { s with center := some (vdiv t (.fin ((s.len + 1 : ℕ) : ℝ))) }
  else pure ())
  (if s.boxed then do
    let mx ← lift (Vec.amax x)
    (if XR.lt mx (.fin 1) ∨ mx = .fin 1 then pure () else raise .assertionError)
    let mn ← lift (Vec.amin x)
    (if XR.lt (.fin 0) mn ∨ mn = .fin 0 then pure () else raise .assertionError)
    let cc := x ++ x.map fun y => .fin 1 - y
    match s.box with
      | some _ => raise .valueError
      | none => modify fun s => { s with box := some cc }
  else pure ())
  modify fun s => { s with points := s.points ++ [x] }
  (match i with
    | some i => modify fun s => { s with indices := s.indices ++ [i] }
    | none => pure ())
  modify fun s => { s with len := s.len + 1 }

/-- `Cluster.min_distance(x)`, v0.py:72-88 (2-norm). -/
noncomputable def Cluster.minDistance (s : Cluster) (x : Vec) : Except PyErr XR := do
  let ds ← mapE (fun y => do let e ← Vec.sub x y; pure (norm 2 e)) s.points
  pure (ds.foldl XR.min .pinf)

/-- `Cluster.avg_distance(x)`, v0.py:90-106 (2-norm).  Without points it divides the Python int 0 by `len`. -/
noncomputable def Cluster.avgDistance (s : Cluster) (x : Vec) : Except PyErr XR := do
  let ds ← mapE (fun y => do let e ← Vec.sub x y; pure (norm 2 e)) s.points
  if ds = [] ∧ s.len = 0 then .error .zeroDivisionError else pure (ds.sum / .fin s.len)

/-- `Cluster.center_distance(x)`, v0.py:108-120 (2-norm). -/
noncomputable def Cluster.centerDistance (s : Cluster) (x : Vec) : Except PyErr XR :=
  match s.center with
  | none => .ok (norm 2 (x.map fun y => .fin 0 - y))
  | some c => do
    let e ← Vec.sub c x
    pure (norm 2 e)

open Classical in
/-- `Cluster.within_bounding_box(x)`, v0.py:122-136, once there is a bounding box. -/
noncomputable def Cluster.withinBox (box x : Vec) : Except PyErr Bool := do
  let m ← Vec.bin XR.min x box
  pure (decide (m = box ∧ XR.nan ∉ box))

/-- `Clusters.from_list(X, C)`, v0.py:143-147: the number of elements of the list when it ends.  `self[c].add_point(c, c)` calls the function
`Cluster.add_point` of the *class* `Cluster` with the int `c` as `self`, and `c.points` raises AttributeError. -/
def fromList : List (Vec × ℤ) → Py ℕ Unit
  | [] => pure ()
  | p :: l => do
    let len ← get
    (if p.2 ≥ len then modify (· + 1) else pure ())
    let len ← get
    match pyIdx len p.2 with
      | none => raise .indexError
      | some _ => do
        let _ : Unit ← raise .attributeError
        fromList l

/-! ## Sequences of updates -/

/-- Present the labelled samples one by one; the list of returned values, or the first exception. -/
def feed {σ β : Type} (update : Vec → ℤ → Py σ β) : List (Vec × ℤ) → Py σ (List β)
  | [] => pure []
  | p :: l => do
    let r ← update p.1 p.2
    let rs ← feed update l
    pure (r :: rs)

/-- The object after a sequence of updates whose exceptions, if any, are caught by the caller. -/
def afterAll {σ β : Type} (update : Vec → ℤ → Py σ β) : List (Vec × ℤ) → σ → σ
  | [], s => s
  | p :: l, s => afterAll update l (update p.1 p.2 s).state

end V0
end Verif
