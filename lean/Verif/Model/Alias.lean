import Verif.Api

/-!
# Arrays shared with the caller

`_setup` of six classes stores the caller's array itself: `self._mu = sample` (CH.py:57, WB.py:59, XB.py:55, DB.py:54, GD43.py:58,
GD53.py:58).  From the second sample on, `_mu` is a new array (`setupOrMu`).  No other statement of the nine classes keeps a reference to an
argument: `np.vstack`, slice assignment and arithmetic copy.

The other files give every call a private copy of its sample.  Here the caller has numbered buffers which it may overwrite in place
between the calls, and `muRef` says which buffer `_mu` is, if any.
-/

namespace Verif

/-- The classes with `self._mu = sample` in `_setup`. -/
def Index.storesSample : Index → Bool
  | .CH | .WB | .XB | .DB | .GD43 | .GD53 => true
  | .PS | .rCIP | .cSIL => false

/-- What the caller does: overwrite a buffer in place (`buf[:] = y`), or call `get_cvi(buf, c)`. -/
inductive Ev where
  | write (b : ℕ) (y : Vec)
  | call (b : ℕ) (c : ℤ)

/-- The caller's buffers, the object, and the buffer that is the object's `_mu`. -/
structure World where
  bufs : ℕ → Vec
  obj : Obj
  muRef : Option ℕ

/-- `buf[:] = y`; raises (and is ignored here) when the lengths differ. -/
def World.write (w : World) (b : ℕ) (y : Vec) : World :=
  if y.length = (w.bufs b).length then
    { w with
      bufs := Function.update w.bufs b y
      obj := if w.muRef = some b then { w.obj with core := { w.obj.core with mu := y } } else w.obj }
  else w

/-- The buffer that is `_mu` after `get_cvi(buf, c)`: set by `_setup`, lost when `_mu` is recomputed. -/
noncomputable def World.refAfter (I : Index) (w : World) (b : ℕ) : Option ℕ :=
  if I.storesSample then
    if w.obj.core.nSamples = 0 then some b
    else match runningMean (w.obj.core.nSamples + 1) w.obj.core.mu (w.bufs b) with
      | .ok _ => none
      | .error _ => w.muRef
  else w.muRef

/-- The results of the calls, exceptions caught. -/
noncomputable def World.run (I : Index) : List Ev → World → List (Except PyErr XR)
  | [], _ => []
  | .write b y :: l, w => World.run I l (w.write b y)
  | .call b c :: l, w =>
    let r := getCvi I.mod (.d1 (w.bufs b)) (.int c) w.obj
    r.val :: World.run I l { w with obj := r.state, muRef := w.refAfter I b }

/-- The results if every call worked on a copy of its buffer. -/
noncomputable def runCopies (I : Index) : List Ev → (ℕ → Vec) → Obj → List (Except PyErr XR)
  | [], _, _ => []
  | .write b y :: l, bufs, o =>
    runCopies I l (if y.length = (bufs b).length then Function.update bufs b y else bufs) o
  | .call b c :: l, bufs, o =>
    let r := getCvi I.mod (.d1 (bufs b)) (.int c) o
    r.val :: runCopies I l bufs r.state

end Verif
