import Verif.Num

/-!
# Python objects, exceptions and numpy arrays

* `Py σ α` : a Python method on an object of type `σ`.  It either returns (`Res.ok`) or raises (`Res.err`);
  in both cases the object keeps every attribute assignment made so far.
* `Vec`, `Arr2`, `Arr3` : numpy arrays of floats of ndim 1, 2, 3, with the shape errors and broadcasting rules numpy applies.
* `Seq` : an attribute that is either a Python list or a 1-D ndarray (the modules use both for `_n`, `_CP`, `_S`).

These definitions model numpy/Python primitives, which live outside /repo; the use sites are cited in the modules.
-/

namespace Verif

/-- Exception classes raised by the modelled code. -/
inductive PyErr where
  | valueError
  | indexError
  | attributeError
  | typeError
  | zeroDivisionError
  | notImplementedError
  | linAlgError
  | assertionError
  | overflowError
  deriving DecidableEq, Repr

/-- Outcome of running a method: a value and the object afterwards, or an exception and the object as the exception left it. -/
inductive Res (σ α : Type) where
  | ok (a : α) (s : σ)
  | err (e : PyErr) (s : σ)

namespace Res
variable {σ α β : Type}

/-- Sequencing of outcomes: an exception skips the rest. -/
def bind (r : Res σ α) (f : α → σ → Res σ β) : Res σ β :=
  match r with
  | ok a s => f a s
  | err e s => err e s

@[simp] theorem bind_ok (a : α) (s : σ) (f : α → σ → Res σ β) : (ok a s).bind f = f a s := rfl
@[simp] theorem bind_err (e : PyErr) (s : σ) (f : α → σ → Res σ β) : (err e s : Res σ α).bind f = err e s := rfl

/-- The object after the call, however it ended. -/
def state : Res σ α → σ
  | ok _ s => s
  | err _ s => s

/-- Map the object. -/
def mapState {τ : Type} (f : σ → τ) : Res σ α → Res τ α
  | ok a s => ok a (f s)
  | err e s => err e (f s)

end Res

/-- A Python method on an object of type `σ` returning `α`. -/
def Py (σ α : Type) := σ → Res σ α

namespace Py
variable {σ α β : Type}

instance : Monad (Py σ) where
  pure a := fun s => .ok a s
  bind x f := fun s => (x s).bind fun a s' => f a s'

/-- Read the object. -/
def get : Py σ σ := fun s => .ok s s
/-- Assign attributes. -/
def modify (f : σ → σ) : Py σ Unit := fun s => .ok () (f s)
/-- `raise e` -/
def raise (e : PyErr) : Py σ α := fun s => .err e s
/-- A pure computation that may raise. -/
def lift (x : Except PyErr α) : Py σ α := fun s =>
  match x with
  | .ok a => .ok a s
  | .error e => .err e s

@[simp] theorem pure_apply (a : α) (s : σ) : (pure a : Py σ α) s = .ok a s := rfl
@[simp] theorem bind_apply (x : Py σ α) (f : α → Py σ β) (s : σ) :
    (x >>= f) s = (x s).bind fun a s' => f a s' := rfl
@[simp] theorem get_apply (s : σ) : (get : Py σ σ) s = .ok s s := rfl
@[simp] theorem modify_apply (f : σ → σ) (s : σ) : modify f s = .ok () (f s) := rfl
@[simp] theorem raise_apply (e : PyErr) (s : σ) : (raise e : Py σ α) s = .err e s := rfl
@[simp] theorem lift_ok (a : α) (s : σ) : lift (.ok a) s = .ok a s := rfl
@[simp] theorem lift_error (e : PyErr) (s : σ) : (lift (.error e) : Py σ α) s = .err e s := rfl
@[simp] theorem ite_app (c : Prop) [Decidable c] (x y : Py σ α) (s : σ) :
    (if c then x else y) s = if c then x s else y s := by split <;> rfl

/-- `for i in l: body(i)` -/
def forEach {ι : Type} : List ι → (ι → Py σ Unit) → Py σ Unit
  | [], _ => pure ()
  | i :: l, body => do body i; forEach l body

end Py

@[simp] theorem except_bind_ok {ε α β : Type} (a : α) (f : α → Except ε β) :
    ((Except.ok a : Except ε α) >>= f) = f a := rfl
@[simp] theorem except_bind_error {ε α β : Type} (e : ε) (f : α → Except ε β) :
    ((Except.error e : Except ε α) >>= f) = .error e := rfl
@[simp] theorem except_pure {ε α : Type} (a : α) : (pure a : Except ε α) = .ok a := rfl

/-- `[f(a) for a in l]` where `f` may raise. -/
def mapE {α β : Type} (f : α → Except PyErr β) : List α → Except PyErr (List β)
  | [] => .ok []
  | a :: l => do
    let b ← f a
    let bs ← mapE f l
    pure (b :: bs)

theorem mapE_ok {α β : Type} {f : α → Except PyErr β} {g : α → β} {l : List α}
    (h : ∀ a ∈ l, f a = .ok (g a)) : mapE f l = .ok (l.map g) := by
  induction l with
  | nil => rfl
  | cons a l ih =>
    simp [mapE, h a (by simp), ih fun b hb => h b (by simp [hb])]

/-! ## 1-D arrays -/

/-- A 1-D numpy array of floats; `F` is the type of floats, `XR` unless said otherwise. -/
abbrev Vec (F : Type := XR) := List F

namespace Vec
variable {F : Type}

/-- numpy elementwise binary operation on two 1-D arrays, with broadcasting of length-1 arrays. -/
def bin [Zero F] (f : F → F → F) (a b : Vec F) : Except PyErr (Vec F) :=
  if a.length = b.length then .ok (List.zipWith f a b)
  else if a.length = 1 then .ok (b.map fun y => f (a.headD 0) y)
  else if b.length = 1 then .ok (a.map fun x => f x (b.headD 0))
  else .error .valueError

/-- `a + b` -/
noncomputable def add (a b : Vec) : Except PyErr Vec := bin (· + ·) a b
/-- `a - b` -/
noncomputable def sub (a b : Vec) : Except PyErr Vec := bin (· - ·) a b
/-- `c * a` for a scalar `c` -/
noncomputable def smul (c : XR) (a : Vec) : Vec := a.map fun x => c * x
/-- `np.inner(a, b)`: raises on different lengths (no broadcasting). -/
noncomputable def inner (a b : Vec) : Except PyErr XR :=
  if a.length = b.length then .ok (List.zipWith (· * ·) a b).sum else .error .valueError
/-- `np.sum(a ** 2)`, also `sum(a ** 2)` -/
noncomputable def sumSq (a : Vec) : XR := (a.map XR.sq).sum
/-- `np.sum((a - b) ** 2)` -/
noncomputable def sqDist (a b : Vec) : Except PyErr XR := do
  let d ← sub a b
  pure (sumSq d)
/-- `np.zeros(n)` -/
def zeros [Zero F] (n : ℕ) : Vec F := List.replicate n 0
/-- `np.min(a)`: raises ValueError on an empty array. -/
noncomputable def amin : Vec → Except PyErr XR
  | [] => .error .valueError
  | a :: l => .ok (l.foldl XR.min a)
/-- `np.max(a)`: raises ValueError on an empty array. -/
noncomputable def amax : Vec → Except PyErr XR
  | [] => .error .valueError
  | a :: l => .ok (l.foldl XR.max a)
/-- `np.delete(a, i)` -/
def delete (a : Vec F) (i : ℕ) : Except PyErr (Vec F) :=
  if i < a.length then .ok (a.eraseIdx i) else .error .indexError
/-- Broadcast to length `n` on assignment (`x[i, :] = a`). -/
def broadcastTo [Zero F] (n : ℕ) (a : Vec F) : Except PyErr (Vec F) :=
  if a.length = n then .ok a
  else if a.length = 1 then .ok (List.replicate n (a.headD 0))
  else .error .valueError

end Vec

/-! ## 2-D arrays -/

/-- A 2-D numpy array of floats with `rows.length` rows and `cols` columns. -/
structure Arr2 (F : Type := XR) where
  cols : ℕ
  rows : List (Vec F)

namespace Arr2
variable {F : Type}

/-- `np.zeros((r, c))` -/
def zeros [Zero F] (r c : ℕ) : Arr2 F := ⟨c, List.replicate r (Vec.zeros c)⟩
/-- `a[i, :]` -/
def row (a : Arr2 F) (i : ℕ) : Except PyErr (Vec F) :=
  match a.rows[i]? with
  | some r => .ok r
  | none => .error .indexError
/-- `a[i, j]` -/
def get (a : Arr2 F) (i j : ℕ) : Except PyErr F :=
  match a.rows[i]? with
  | some r => match r[j]? with
    | some x => .ok x
    | none => .error .indexError
  | none => .error .indexError
/-- `a[:, j]` -/
def col (a : Arr2 F) (j : ℕ) : Except PyErr (Vec F) :=
  if j < a.cols then mapE (fun r => match r[j]? with
    | some x => .ok x
    | none => .error .indexError) a.rows
  else .error .indexError
/-- `a[i, :] = v` -/
def setRow [Zero F] (a : Arr2 F) (i : ℕ) (v : Vec F) : Except PyErr (Arr2 F) :=
  if i < a.rows.length then do
    let w ← v.broadcastTo a.cols
    pure ⟨a.cols, a.rows.set i w⟩
  else .error .indexError
/-- `a[:, j] = v` -/
def setCol [Zero F] (a : Arr2 F) (j : ℕ) (v : Vec F) : Except PyErr (Arr2 F) :=
  if j < a.cols then do
    let w ← v.broadcastTo a.rows.length
    pure ⟨a.cols, List.zipWith (fun r x => r.set j x) a.rows w⟩
  else .error .indexError
/-- `np.vstack([a, v])` for a 1-D `v`: raises ValueError unless `len(v)` is the number of columns. -/
def vstack (a : Arr2 F) (v : Vec F) : Except PyErr (Arr2 F) :=
  if v.length = a.cols then .ok ⟨a.cols, a.rows ++ [v]⟩ else .error .valueError
/-- Broadcast to shape `(r, c)` on assignment (`x[0:r, 0:c] = a`). -/
def broadcastTo [Zero F] (r c : ℕ) (a : Arr2 F) : Except PyErr (Arr2 F) := do
  let rs ← (if a.rows.length = r then .ok a.rows
    else if a.rows.length = 1 then .ok (List.replicate r (a.rows.headD []))
    else .error .valueError : Except PyErr (List (Vec F)))
  if a.cols = c then pure ⟨c, rs⟩
  else if a.cols = 1 then pure ⟨c, rs.map fun x => List.replicate c (x.headD 0)⟩
  else .error .valueError
/-- numpy elementwise binary operation on two 2-D arrays, with broadcasting. -/
def bin [Zero F] (f : F → F → F) (a b : Arr2 F) : Except PyErr (Arr2 F) := do
  let r := if a.rows.length = 1 then b.rows.length else a.rows.length
  let c := if a.cols = 1 then b.cols else a.cols
  let a' ← a.broadcastTo r c
  let b' ← b.broadcastTo r c
  pure ⟨c, List.zipWith (fun x y => List.zipWith f x y) a'.rows b'.rows⟩
/-- `a + b` -/
noncomputable def add (a b : Arr2) : Except PyErr Arr2 := bin (· + ·) a b
/-- `a - b` -/
noncomputable def sub (a b : Arr2) : Except PyErr Arr2 := bin (· - ·) a b
/-- `c * a` for a scalar `c` -/
noncomputable def smul (c : XR) (a : Arr2) : Arr2 := ⟨a.cols, a.rows.map (Vec.smul c)⟩
/-- `np.transpose(a)` -/
def transpose [Zero F] (a : Arr2 F) : Arr2 F :=
  ⟨a.rows.length, (List.range a.cols).map fun j => a.rows.map fun r => r.getD j 0⟩
/-- `np.outer(a, b)` -/
noncomputable def outer (a b : Vec) : Arr2 := ⟨b.length, a.map fun x => b.map fun y => x * y⟩
/-- `a @ b` for 2-D arrays: raises ValueError unless the inner dimensions agree. -/
noncomputable def matmul (a b : Arr2) : Except PyErr Arr2 :=
  if a.cols = b.rows.length then
    .ok ⟨b.cols, a.rows.map fun r => (List.range b.cols).map fun j =>
      (List.zipWith (· * ·) r (b.rows.map fun s => s.getD j 0)).sum⟩
  else .error .valueError
/-- `v @ a` for a 1-D `v` and 2-D `a`. -/
noncomputable def vecMul (v : Vec) (a : Arr2) : Except PyErr Vec :=
  if v.length = a.rows.length then
    .ok ((List.range a.cols).map fun j => (List.zipWith (· * ·) v (a.rows.map fun s => s.getD j 0)).sum)
  else .error .valueError
/-- `np.mean(a, axis=0)`; `nan` in every column when there are no rows (0/0). -/
noncomputable def mean0 (a : Arr2) : Vec :=
  (List.range a.cols).map fun j => (a.rows.map fun r => r.getD j 0).sum / XR.fin a.rows.length
/-- `data[idx, :]` for a list of row indices. -/
def take (a : Arr2 F) (idx : List ℕ) : Except PyErr (Arr2 F) := do
  let rs ← mapE (fun i => a.row i) idx
  pure ⟨a.cols, rs⟩
/-- `a.any()` -/
noncomputable def any (a : Arr2) : Bool := a.rows.any fun r => r.any XR.truthy

/-- Index pairs `i < j < n` in row-major order (`np.triu_indices(n, k=1)`). -/
def triuPairs (n : ℕ) : List (ℕ × ℕ) :=
  (List.range n).flatMap fun i => ((List.range n).filter fun j => decide (i < j)).map fun j => (i, j)

/-- `a[np.triu_indices(n, k=1)]` -/
def triu (n : ℕ) (a : Arr2 F) : Except PyErr (Vec F) := mapE (fun p => a.get p.1 p.2) (triuPairs n)

/-- The zero matrix of shape `(n, n)` with `f i j` written at every `i < j < n`
(the double loop `for ix in range(n-1): for jx in range(ix+1, n): D[ix, jx] = f(ix, jx)`).
Simplification: if some `f i j` raises, the partially filled matrix is not recorded. -/
def upperTri [Zero F] (n : ℕ) (f : ℕ → ℕ → Except PyErr F) : Except PyErr (Arr2 F) := do
  let rs ← mapE (fun i => mapE (fun j => if i < j then f i j else .ok 0) (List.range n)) (List.range n)
  pure ⟨n, rs⟩

end Arr2

/-! ## linear algebra -/

namespace XR
/-- The real value of a float; `0` for the special values (only used behind a finiteness check). -/
noncomputable def toReal : XR → ℝ
  | fin a => a
  | _ => 0
/-- Is this a finite number? -/
def isFin : XR → Bool
  | fin _ => true
  | _ => false
@[simp] theorem toReal_fin (a : ℝ) : toReal (fin a) = a := rfl
@[simp] theorem isFin_fin (a : ℝ) : isFin (fin a) = true := rfl
end XR

/-! ## Python lists or 1-D arrays -/

/-- An attribute holding a Python list (`isArr = false`) or a 1-D ndarray (`isArr = true`). -/
structure Seq (α : Type) where
  isArr : Bool
  items : List α

namespace Seq
variable {α : Type}
/-- `l[i]` -/
def get (l : Seq α) (i : ℕ) : Except PyErr α :=
  match l.items[i]? with
  | some x => .ok x
  | none => .error .indexError
/-- `l[i] = x` -/
def set (l : Seq α) (i : ℕ) (x : α) : Except PyErr (Seq α) :=
  if i < l.items.length then .ok ⟨l.isArr, l.items.set i x⟩ else .error .indexError
/-- `l.append(x)`: an ndarray has no `append`. -/
def append (l : Seq α) (x : α) : Except PyErr (Seq α) :=
  if l.isArr then .error .attributeError else .ok ⟨false, l.items ++ [x]⟩
end Seq

/-- An attribute that may have been deleted (`del self._G`) or never be set. -/
def attr {α : Type} : Option α → Except PyErr α
  | some a => .ok a
  | none => .error .attributeError

/-- Python `a / b` on `int`s: raises ZeroDivisionError. -/
noncomputable def pyDiv (a b : ℤ) : Except PyErr XR :=
  if b = 0 then .error .zeroDivisionError else .ok (.fin ((a : ℝ) / (b : ℝ)))

end Verif
