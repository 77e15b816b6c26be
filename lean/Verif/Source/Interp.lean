import Verif.Source.Text
import Verif.Source.Simp
import Verif.Gen.All

/-!
# What the syntax trees mean

An interpreter for the trees of `Verif/Source/Lang.lean` over an arbitrary arithmetic `F`.  Values are Python and numpy values;
floats are elements of `F`.  The operations on arrays are those of `Verif/Py.lean` and `Verif/Gen/Arith.lean`.

* A use of an operation that the source does not contain (for instance adding a list to a dict) is `stuck`, the error
  `assertionError`.  The package has no `assert`, so `stuck` cannot be confused with an error of the package.
* Local variables hold values, not references.  The source writes into a local array in place only when the variable holds the
  only reference (`D_new`, `d_column_new`, `S_new`, `S_row_new`, `S_col_new`, `D`, all fresh results of `np.zeros`), and it never
  writes in place into an attribute that shares its array with the caller (`_mu = sample` is only ever replaced).
* `/` raises ZeroDivisionError when both operands are Python numbers and the divisor is zero; numpy numbers never raise.
  Python floats are kept apart (`pyf`) where they come from literals other than `0.0` and from `np.pi`.  The literal `0.0` is only
  assigned, appended and added to in the source, so it counts as an ordinary float; every other quotient with a float
  has a numpy float as one operand, or a positive integer as divisor.
-/

namespace Verif.Source
open Verif.Gen (pyDiv)

/-- Values. -/
inductive Val (F : Type) where
  | none
  /-- an integer; `np` says that it is a numpy integer -/
  | int (np : Bool) (z : ℤ)
  | flt (a : F)
  /-- a Python float: `np.pi`, a literal other than `0.0`, and what comes of them -/
  | pyf (a : F)
  | bool (b : Bool)
  | typ (t : Typ)
  /-- a list or 1-D array of floats -/
  | fs (q : Seq F)
  /-- a list, tuple or 1-D array of non-negative integers -/
  | ns (q : Seq ℕ)
  /-- a 1-D array of integers -/
  | zs (l : List ℤ)
  /-- a 2-D array of floats -/
  | mat (a : Arr2 F)
  /-- a 3-D array of floats by its first two dimensions and its pages `[:, :, i]` -/
  | cube (shape : ℕ × ℕ) (pages : List (Arr2 F))
  /-- an array with another number of dimensions -/
  | nd (shape : List ℕ)
  /-- the pair of arguments of `np.vstack` -/
  | vpair (a : Arr2 F) (v : Vec F)
  /-- the pair of arguments of `np.dstack` -/
  | dpair (shape : ℕ × ℕ) (pages : List (Arr2 F)) (b : Arr2 F)
  /-- `np.ones((r, c), bool)` -/
  | allTrue (r c : ℕ)
  /-- `np.triu(np.ones((r, c), bool), 1)` -/
  | upper (r c : ℕ)
  /-- `np.triu_indices(n, k=1)` -/
  | upperPairs (n : ℕ)
  | dict (m : LabelMap)
  /-- `:` -/
  | colon
  /-- `a:b` -/
  | slice (a b : ℤ)

/-- Constants and powers of Python floats. -/
structure Lits (F : Type) where
  /-- a float literal -/
  lit : ℕ → ℕ → F
  /-- `np.pi` -/
  pi : F
  /-- `a ** b` on two Python floats -/
  fpow : F → F → Except PyErr F
  /-- `a ** n` on a Python float and an integer -/
  ipow : F → ℕ → Except PyErr F

variable {F : Type} [Arith F]

/-- Not a use that occurs in the source. -/
def stuck {α : Type} : Except PyErr α := .error .assertionError

/-- An integer that meets a float. -/
def ofZ : ℤ → F
  | .ofNat n => Arith.ofNat n
  | .negSucc n => -Arith.ofNat (n + 1)

/-- An integer used as a size or an index; negative ones do not occur. -/
def asNat : Val F → Except PyErr ℕ
  | .int _ (.ofNat n) => .ok n
  | _ => stuck

/-- A float in a list. -/
def asFlt : Val F → Except PyErr F
  | .flt a => .ok a
  | _ => stuck

/-- `a / b` on integers: ZeroDivisionError for Python integers; numpy divides as floats. -/
def divInt (np : Bool) (a b : ℤ) : Except PyErr F :=
  if b = 0 then (if np then .ok (ofZ a / ofZ b) else .error .zeroDivisionError) else .ok (Arith.intDiv a b)

/-- A list or tuple display, or the items of a comprehension. -/
def mkSeq : List (Val F) → Except PyErr (Val F)
  | [] => .ok (.fs ⟨false, []⟩)
  | .flt a :: l => do
    let ys ← mapE asFlt l
    .ok (.fs ⟨false, a :: ys⟩)
  | .int np z :: l => do
    let y ← asNat (.int np z : Val F)
    let ys ← mapE asNat l
    .ok (.ns ⟨false, y :: ys⟩)
  | [.mat a, .fs ⟨true, v⟩] => .ok (.vpair a v)
  | [.cube sh p, .mat b] => .ok (.dpair sh p b)
  | _ => stuck

/-- `np.dstack((a, b))` for a 3-D `a` and a 2-D `b`. -/
def dstack (shape : ℕ × ℕ) (pages : List (Arr2 F)) (b : Arr2 F) : Except PyErr (Val F) :=
  if (b.rows.length, b.cols) = shape then .ok (.cube shape (pages ++ [b])) else .error .valueError

/-- `max` of a list of integers. -/
def maxInts (l : List ℕ) : Except PyErr (Val F) :=
  match l.max? with
  | some m => .ok (.int false m)
  | Option.none => .error .valueError

/-- `a[i, idx]` for a list `idx` of column indices. -/
def gather (a : Arr2 F) (i : ℕ) (idx : List ℕ) : Except PyErr (Val F) := do
  let r ← a.row i
  let xs ← mapE (fun t => match r[t]? with
    | some y => .ok y
    | Option.none => .error .indexError) idx
  .ok (.fs ⟨true, xs⟩)

/-- `a[mask, ]` for the mask `np.triu(np.ones((r, c), bool), 1)`. -/
def maskUpper (a : Arr2 F) (r c : ℕ) : Except PyErr (Val F) :=
  if r = c then
    if a.rows.length = r ∧ a.cols = c then do
      let xs ← a.triu r
      .ok (.fs ⟨true, xs⟩)
    else .error .indexError
  else stuck

/-- Functions. -/
def callFn (f : Fn) (args : List (Val F)) : Except PyErr (Val F) :=
  match f, args with
  | .m_items, [.dict m] => .ok (.dict m)
  | .m_any, [.mat a] => .ok (.bool (Gen.Arr2.any a))
  | .py_len, [.dict m] => .ok (.int false m.length)
  | .py_len, [.zs l] => .ok (.int false l.length)
  | .py_len, [.fs q] => .ok (.int false q.items.length)
  | .py_sum, [.fs q] => .ok (.flt (Arith.pySum q.items))
  | .py_range, [v] => do
    let n ← asNat v
    .ok (.ns ⟨false, List.range n⟩)
  | .py_range, [v, w] => do
    let n ← asNat v
    let m ← asNat w
    .ok (.ns ⟨false, List.range' n (m - n)⟩)
  | .py_max, [.ns q] => maxInts q.items
  | .np_zeros, [.int np z] => do
    let n ← asNat (.int np z : Val F)
    .ok (.fs ⟨true, Vec.zeros n⟩)
  | .np_zeros, [.ns ⟨_, [n]⟩] => .ok (.fs ⟨true, Vec.zeros n⟩)
  | .np_zeros, [.ns ⟨_, [r, c]⟩] => .ok (.mat (Arr2.zeros r c))
  | .np_zeros, [.ns ⟨_, [r, c, n]⟩] => .ok (.cube (r, c) (List.replicate n (Arr2.zeros r c)))
  | .np_zeros_dtype, [v, .typ .int_] => do
    let n ← asNat v
    .ok (.ns ⟨true, List.replicate n 0⟩)
  | .np_empty, [.ns ⟨_, [0, 0]⟩] => .ok (.mat (Arr2.zeros 0 0))
  | .np_ones, [.ns ⟨_, [r, c]⟩] => .ok (.mat ⟨c, List.replicate r (List.replicate c Arith.one)⟩)
  | .np_ones, [.ns ⟨_, [r, c]⟩, .typ .bool_] => .ok (.allTrue r c)
  | .np_eye, [v] => do
    let n ← asNat v
    .ok (.mat ⟨n, (List.range n).map fun i => (List.range n).map fun j => if i = j then Arith.one else 0⟩)
  | .np_array, [.fs q] => .ok (.fs ⟨true, q.items⟩)
  | .np_unique, [.zs l] => .ok (.zs (l.dedup.insertionSort (· ≤ ·)))
  | .np_unique, [.int _ z] => .ok (.zs [z])
  | .np_vstack, [.vpair a v] => do
    let b ← a.vstack v
    .ok (.mat b)
  | .np_dstack, [.dpair sh p b] => dstack sh p b
  | .np_inner, [.fs ⟨true, a⟩, .fs ⟨true, b⟩] => do
    let y ← Gen.Vec.inner a b
    .ok (.flt y)
  | .np_outer, [.fs ⟨true, a⟩, .fs ⟨true, b⟩] => .ok (.mat (Gen.Arr2.outer a b))
  | .np_transpose, [.mat a] => .ok (.mat a.transpose)
  | .np_transpose, [.fs ⟨true, a⟩] => .ok (.fs ⟨true, a⟩)
  | .np_sum, [.fs ⟨true, a⟩] => .ok (.flt (Arith.npSum a))
  | .np_sum, [.mat a] => .ok (.flt (Arith.sum2 a.rows))
  | .np_sum_axis, [.mat a, .int _ 1] => .ok (.fs ⟨true, a.rows.map Arith.rowSum⟩)
  | .np_mean_axis, [.mat a, .int _ 0] => .ok (.fs ⟨true, Gen.Arr2.mean0 a⟩)
  | .np_min, [.fs ⟨true, a⟩] => do
    let y ← Gen.Vec.amin a
    .ok (.flt y)
  | .np_max, [.fs ⟨true, a⟩] => do
    let y ← Gen.Vec.amax a
    .ok (.flt y)
  | .np_max_axis, [.mat a, .int _ 0] => do
    let ys ← mapE (fun j => do let c ← a.col j; Gen.Vec.amax c) (List.range a.cols)
    .ok (.fs ⟨true, ys⟩)
  | .np_maximum, [.flt a, .flt b] => .ok (.flt (Arith.max2 a b))
  | .np_sqrt, [.flt a] => .ok (.flt (Arith.sqrt a))
  | .np_sqrt, [.pyf a] => .ok (.flt (Arith.sqrt a))
  | .np_exp, [.flt a] => .ok (.flt (Arith.exp a))
  | .np_divide, [.fs q, .ns p] => do
    let ys ← Vec.bin (· / ·) q.items (p.items.map Arith.ofNat)
    .ok (.fs ⟨true, ys⟩)
  | .np_delete, [.fs ⟨true, a⟩, v] => do
    let i ← asNat v
    let b ← Vec.delete a i
    .ok (.fs ⟨true, b⟩)
  | .np_triu, [.allTrue r c, .int _ 1] => .ok (.upper r c)
  | .np_triu_indices_k, [v, .int _ 1] => do
    let n ← asNat v
    .ok (.upperPairs n)
  | .np_linalg_det, [.mat a] => do
    let y ← Arith.det a
    .ok (.flt y)
  | .np_linalg_inv, [.mat a] => do
    let b ← Arith.inv a
    .ok (.mat b)
  | _, _ => stuck

/-- Attributes of values. -/
def attrFn (a : Fn) (v : Val F) : Except PyErr (Val F) :=
  match a, v with
  | .a_ndim, .fs _ => .ok (.int false 1)
  | .a_ndim, .mat _ => .ok (.int false 2)
  | .a_ndim, .nd sh => .ok (.int false sh.length)
  | .a_shape, .mat m => .ok (.ns ⟨false, [m.rows.length, m.cols]⟩)
  | .a_size, .zs l => .ok (.int false l.length)
  | _, _ => stuck

/-- Binary operators. -/
def binFn (K : Lits F) (op : BinOp) (v w : Val F) : Except PyErr (Val F) :=
  match op, v, w with
  | .add, .int p a, .int q b => .ok (.int (p || q) (a + b))
  | .add, .flt a, .flt b => .ok (.flt (a + b))
  | .add, .fs ⟨true, a⟩, .fs ⟨true, b⟩ => do
    let y ← Gen.Vec.add a b
    .ok (.fs ⟨true, y⟩)
  | .add, .mat a, .mat b => do
    let y ← Gen.Arr2.add a b
    .ok (.mat y)
  | .sub, .int p a, .int q b => .ok (.int (p || q) (a - b))
  | .sub, .flt a, .flt b => .ok (.flt (a - b))
  | .sub, .int _ a, .flt b => .ok (.flt (ofZ a - b))
  | .sub, .fs ⟨true, a⟩, .fs ⟨true, b⟩ => do
    let y ← Gen.Vec.sub a b
    .ok (.fs ⟨true, y⟩)
  | .sub, .mat a, .mat b => do
    let y ← Gen.Arr2.sub a b
    .ok (.mat y)
  | .mul, .int p a, .int q b => .ok (.int (p || q) (a * b))
  | .mul, .flt a, .flt b => .ok (.flt (a * b))
  | .mul, .int _ a, .flt b => .ok (.flt (ofZ a * b))
  | .mul, .flt a, .int _ b => .ok (.flt (a * ofZ b))
  | .mul, .flt a, .fs ⟨true, b⟩ => .ok (.fs ⟨true, Gen.Vec.smul a b⟩)
  | .mul, .int _ a, .fs ⟨true, b⟩ => .ok (.fs ⟨true, Gen.Vec.smul (ofZ a) b⟩)
  | .mul, .flt a, .mat b => .ok (.mat (Gen.Arr2.smul a b))
  | .mul, .int _ a, .mat b => .ok (.mat (Gen.Arr2.smul (ofZ a) b))
  | .mul, .int _ a, .pyf b => .ok (.pyf (ofZ a * b))
  | .mul, .pyf a, .fs ⟨true, b⟩ => .ok (.fs ⟨true, Gen.Vec.smul a b⟩)
  | .mul, .mat a, .pyf b => .ok (.mat ⟨a.cols, a.rows.map fun r => r.map fun y => y * b⟩)
  | .mul, .fs ⟨true, a⟩, .mat b => do
    let y ← Arr2.bin (· * ·) ⟨a.length, [a]⟩ b
    .ok (.mat y)
  | .div, .int p a, .int q b => do
    let y ← divInt (p || q) a b
    .ok (.flt y)
  | .div, .flt a, .flt b => .ok (.flt (a / b))
  | .div, .int _ a, .flt b => .ok (.flt (ofZ a / b))
  | .div, .flt a, .int _ b => .ok (.flt (a / ofZ b))
  | .div, .pyf a, .int _ b => if b = 0 then .error .zeroDivisionError else .ok (.pyf (a / ofZ b))
  | .pow, .fs ⟨true, a⟩, .int _ 2 => .ok (.fs ⟨true, a.map Arith.sq⟩)
  | .pow, .mat a, .int _ 2 => .ok (.mat ⟨a.cols, a.rows.map fun r => r.map Arith.sq⟩)
  | .pow, .pyf a, .pyf b => do
    let y ← K.fpow a b
    .ok (.pyf y)
  | .pow, .pyf a, .int np z => do
    let n ← asNat (.int np z : Val F)
    let y ← K.ipow a n
    .ok (.pyf y)
  | .matmul, .fs ⟨true, a⟩, .mat b => do
    let y ← Gen.Arr2.vecMul a b
    .ok (.fs ⟨true, y⟩)
  | .matmul, .fs ⟨true, a⟩, .fs ⟨true, b⟩ => do
    let y ← Gen.Vec.inner a b
    .ok (.flt y)
  | .matmul, .mat a, .mat b => do
    let y ← Gen.Arr2.matmul a b
    .ok (.mat y)
  | _, _, _ => stuck

/-- Comparisons.  An array is unhashable. -/
def cmpFn (op : CmpOp) (v w : Val F) : Except PyErr Bool :=
  match op, v, w with
  | .eq, .int _ a, .int _ b => .ok (decide (a = b))
  | .gt, .int _ a, .int _ b => .ok (decide (a > b))
  | .isIn, .int _ a, .dict m => .ok (m.lookup a).isSome
  | .isIn, .zs _, .dict _ => .error .typeError
  | _, _, _ => stuck

/-- Truth of a condition. -/
def truth : Val F → Except PyErr Bool
  | .bool b => .ok b
  | _ => stuck

/-- `-v` -/
def negFn : Val F → Except PyErr (Val F)
  | .flt a => .ok (.flt (-a))
  | .pyf a => .ok (.pyf (-a))
  | _ => stuck

/-- `c[i, ...]` -/
def itemFn (c : Val F) (idx : List (Val F)) : Except PyErr (Val F) :=
  match c, idx with
  | .fs q, [.int np z] => do
    let i ← asNat (.int np z : Val F)
    let y ← q.get i
    .ok (.flt y)
  | .ns q, [.int np z] => do
    let i ← asNat (.int np z : Val F)
    let y ← q.get i
    .ok (.int q.isArr y)
  | .zs l, [.int np z] => do
    let i ← asNat (.int np z : Val F)
    match l[i]? with
    | some y => .ok (.int true y)
    | Option.none => .error .indexError
  | .mat a, [.int np z, .colon] => do
    let i ← asNat (.int np z : Val F)
    let y ← a.row i
    .ok (.fs ⟨true, y⟩)
  | .mat a, [.colon, .int np z] => do
    let i ← asNat (.int np z : Val F)
    let y ← a.col i
    .ok (.fs ⟨true, y⟩)
  | .mat a, [.int np z, .int np' z'] => do
    let i ← asNat (.int np z : Val F)
    let j ← asNat (.int np' z' : Val F)
    let y ← a.get i j
    .ok (.flt y)
  | .mat a, [.ns q, .colon] => do
    let y ← a.take q.items
    .ok (.mat y)
  | .mat a, [.fs ⟨_, []⟩, .colon] => do
    let y ← a.take []
    .ok (.mat y)
  | .mat a, [.int np z, .ns q] => do
    let i ← asNat (.int np z : Val F)
    gather a i q.items
  | .mat a, [.int np z, .fs ⟨_, []⟩] => do
    let i ← asNat (.int np z : Val F)
    gather a i []
  | .mat a, [.upperPairs n] => do
    let y ← a.triu n
    .ok (.fs ⟨true, y⟩)
  | .mat a, [.upper r c] => maskUpper a r c
  | .cube _ p, [.colon, .colon, .int np z] => do
    let i ← asNat (.int np z : Val F)
    match p[i]? with
    | some y => .ok (.mat y)
    | Option.none => .error .indexError
  | .dict m, [.int _ z] =>
    match m.lookup z with
    | some i => .ok (.int false i)
    | Option.none => stuck
  | _, _ => stuck

/-- `a[0:r, 0:c] = b` for `r`, `c` within the shape of `a`. -/
def setBlock (a : Arr2 F) (r c : ℕ) (b : Arr2 F) : Except PyErr (Arr2 F) :=
  if r ≤ a.rows.length ∧ c ≤ a.cols then do
    let b' ← b.broadcastTo r c
    .ok ⟨a.cols, List.zipWith (fun old new => new ++ old.drop c) a.rows b'.rows ++ a.rows.drop r⟩
  else stuck

/-- `a[i, j] = y` -/
def setEntry (a : Arr2 F) (i j : ℕ) (y : F) : Except PyErr (Arr2 F) :=
  if i < a.rows.length ∧ j < a.cols then
    .ok ⟨a.cols, a.rows.modify i fun r => r.set j y⟩
  else .error .indexError

/-- `p[:, :, i] = b` -/
def setPage (shape : ℕ × ℕ) (p : List (Arr2 F)) (i : ℕ) (b : Arr2 F) : Except PyErr (List (Arr2 F)) :=
  if i < p.length then do
    let b' ← b.broadcastTo shape.1 shape.2
    .ok (p.set i b')
  else .error .indexError

/-- A number written into an array of floats. -/
def toFlt : Val F → Except PyErr F
  | .flt a => .ok a
  | .int _ z => .ok (ofZ z)
  | _ => stuck

/-- `c[i, ...] = v`: the container afterwards. -/
def setFn (c : Val F) (idx : List (Val F)) (v : Val F) : Except PyErr (Val F) :=
  match c, idx, v with
  | .fs q, [.int np z], v => do
    let y ← toFlt v
    let i ← asNat (.int np z : Val F)
    let q' ← q.set i y
    .ok (.fs q')
  | .ns q, [.int np z], v => do
    let y ← asNat v
    let i ← asNat (.int np z : Val F)
    let q' ← q.set i y
    .ok (.ns q')
  | .mat a, [.int np z, .colon], .fs ⟨true, y⟩ => do
    let i ← asNat (.int np z : Val F)
    let a' ← a.setRow i y
    .ok (.mat a')
  | .mat a, [.colon, .int np z], .fs ⟨true, y⟩ => do
    let i ← asNat (.int np z : Val F)
    let a' ← a.setCol i y
    .ok (.mat a')
  | .mat a, [.int np z, .int np' z'], .flt y => do
    let i ← asNat (.int np z : Val F)
    let j ← asNat (.int np' z' : Val F)
    let a' ← setEntry a i j y
    .ok (.mat a')
  | .mat a, [.slice 0 r, .slice 0 c], .mat b => do
    let i ← asNat (.int false r : Val F)
    let j ← asNat (.int false c : Val F)
    let a' ← setBlock a i j b
    .ok (.mat a')
  | .cube sh p, [.colon, .colon, .int np z], .mat b => do
    let i ← asNat (.int np z : Val F)
    let p' ← setPage sh p i b
    .ok (.cube sh p')
  | .dict m, [.int _ z], w => do
    let i ← asNat w
    .ok (.dict (match m.lookup z with
      | some _ => m.map fun e => if e.1 = z then (z, i) else e
      | Option.none => m ++ [(z, i)]))
  | _, _, _ => stuck

/-- `c.append(v)` -/
def appendFn (c v : Val F) : Except PyErr (Val F) :=
  match c, v with
  | .fs q, v => do
    let y ← toFlt v
    let q' ← q.append y
    .ok (.fs q')
  | .ns q, v => do
    let y ← asNat v
    let q' ← q.append y
    .ok (.ns q')
  | _, _ => stuck

/-- The integers a loop or comprehension runs over. -/
def iterFn : Val F → Except PyErr (List ℕ)
  | .ns q => .ok q.items
  | _ => stuck

/-- `a:b` -/
def sliceFn : Val F → Val F → Except PyErr (Val F)
  | .int _ a, .int _ b => .ok (.slice a b)
  | _, _ => stuck

/-- Local variables. -/
def Locals (F : Type) := Var → Option (Val F)

/-- No local variables. -/
def Locals.empty : Locals F := fun _ => Option.none

/-- Assign a local variable. -/
def Locals.put (L : Locals F) (y : Var) (v : Val F) : Locals F := fun z => if z = y then some v else L z

/-- The value of a local variable; UnboundLocalError does not occur. -/
def Locals.get (L : Locals F) (y : Var) : Except PyErr (Val F) :=
  match L y with
  | some v => .ok v
  | Option.none => stuck

/-- Keep the items that satisfy a condition that may raise. -/
def filterE (p : ℕ → Except PyErr Bool) : List ℕ → Except PyErr (List ℕ)
  | [] => .ok []
  | j :: l => do
    let b ← p j
    let l' ← filterE p l
    .ok (if b then j :: l' else l')

mutual
/-- The value of an expression; `g` reads the attributes of `self`. -/
def eval (K : Lits F) (g : Attr → Except PyErr (Val F)) (L : Locals F) : Expr → Except PyErr (Val F)
  | .name y => L.get y
  | .self a => g a
  | .none => .ok .none
  | .int n => .ok (.int false n)
  | .float num den => .ok (if num = 0 then .flt 0 else .pyf (K.lit num den))
  | .bool b => .ok (.bool b)
  | .typ t => .ok (.typ t)
  | .pi => .ok (.pyf K.pi)
  | .neg e => do
    let v ← eval K g L e
    negFn v
  | .not e => do
    let v ← eval K g L e
    let b ← truth v
    .ok (.bool (!b))
  | .and a b => do
    let v ← eval K g L a
    let c ← truth v
    if c then eval K g L b else .ok (.bool false)
  | .bin op a b => do
    let v ← eval K g L a
    let w ← eval K g L b
    binFn K op v w
  | .cmp op a b => do
    let v ← eval K g L a
    let w ← eval K g L b
    let c ← cmpFn op v w
    .ok (.bool c)
  | .attr e a => do
    let v ← eval K g L e
    attrFn a v
  | .item e idx => do
    let c ← eval K g L e
    let is ← evalArgs K g L idx
    itemFn c is
  | .colon => .ok .colon
  | .slice a b => do
    let v ← eval K g L a
    let w ← eval K g L b
    sliceFn v w
  | .seq l => do
    let vs ← evalArgs K g L l
    mkSeq vs
  | .call f args => do
    let vs ← evalArgs K g L args
    callFn f vs
  | .comp e y it => do
    let v ← eval K g L it
    let l ← iterFn v
    let vs ← mapE (fun j => eval K g (L.put y (.int false (j : ℕ))) e) l
    mkSeq vs
  | .compIf e y it c => do
    let v ← eval K g L it
    let l ← iterFn v
    let l' ← filterE (fun j => do
      let b ← eval K g (L.put y (.int false (j : ℕ))) c
      truth b) l
    let vs ← mapE (fun j => eval K g (L.put y (.int false (j : ℕ))) e) l'
    mkSeq vs
/-- The values of an argument list, from left to right. -/
def evalArgs (K : Lits F) (g : Attr → Except PyErr (Val F)) (L : Locals F) : Args → Except PyErr (List (Val F))
  | .nil => .ok []
  | .cons e l => do
    let v ← eval K g L e
    let vs ← evalArgs K g L l
    .ok (v :: vs)
end

/-- An object: how its attributes are read, assigned and deleted, and what its methods do. -/
structure Host (σ F : Type) where
  get : Attr → σ → Except PyErr (Val F)
  set : Attr → Val F → σ → Except PyErr σ
  del : Attr → σ → Except PyErr σ
  call : Meth → List (Val F) → Py σ (Val F)

/-- How a statement ends. -/
inductive Flow (F : Type) where
  | next
  | cont
  | ret (v : Val F)

variable {σ : Type}

/-- Go on with the value of `r`, or raise. -/
def andThen {α β : Type} (r : Except PyErr α) (s : σ) (k : α → Res σ β) : Res σ β :=
  match r with
  | .ok v => k v
  | .error e => .err e s

/-- `for y in l: body` -/
def runLoop (y : Var) (body : Locals F → σ → Res σ (Locals F × Flow F)) :
    List ℕ → Locals F → σ → Res σ (Locals F × Flow F)
  | [], L, s => .ok (L, .next) s
  | j :: l, L, s => (body (L.put y (.int false (j : ℕ))) s).bind fun r s' =>
    match r.2 with
    | .ret v => .ok (r.1, .ret v) s'
    | _ => runLoop y body l r.1 s'

mutual
/-- Run a statement. -/
def exec (K : Lits F) (H : Host σ F) : Stmt → Locals F → σ → Res σ (Locals F × Flow F)
  | .assign y e, L, s => andThen (eval K (H.get · s) L e) s fun v => .ok (L.put y v, .next) s
  | .setSelf a e, L, s => andThen (eval K (H.get · s) L e) s fun v =>
    andThen (H.set a v s) s fun s' => .ok (L, .next) s'
  | .setItem y idx e, L, s => andThen (eval K (H.get · s) L e) s fun v =>
    andThen (L.get y) s fun c =>
    andThen (evalArgs K (H.get · s) L idx) s fun is =>
    andThen (setFn c is v) s fun c' => .ok (L.put y c', .next) s
  | .setSelfItem a idx e, L, s => andThen (eval K (H.get · s) L e) s fun v =>
    andThen (H.get a s) s fun c =>
    andThen (evalArgs K (H.get · s) L idx) s fun is =>
    andThen (setFn c is v) s fun c' =>
    andThen (H.set a c' s) s fun s' => .ok (L, .next) s'
  | .unpackSelf a b e, L, s => andThen (eval K (H.get · s) L e) s fun v =>
    match v with
    | .ns ⟨_, [m, n]⟩ =>
      andThen (H.set a (.int false m) s) s fun s' =>
      andThen (H.set b (.int false n) s') s' fun s'' => .ok (L, .next) s''
    | _ => .err .assertionError s
  | .augSelf op a e, L, s => andThen (H.get a s) s fun c =>
    andThen (eval K (H.get · s) L e) s fun v =>
    andThen (binFn K op c v) s fun w =>
    andThen (H.set a w s) s fun s' => .ok (L, .next) s'
  | .append a e, L, s => andThen (H.get a s) s fun c =>
    andThen (eval K (H.get · s) L e) s fun v =>
    andThen (appendFn c v) s fun w =>
    andThen (H.set a w s) s fun s' => .ok (L, .next) s'
  | .newMap a, L, s => andThen (H.set a (.dict []) s) s fun s' => .ok (L, .next) s'
  | .newDict a, L, s => andThen (H.set a (.dict []) s) s fun s' => .ok (L, .next) s'
  | .del a, L, s => andThen (H.del a s) s fun s' => .ok (L, .next) s'
  | .doCall m args, L, s => andThen (evalArgs K (H.get · s) L args) s fun vs =>
    (H.call m vs s).bind fun _ s' => .ok (L, .next) s'
  | .bindCall y m args, L, s => andThen (evalArgs K (H.get · s) L args) s fun vs =>
    (H.call m vs s).bind fun v s' => .ok (L.put y v, .next) s'
  | .ite c t e, L, s => andThen (eval K (H.get · s) L c) s fun v =>
    andThen (truth v) s fun b => bif b then execBlock K H t L s else execBlock K H e L s
  | .loop y it body, L, s => andThen (eval K (H.get · s) L it) s fun v =>
    andThen (iterFn v) s fun l => runLoop y (execBlock K H body) l L s
  | .cont, L, s => .ok (L, .cont) s
  | .ret e, L, s => andThen (eval K (H.get · s) L e) s fun v => .ok (L, .ret v) s
  | .raise e, _, s => .err e s
/-- Run a block. -/
def execBlock (K : Lits F) (H : Host σ F) : Block → Locals F → σ → Res σ (Locals F × Flow F)
  | .nil, L, s => .ok (L, .next) s
  | .cons st b, L, s => (exec K H st L s).bind fun r s' =>
    match r.2 with
    | .next => execBlock K H b r.1 s'
    | .cont => .ok (r.1, .cont) s'
    | .ret v => .ok (r.1, .ret v) s'
end

/-- The local variables at the start of a call. -/
def bindParams : List Var → List (Val F) → Except PyErr (Locals F)
  | [], [] => .ok Locals.empty
  | y :: ys, v :: vs => do
    let L ← bindParams ys vs
    .ok (L.put y v)
  | _, _ => .error .typeError

/-- Call a method. -/
def callMethod (K : Lits F) (H : Host σ F) (m : Method) (args : List (Val F)) : Py σ (Val F) := fun s =>
  andThen (bindParams m.params args) s fun L =>
    (execBlock K H m.body L s).bind fun r s' =>
      match r.2 with
      | .ret v => .ok v s'
      | _ => .ok .none s'

/-! ## The objects -/

/-- Assign a natural number. -/
def setNat (v : Val F) (f : ℕ → Obj F) : Except PyErr (Obj F) := do
  let n ← asNat v
  .ok (f n)

/-- Read an attribute; `_S` is a matrix in cSIL and a list in DB, `_SEP` is a scalar in XB once it is read there. -/
def getAttr (I : Index) (a : Attr) (o : Obj F) : Except PyErr (Val F) :=
  match a with
  | .map => stuck
  | ._label_map => stuck
  | ._dim => .ok (.int false o.core.dim)
  | ._n_samples => .ok (.int false o.core.nSamples)
  | ._n => .ok (.ns o.core.n)
  | ._v => .ok (.mat o.core.v)
  | ._CP => do
    let q ← Verif.attr o.core.CP
    .ok (.fs q)
  | ._G => do
    let q ← Verif.attr o.core.G
    .ok (.mat q)
  | ._n_clusters => .ok (.int false o.core.nClusters)
  | .criterion_value => .ok (.flt o.core.criterion)
  | ._is_setup => .ok (.bool o.core.isSetup)
  | ._mu => .ok (.fs ⟨true, o.core.mu⟩)
  | ._SEP => match I, o.core.SEP with
    | .XB, [y] => .ok (.flt y)
    | _, l => .ok (.fs ⟨true, l⟩)
  | ._BGSS => .ok (.flt o.core.BGSS)
  | ._WGSS => .ok (.flt o.core.WGSS)
  | ._D => .ok (.mat o.core.D)
  | ._R => .ok (.mat o.core.R)
  | ._S => match I with
    | .cSIL => .ok (.mat o.core.Sm)
    | _ => .ok (.fs o.core.Sv)
  | ._inter => .ok (.flt o.core.inter)
  | ._intra => .ok (.flt o.core.intra)
  | ._v_bar => .ok (.fs ⟨true, o.core.vBar⟩)
  | ._beta_t => .ok (.flt o.core.betaT)
  | ._PS_i => .ok (.fs ⟨true, o.core.PSi⟩)
  | ._sigma => .ok (.cube o.core.sigmaShape o.core.sigma)
  | ._delta_term => .ok (.mat o.core.deltaTerm)
  | ._constant => .ok (.flt o.core.constant)
  | ._sil_coefs => .ok (.fs ⟨true, o.core.silCoefs⟩)

/-- Assign an attribute.  A list of integers assigned to an attribute that holds floats is converted. -/
def setAttr (a : Attr) (v : Val F) (o : Obj F) : Except PyErr (Obj F) :=
  match a, v with
  | ._label_map, .dict m => .ok { o with labelMap := m }
  | ._dim, v => setNat v fun n => { o with core := { o.core with dim := n } }
  | ._n_samples, v => setNat v fun n => { o with core := { o.core with nSamples := n } }
  | ._n, .ns q => .ok { o with core := { o.core with n := q } }
  | ._n, .fs ⟨b, []⟩ => .ok { o with core := { o.core with n := ⟨b, []⟩ } }
  | ._v, .mat m => .ok { o with core := { o.core with v := m } }
  | ._CP, .fs q => .ok { o with core := { o.core with CP := some q } }
  | ._CP, .ns q => .ok { o with core := { o.core with CP := some ⟨q.isArr, q.items.map Arith.ofNat⟩ } }
  | ._CP, .none => .ok { o with core := { o.core with CP := Option.none } }
  | ._G, .mat m => .ok { o with core := { o.core with G := some m } }
  | ._n_clusters, v => setNat v fun n => { o with core := { o.core with nClusters := n } }
  | .criterion_value, .flt y => .ok { o with core := { o.core with criterion := y } }
  | ._is_setup, .bool b => .ok { o with core := { o.core with isSetup := b } }
  | ._mu, .fs ⟨true, l⟩ => .ok { o with core := { o.core with mu := l } }
  | ._SEP, .fs ⟨true, l⟩ => .ok { o with core := { o.core with SEP := l } }
  | ._SEP, .flt y => .ok { o with core := { o.core with SEP := [y] } }
  | ._BGSS, .flt y => .ok { o with core := { o.core with BGSS := y } }
  | ._WGSS, .flt y => .ok { o with core := { o.core with WGSS := y } }
  | ._D, .mat m => .ok { o with core := { o.core with D := m } }
  | ._R, .mat m => .ok { o with core := { o.core with R := m } }
  | ._S, .mat m => .ok { o with core := { o.core with Sm := m } }
  | ._S, .fs q => .ok { o with core := { o.core with Sv := q } }
  | ._S, .ns q => .ok { o with core := { o.core with Sv := ⟨q.isArr, q.items.map Arith.ofNat⟩ } }
  | ._inter, .flt y => .ok { o with core := { o.core with inter := y } }
  | ._intra, .flt y => .ok { o with core := { o.core with intra := y } }
  | ._v_bar, .fs q => .ok { o with core := { o.core with vBar := q.items } }
  | ._beta_t, .flt y => .ok { o with core := { o.core with betaT := y } }
  | ._PS_i, .fs ⟨true, l⟩ => .ok { o with core := { o.core with PSi := l } }
  | ._sigma, .cube sh p => .ok { o with core := { o.core with sigma := p, sigmaShape := sh } }
  | ._delta_term, .mat m => .ok { o with core := { o.core with deltaTerm := m } }
  | ._constant, .flt y => .ok { o with core := { o.core with constant := y } }
  | ._sil_coefs, .fs q => .ok { o with core := { o.core with silCoefs := q.items } }
  | _, _ => stuck

/-- Delete an attribute. -/
def delAttr (a : Attr) (o : Obj F) : Except PyErr (Obj F) :=
  match a with
  | ._CP => do
    let _ ← Verif.attr o.core.CP
    .ok { o with core := { o.core with CP := Option.none } }
  | ._G => do
    let _ ← Verif.attr o.core.G
    .ok { o with core := { o.core with G := Option.none } }
  | _ => stuck

/-- A method that does not exist on this level. -/
def noCall {σ : Type} : Meth → List (Val F) → Py σ (Val F) := fun _ _ => Py.raise .assertionError

/-- A CVI object of class `I` with the given methods. -/
def objHost (I : Index) (call : Meth → List (Val F) → Py (Obj F) (Val F)) : Host (Obj F) F where
  get := getAttr I
  set := setAttr
  del := delAttr
  call := call

/-- A `LabelMap` object: its only attribute is the dict. -/
def mapHost : Host LabelMap F where
  get a m := match a with
    | .map => .ok (.dict m)
    | _ => stuck
  set a v _ := match a, v with
    | .map, .dict m => .ok m
    | _, _ => stuck
  del _ _ := stuck
  call := noCall

/-- A class: the methods it defines. -/
structure Cls where
  init : Method
  setup : Method
  paramInc : Method
  paramBatch : Method
  evaluate : Method

/-- The nine classes. -/
def cls : Index → Cls
  | .CH => ⟨CH.init, CH._setup, CH._param_inc, CH._param_batch, CH._evaluate⟩
  | .WB => ⟨WB.init, WB._setup, WB._param_inc, WB._param_batch, WB._evaluate⟩
  | .XB => ⟨XB.init, XB._setup, XB._param_inc, XB._param_batch, XB._evaluate⟩
  | .DB => ⟨DB.init, DB._setup, DB._param_inc, DB._param_batch, DB._evaluate⟩
  | .GD43 => ⟨GD43.init, GD43._setup, GD43._param_inc, GD43._param_batch, GD43._evaluate⟩
  | .GD53 => ⟨GD53.init, GD53._setup, GD53._param_inc, GD53._param_batch, GD53._evaluate⟩
  | .PS => ⟨PS.init, PS._setup, PS._param_inc, PS._param_batch, PS._evaluate⟩
  | .rCIP => ⟨rCIP.init, rCIP._setup, rCIP._param_inc, rCIP._param_batch, rCIP._evaluate⟩
  | .cSIL => ⟨cSIL.init, cSIL._setup, cSIL._param_inc, cSIL._param_batch, cSIL._evaluate⟩

/-- `self._label_map.get_internal_label(label)` -/
def getLabel (K : Lits F) (args : List (Val F)) : Py (Obj F) (Val F) := fun o =>
  (callMethod K mapHost LabelMap.get_internal_label args o.labelMap).mapState fun m => { o with labelMap := m }

/-- The methods a method of a subclass calls on `super()`. -/
def superCall (K : Lits F) (I : Index) : Meth → List (Val F) → Py (Obj F) (Val F)
  | .super__init__, args => callMethod K (objHost I noCall) CVI.init args
  | .super_setup, args => callMethod K (objHost I noCall) CVI._setup args
  | .super_setup_batch, args => callMethod K (objHost I noCall) CVI._setup_batch args
  | _, _ => Py.raise .assertionError

/-- The methods the methods of class `I` call. -/
def selfCall (K : Lits F) (I : Index) : Meth → List (Val F) → Py (Obj F) (Val F)
  | .self_setup, args => callMethod K (objHost I (superCall K I)) (cls I).setup args
  | .get_internal_label, args => getLabel K args
  | m, args => superCall K I m args

/-- The methods `get_cvi` calls. -/
def cviCall (K : Lits F) (I : Index) : Meth → List (Val F) → Py (Obj F) (Val F)
  | .self_param_inc, args => callMethod K (objHost I (selfCall K I)) (cls I).paramInc args
  | .self_param_batch, args => callMethod K (objHost I (selfCall K I)) (cls I).paramBatch args
  | .self_evaluate, args => callMethod K (objHost I (selfCall K I)) (cls I).evaluate args
  | _, _ => Py.raise .assertionError

/-- `I().__init__()` on an object whose attributes are those of `o`. -/
def runInit (K : Lits F) (I : Index) : Py (Obj F) (Val F) :=
  callMethod K (objHost I (selfCall K I)) (cls I).init []

/-- The data argument. -/
def dataVal : Data F → Val F
  | .d1 l => .fs ⟨true, l⟩
  | .d2 m => .mat m
  | .other sh => .nd sh

/-- The label argument. -/
def labelVal : LabelArg → Val F
  | .int z => .int false z
  | .arr l => .zs l

/-- `o.get_cvi(data, label)` for an object of class `I`. -/
def runGetCvi (K : Lits F) (I : Index) (data : Data F) (label : LabelArg) : Py (Obj F) (Val F) :=
  callMethod K (objHost I (cviCall K I)) CVI.get_cvi [dataVal data, labelVal label]

end Verif.Source
