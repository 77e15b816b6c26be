import Verif.Old.Text
import Verif.Old.Simp
import Verif.Compat.V0

/-!
# An interpreter for the text of the older interface

Numbers keep what Python distinguishes: `int` or `float`, plain or numpy.  Division of plain numbers by zero raises ZeroDivisionError,
division that involves a numpy number does not.  Floats are exact (`XR`).  `stuck` marks what does not occur (and is not interpreted):
it raises AssertionError.
-/

set_option linter.constructorNameAsVariable false

namespace Verif.Old
open V0

/-- A number; the flag says whether it is a numpy scalar. -/
inductive Nm where
  | int (np : Bool) (z : ℤ)
  | flt (np : Bool) (y : XR)

namespace Nm

/-- The value. -/
noncomputable def val : Nm → XR
  | int _ z => .fin (z : ℝ)
  | flt _ y => y

/-- Whether it is a numpy scalar. -/
def np : Nm → Bool
  | int b _ => b
  | flt b _ => b

/-- `a + b` -/
noncomputable def add : Nm → Nm → Nm
  | int b z, int c w => int (b || c) (z + w)
  | m, n => flt (m.np || n.np) (m.val + n.val)

/-- `a - b` -/
noncomputable def sub : Nm → Nm → Nm
  | int b z, int c w => int (b || c) (z - w)
  | m, n => flt (m.np || n.np) (m.val - n.val)

/-- `a * b` -/
noncomputable def mul : Nm → Nm → Nm
  | int b z, int c w => int (b || c) (z * w)
  | m, n => flt (m.np || n.np) (m.val * n.val)

/-- `-a` -/
noncomputable def neg : Nm → Nm
  | int b z => int b (-z)
  | flt b y => flt b (-y)

open Classical in
/-- `a / b` -/
noncomputable def div (m n : Nm) : Except PyErr Nm :=
  if (m.np || n.np) = false ∧ n.val = .fin 0 then .error .zeroDivisionError
  else .ok (flt (m.np || n.np) (m.val / n.val))

/-- `a ** b` for an integer `b` that is not negative. -/
noncomputable def pow : Nm → Nm → Except PyErr Nm
  | int b z, int c w => if 0 ≤ w then .ok (int (b || c) (z ^ w.toNat)) else .error .assertionError
  | flt b y, int c w => if 0 ≤ w then .ok (flt (b || c) (y.powNat w.toNat)) else .error .assertionError
  | _, _ => .error .assertionError

open Classical in
/-- `a < b` -/
noncomputable def lt : Nm → Nm → Bool
  | int _ z, int _ w => decide (z < w)
  | m, n => decide (XR.lt m.val n.val)

open Classical in
/-- `a == b` -/
noncomputable def eq : Nm → Nm → Bool
  | int _ z, int _ w => decide (z = w)
  | m, n => decide (m.val = n.val ∧ m.val ≠ .nan)

/-- Builtin `min` of two numbers. -/
noncomputable def pyMin (m n : Nm) : Nm := bif n.lt m then n else m

/-- Builtin `max` of two numbers. -/
noncomputable def pyMax (m n : Nm) : Nm := bif m.lt n then n else m

end Nm

/-- Values. -/
inductive PV where
  | none
  | bool (b : Bool)
  | num (n : Nm)
  /-- a 1-D array of floats -/
  | vec (v : Vec)
  /-- a 2-D array of floats -/
  | mat (m : Arr2)
  /-- a list or a tuple -/
  | list (l : List PV)
  | constant

/-- A Python int. -/
abbrev PV.int (z : ℤ) : PV := .num (.int false z)
/-- A numpy float. -/
abbrev PV.npf (y : XR) : PV := .num (.flt true y)

/-- What is not interpreted. -/
def stuck {α : Type} : Except PyErr α := .error .assertionError

/-- A number. -/
def asNum : PV → Except PyErr Nm
  | .num n => .ok n
  | _ => stuck

/-- A float. -/
def asFlt : PV → Except PyErr XR
  | .num (.flt _ y) => .ok y
  | _ => stuck

/-- A 1-D array. -/
def asVec : PV → Except PyErr Vec
  | .vec v => .ok v
  | _ => stuck

/-- A natural number. -/
def asNat : PV → Except PyErr ℕ
  | .num (.int _ z) => if 0 ≤ z then .ok z.toNat else stuck
  | _ => stuck

/-- Binary operators.  `a / b` of an array and a number does not raise. -/
noncomputable def binFn : BinOp → PV → PV → Except PyErr PV
  | .add, .num m, .num n => .ok (.num (m.add n))
  | .add, .vec a, .vec b => do
    let c ← Vec.add a b
    .ok (.vec c)
  | .add, .num m, .vec b => .ok (.vec (b.map fun y => m.val + y))
  | .sub, .num m, .num n => .ok (.num (m.sub n))
  | .sub, .vec a, .vec b => do
    let c ← Vec.sub a b
    .ok (.vec c)
  | .sub, .vec a, .num n => .ok (.vec (a.map fun y => y - n.val))
  | .sub, .num m, .vec b => .ok (.vec (b.map fun y => m.val - y))
  | .mul, .num m, .num n => .ok (.num (m.mul n))
  | .mul, .num m, .vec b => .ok (.vec (Vec.smul m.val b))
  | .mul, .vec a, .num n => .ok (.vec (Vec.smul n.val a))
  | .mul, .mat a, .num n => .ok (.mat ⟨a.cols, a.rows.map (Vec.smul n.val)⟩)
  | .div, .num m, .num n => do
    let c ← m.div n
    .ok (.num c)
  | .div, .vec a, .num n => .ok (.vec (vdiv a n.val))
  | .pow, .num m, .num n => do
    let c ← m.pow n
    .ok (.num c)
  | _, _, _ => stuck

/-- `is` with `None`. -/
def isNone : PV → Bool
  | .none => true
  | _ => false

/-- Comparisons. -/
noncomputable def cmpFn : CmpOp → PV → PV → Except PyErr Bool
  | .eq, .num m, .num n => .ok (m.eq n)
  | .ne, .num m, .num n => .ok (!m.eq n)
  | .gt, .num m, .num n => .ok (n.lt m)
  | .ge, .num m, .num n => .ok (n.lt m || m.eq n)
  | .le, .num m, .num n => .ok (m.lt n || m.eq n)
  | .is_, v, .none => .ok (isNone v)
  | .isNot, v, .none => .ok (!isNone v)
  | _, _, _ => stuck

open Classical in
/-- Truth of a value; an array of several entries has none. -/
noncomputable def truth : PV → Except PyErr Bool
  | .none => .ok false
  | .bool b => .ok b
  | .list l => .ok (!l.isEmpty)
  | .num n => .ok (decide (n.val ≠ .fin 0))
  | .vec [] => .ok false
  | .vec [y] => .ok (decide (y ≠ .fin 0))
  | .vec _ => .error .valueError
  | _ => stuck

/-- An attribute of a value: numbers, arrays and lists have none of those that occur. -/
def attrFn (_ : PV) (_ : Attr) : Except PyErr PV := .error .attributeError

/-- `c[idx]` -/
def itemFn : PV → List PV → Except PyErr PV
  | .list l, [.num (.int _ z)] => getAt l z
  | .vec v, [.num (.int _ z)] => do
    let y ← getAt v z
    .ok (.npf y)
  | .mat a, [.num (.int _ z), .num (.int _ w)] => do
    let y ← getAt2 a z w
    .ok (.npf y)
  | _, _ => stuck

/-- The container after `c[idx] = v`. -/
noncomputable def setFn : PV → List PV → PV → Except PyErr PV
  | .list l, [.num (.int _ z)], v => do
    let l' ← setAt l z v
    .ok (.list l')
  | .mat a, [.num (.int _ z), .num (.int _ w)], .num n => do
    let a' ← setAt2 a z w n.val
    .ok (.mat a')
  | _, _, _ => stuck

/-- `c.append(v)` -/
def appendFn : PV → PV → Except PyErr PV
  | .list l, v => .ok (.list (l ++ [v]))
  | _, _ => stuck

/-- The items a loop or comprehension runs over. -/
def iterFn : PV → Except PyErr (List PV)
  | .list l => .ok l
  | _ => stuck

/-- The numbers in a list, or `none`. -/
def nums : List PV → Option (List Nm)
  | [] => some []
  | .num n :: l => (nums l).map (n :: ·)
  | _ :: _ => Option.none

/-- The arrays in a list, or `none`. -/
def vecs : List PV → Option (List Vec)
  | [] => some []
  | .vec n :: l => (vecs l).map (n :: ·)
  | _ :: _ => Option.none

/-- Builtin `sum` of numbers. -/
noncomputable def pySum (l : List Nm) : Nm := l.foldl Nm.add (.int false 0)

/-- `np.sum` of a list of numbers: a numpy int if all are ints. -/
noncomputable def npSum (l : List Nm) : Nm :=
  match pySum l with
  | .int _ z => .int true z
  | .flt _ y => .flt true y

/-- `np.linalg.norm(v, q)` for `q = 1, 2`. -/
noncomputable def normFn (v : Vec) (q : ℤ) : Except PyErr PV :=
  if q = 1 ∨ q = 2 then .ok (.npf (V0.norm q.toNat v)) else stuck

open Classical in
/-- `np.array_equal` of arrays. -/
noncomputable def arrayEqual (a b : Vec) : Bool := decide (a = b ∧ XR.nan ∉ b)

/-- Functions of numpy and builtins. -/
noncomputable def builtin : Fn → List PV → Except PyErr PV
  | .py_len, [.list l] => .ok (.int l.length)
  | .py_len, [.vec v] => .ok (.int v.length)
  | .py_range, [v] => do
    let n ← asNat v
    .ok (.list ((List.range n).map fun (j : ℕ) => .int j))
  | .py_min, [.list l] => match nums l with
    | some (n :: ns) => .ok (.num (ns.foldl Nm.pyMin n))
    | some [] => .error .valueError
    | Option.none => stuck
  | .py_max, [.list l] => match nums l with
    | some (n :: ns) => .ok (.num (ns.foldl Nm.pyMax n))
    | some [] => .error .valueError
    | Option.none => stuck
  | .py_max, [.num m, .num n] => .ok (.num (m.pyMax n))
  | .py_sum, [.list l] => match nums l with
    | some ns => .ok (.num (pySum ns))
    | Option.none => stuck
  | .np_sum_generator, [.list l] => match nums l with
    | some ns => .ok (.num (pySum ns))
    | Option.none => stuck
  | .np_sum, [.list l] => match nums l, vecs l with
    | some ns, _ => .ok (.num (npSum ns))
    | _, some vs => do
      let y ← sumAll vs
      .ok (.npf y)
    | _, _ => stuck
  | .np_min, [.list l] => do
    let ys ← mapE asFlt l
    let y ← Vec.amin ys
    .ok (.npf y)
  | .np_min, [.vec v] => do
    let y ← Vec.amin v
    .ok (.npf y)
  | .np_max, [.vec v] => do
    let y ← Vec.amax v
    .ok (.npf y)
  | .np_minimum, [.num (.flt _ a), .num (.flt _ b)] => .ok (.npf (XR.min a b))
  | .np_minimum, [.vec a, .vec b] => do
    let c ← Vec.bin XR.min a b
    .ok (.vec c)
  | .np_maximum, [.num (.int _ z), .num (.int _ w)] => .ok (.num (.int true (max z w)))
  | .np_append, [.vec a, .vec b] => .ok (.vec (a ++ b))
  | .np_array_equal, [.vec a, .vec b] => .ok (.bool (arrayEqual a b))
  | .np_linalg_norm, [.vec v] => normFn v 2
  | .np_linalg_norm, [.vec v, .num (.int _ q)] => normFn v q
  | .np_zeros_like, [.vec v] => .ok (.vec (Vec.zeros v.length))
  | .np_dot, [.vec a, .vec b] => do
    let y ← Vec.inner a b
    .ok (.npf y)
  | .np_sqrt, [.num n] => .ok (.npf (XR.sqrt n.val))
  | .np_exp, [.num n] => .ok (.npf (XR.exp n.val))
  | .np_zeros, [.list [.num (.int _ 0), .num (.int _ 0)]] => .ok (.mat (Arr2.zeros 0 0))
  | .np_ones, [.list [.num (.int _ 0), .num (.int _ 0)]] => .ok (.mat (Arr2.zeros 0 0))
  | .np_pad_mode_constant_values,
      [.mat a, .list [.list [.num (.int _ 0), .num (.int _ 1)], .list [.num (.int _ 0), .num (.int _ 1)]], .constant, .num n] =>
    .ok (.mat (pad a n.val))
  | .Clusters, [] => .ok (.list [])
  | _, _ => stuck

/-- Local variables. -/
def Locals := Var → Option PV

/-- No local variables. -/
def Locals.empty : Locals := fun _ => Option.none

/-- Assign a local variable. -/
def Locals.put (L : Locals) (y : Var) (v : PV) : Locals := fun z => if z = y then some v else L z

/-- The value of a local variable; UnboundLocalError does not occur. -/
def Locals.get (L : Locals) (y : Var) : Except PyErr PV :=
  match L y with
  | some v => .ok v
  | Option.none => stuck

/-- What a call does: the function, the positional arguments and the keyword arguments. -/
abbrev Calls := Fn → List PV → List (Var × PV) → Except PyErr PV

/-- Keep the items that satisfy a condition that may raise. -/
def filterE (p : PV → Except PyErr Bool) : List PV → Except PyErr (List PV)
  | [] => .ok []
  | j :: l => do
    let b ← p j
    let l' ← filterE p l
    .ok (bif b then j :: l' else l')

mutual
/-- The value of an expression; `g` reads the attributes of `self`. -/
noncomputable def eval (C : Calls) (g : Attr → Except PyErr PV) (L : Locals) : Expr → Except PyErr PV
  | .name y => L.get y
  | .self a => g a
  | .none => .ok .none
  | .int n => .ok (.int n)
  | .float num den => .ok (.num (.flt false (.fin ((num : ℝ) / (den : ℝ)))))
  | .bool b => .ok (.bool b)
  | .inf => .ok (.num (.flt false .pinf))
  | .constant => .ok .constant
  | .neg e => do
    let v ← eval C g L e
    let n ← asNum v
    .ok (.num n.neg)
  | .not e => do
    let v ← eval C g L e
    let b ← truth v
    .ok (.bool (!b))
  | .and a b => do
    let v ← eval C g L a
    let c ← truth v
    bif c then eval C g L b else .ok (.bool false)
  | .or a b => do
    let v ← eval C g L a
    let c ← truth v
    bif c then .ok (.bool true) else eval C g L b
  | .bin op a b => do
    let v ← eval C g L a
    let w ← eval C g L b
    binFn op v w
  | .cmp op a b => do
    let v ← eval C g L a
    let w ← eval C g L b
    let c ← cmpFn op v w
    .ok (.bool c)
  | .attr e a => do
    let v ← eval C g L e
    attrFn v a
  | .item e idx => do
    let c ← eval C g L e
    let is ← evalArgs C g L idx
    itemFn c is
  | .seq l => do
    let vs ← evalArgs C g L l
    .ok (.list vs)
  | .call f args kws => do
    let vs ← evalArgs C g L args
    let ks ← evalKws C g L kws
    C f vs ks
  | .comp e y it => do
    let v ← eval C g L it
    let l ← iterFn v
    let vs ← mapE (fun j => eval C g (L.put y j) e) l
    .ok (.list vs)
  | .compIf e y it c => do
    let v ← eval C g L it
    let l ← iterFn v
    let l' ← filterE (fun j => do
      let b ← eval C g (L.put y j) c
      truth b) l
    let vs ← mapE (fun j => eval C g (L.put y j) e) l'
    .ok (.list vs)
/-- The values of an argument list, from left to right. -/
noncomputable def evalArgs (C : Calls) (g : Attr → Except PyErr PV) (L : Locals) : Args → Except PyErr (List PV)
  | .nil => .ok []
  | .cons e l => do
    let v ← eval C g L e
    let vs ← evalArgs C g L l
    .ok (v :: vs)
/-- The values of keyword arguments. -/
noncomputable def evalKws (C : Calls) (g : Attr → Except PyErr PV) (L : Locals) : Kws → Except PyErr (List (Var × PV))
  | .nil => .ok []
  | .cons y e l => do
    let v ← eval C g L e
    let vs ← evalKws C g L l
    .ok ((y, v) :: vs)
end

/-- An object: how its attributes are read and assigned, what the calls in expressions do, and what calls as statements do. -/
structure Host (σ : Type) where
  get : Attr → σ → Except PyErr PV
  set : Attr → PV → σ → Except PyErr σ
  fn : σ → Calls
  call : Fn → List PV → Py σ PV
  /-- `self.a.append(v)` -/
  append : Attr → PV → σ → Except PyErr σ
  /-- `self.a[idx] op= v` -/
  augItem : BinOp → Attr → List PV → PV → σ → Except PyErr σ

/-- How a statement ends. -/
inductive Flow where
  | next
  | ret (v : PV)

variable {σ : Type}

/-- Go on with the value of `r`, or raise. -/
def andThen {α β : Type} (r : Except PyErr α) (s : σ) (k : α → Res σ β) : Res σ β :=
  match r with
  | .ok v => k v
  | .error e => .err e s

/-- `for y in l: body` -/
def runLoop (y : Var) (body : Locals → σ → Res σ (Locals × Flow)) : List PV → Locals → σ → Res σ (Locals × Flow)
  | [], L, s => .ok (L, .next) s
  | j :: l, L, s => (body (L.put y j) s).bind fun r s' =>
    match r.2 with
    | .ret v => .ok (r.1, .ret v) s'
    | .next => runLoop y body l r.1 s'

/-- Assign to a target. -/
noncomputable def assignTo (H : Host σ) (t : Target) (v : PV) (L : Locals) (s : σ) : Res σ Locals :=
  match t with
  | .var y => .ok (L.put y v) s
  | .self a => andThen (H.set a v s) s fun s' => .ok L s'
  | .item a idx => andThen (H.get a s) s fun c =>
    andThen (evalArgs (H.fn s) (H.get · s) L idx) s fun is =>
    andThen (setFn c is v) s fun c' =>
    andThen (H.set a c' s) s fun s' => .ok L s'

/-- Assign to several targets, from left to right. -/
noncomputable def assignAll (H : Host σ) : List Target → List PV → Locals → σ → Res σ Locals
  | [], [], L, s => .ok L s
  | t :: ts, v :: vs, L, s => (assignTo H t v L s).bind fun L' s' => assignAll H ts vs L' s'
  | _, _, _, s => .err .valueError s

/-- `t op= v` -/
noncomputable def augTo (H : Host σ) (op : BinOp) (t : Target) (e : Expr) (L : Locals) (s : σ) : Res σ Locals :=
  match t with
  | .var y => andThen (L.get y) s fun c =>
    andThen (eval (H.fn s) (H.get · s) L e) s fun v =>
    andThen (binFn op c v) s fun w => .ok (L.put y w) s
  | .self a => andThen (H.get a s) s fun c =>
    andThen (eval (H.fn s) (H.get · s) L e) s fun v =>
    andThen (binFn op c v) s fun w =>
    andThen (H.set a w s) s fun s' => .ok L s'
  | .item a idx => andThen (evalArgs (H.fn s) (H.get · s) L idx) s fun is =>
    andThen (eval (H.fn s) (H.get · s) L e) s fun v =>
    andThen (H.augItem op a is v s) s fun s' => .ok L s'

mutual
/-- Run a statement. -/
noncomputable def exec (H : Host σ) : Stmt → Locals → σ → Res σ (Locals × Flow)
  | .assign t e, L, s => andThen (eval (H.fn s) (H.get · s) L e) s fun v =>
    (assignTo H t v L s).bind fun L' s' => .ok (L', .next) s'
  | .unpack ts e, L, s => andThen (eval (H.fn s) (H.get · s) L e) s fun v =>
    andThen (iterFn v) s fun l =>
    (assignAll H ts l L s).bind fun L' s' => .ok (L', .next) s'
  | .aug op t e, L, s => (augTo H op t e L s).bind fun L' s' => .ok (L', .next) s'
  | .append a e, L, s => andThen (eval (H.fn s) (H.get · s) L e) s fun v =>
    andThen (H.append a v s) s fun s' => .ok (L, .next) s'
  | .eval (.call f args .nil), L, s => andThen (evalArgs (H.fn s) (H.get · s) L args) s fun vs =>
    (H.call f vs s).bind fun _ s' => .ok (L, .next) s'
  | .eval _, _, s => .err .assertionError s
  | .assert e, L, s => andThen (eval (H.fn s) (H.get · s) L e) s fun v =>
    andThen (truth v) s fun b => bif b then .ok (L, .next) s else .err .assertionError s
  | .ite c t e, L, s => andThen (eval (H.fn s) (H.get · s) L c) s fun v =>
    andThen (truth v) s fun b => bif b then execBlock H t L s else execBlock H e L s
  | .loop y it body, L, s => andThen (eval (H.fn s) (H.get · s) L it) s fun v =>
    andThen (iterFn v) s fun l => runLoop y (execBlock H body) l L s
  | .ret e, L, s => andThen (eval (H.fn s) (H.get · s) L e) s fun v => .ok (L, .ret v) s
  | .raise e, _, s => .err e s
/-- Run a block. -/
noncomputable def execBlock (H : Host σ) : Block → Locals → σ → Res σ (Locals × Flow)
  | .nil, L, s => .ok (L, .next) s
  | .cons st b, L, s => (exec H st L s).bind fun r s' =>
    match r.2 with
    | .next => execBlock H b r.1 s'
    | .ret v => .ok (r.1, .ret v) s'
end

/-- A keyword argument. -/
def kwGet : List (Var × PV) → Var → Option PV
  | [], _ => Option.none
  | e :: l, y => if e.1 = y then some e.2 else kwGet l y

/-- The value of a parameter that has no positional argument. -/
noncomputable def paramVal (C : Calls) (k : Option PV) (d : Option Expr) : Except PyErr PV :=
  match k, d with
  | some v, _ => .ok v
  | Option.none, some e => eval C (fun _ => stuck) Locals.empty e
  | Option.none, Option.none => .error .typeError

/-- The local variables at the start of a call: positional arguments, then keyword arguments, then defaults.  A keyword that is not
the name of a parameter does not occur. -/
noncomputable def bindParams (C : Calls) : List (Var × Option Expr) → List PV → List (Var × PV) → Except PyErr Locals
  | [], [], _ => .ok Locals.empty
  | [], _ :: _, _ => .error .typeError
  | p :: ps, v :: vs, ks => do
    let L ← bindParams C ps vs ks
    .ok (L.put p.1 v)
  | p :: ps, [], ks => do
    let L ← bindParams C ps [] ks
    let v ← paramVal C (kwGet ks p.1) p.2
    .ok (L.put p.1 v)

/-- Call a method. -/
noncomputable def callMethod (H : Host σ) (m : Func) (args : List PV) (ks : List (Var × PV)) : Py σ PV := fun s =>
  andThen (bindParams (H.fn s) m.params args ks) s fun L =>
    (execBlock H m.body L s).bind fun r s' =>
      match r.2 with
      | .ret v => .ok v s'
      | .next => .ok .none s'

/-- A method that does not exist. -/
def noCall : Fn → List PV → Py σ PV := fun _ _ => Py.raise .assertionError

/-- Calls of builtins and numpy functions. -/
noncomputable def calls0 : Calls
  | f, vs, [] => builtin f vs
  | _, _, _ => stuck

/-- The frame of a function that is not a method: there is no `self`. -/
noncomputable def noSelf : Host Unit where
  get _ _ := stuck
  set _ _ _ := stuck
  fn _ := calls0
  call := noCall
  append _ _ _ := stuck
  augItem _ _ _ _ _ := stuck

/-- Call a function of the file. -/
noncomputable def callFunc (f : Func) (vs : List PV) (ks : List (Var × PV)) : Except PyErr PV :=
  match callMethod noSelf f vs ks () with
  | .ok v _ => .ok v
  | .err e _ => .error e

/-- Calls in the methods: the functions of the file, builtins and numpy functions. -/
noncomputable def calls1 : Calls
  | .norm22, vs, ks => callFunc norm22 vs ks
  | .CP_update, vs, ks => callFunc CP_update vs ks
  | .cluster_center_update, vs, ks => callFunc cluster_center_update vs ks
  | f, vs, ks => calls0 f vs ks

/-- An object without methods that are called by others. -/
noncomputable def stdHost (get : Attr → σ → Except PyErr PV) (set : Attr → PV → σ → Except PyErr σ) : Host σ where
  get := get
  set := set
  fn _ := calls1
  call := noCall
  append a v s := do
    let c ← get a s
    let c' ← appendFn c v
    set a c' s
  augItem op a is v s := do
    let c ← get a s
    let w ← itemFn c is
    let u ← binFn op w v
    let c' ← setFn c is u
    set a c' s

end Verif.Old
