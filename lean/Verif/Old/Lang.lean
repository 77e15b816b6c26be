import Verif.Py

/-!
# The fragment of Python the older interface is written in

Syntax trees for the statements and expressions that occur in src/cvi/compat/v0.py.  `Verif/Old/Text.lean` holds the trees;
`tools/embed_v0.py` writes that file from the source.  Names are the constructors of three enumerations, spelled as in the source.
-/

set_option linter.constructorNameAsVariable false

namespace Verif.Old

/-- Local variables and parameters. -/
inductive Var where
  | radial | box | x | i | new_center | cc_x | norm_ord | min_d | y | d_y | avg_d | return_val | v_old | n_old | g_old | cp_old
  | n_new | v_new | p | q | delta_v | z | g_new | cp_new | c_i | j | b_ | c_j | b | Bt | cc | t | J | nj | nj_old | cpj_old | vj
  | vi | gj_old | sij_old | zi | zj | local_return | vi_new | vi_old | A | ij | B | clen
  deriving DecidableEq

/-- Attributes. -/
inductive Attr where
  | radial | box | len | center | bounding_box | points | indicies | dim | min_v | min_v_i | N | WGSS | WGSS_i | output
  | cluster_centers | cluster_sizes | g | mean_cluster_center | max_cluster_size | PS_i | clusters | BGSS | BGSS_i | data_center
  | t | d | D | CP | sc | b | sij | R | S | M | p | q
  deriving DecidableEq

/-- Functions of numpy (`np_`), builtins (`py_`), functions of the file, and methods called on `self` (`self_`) and `super()`.
The names of the keyword arguments of a numpy function are part of the name.  `np_sum_generator` is `np.sum` of a generator. -/
inductive Fn where
  | py_len | np_max | np_min | np_append | np_minimum | np_linalg_norm | np_array_equal | np_zeros_like | np_dot | np_sqrt
  | CP_update | py_range | norm22 | py_min | cluster_center_update | np_maximum | np_sum | np_sum_generator | np_exp | Clusters
  | np_ones | np_pad_mode_constant_values | super_init | np_zeros | py_max | self_s_ij_new | self_cp_update | self_sci | py_sum
  | py_abs
  deriving DecidableEq

/-- Binary operators. -/
inductive BinOp where
  | add | sub | mul | div | pow
  deriving DecidableEq

/-- Comparisons. -/
inductive CmpOp where
  | eq | ne | gt | ge | le | is_ | isNot
  deriving DecidableEq

mutual
/-- Expressions. -/
inductive Expr where
  | name (y : Var)
  | self (a : Attr)
  | none
  | int (n : ℕ)
  /-- a float literal with value `num / den` -/
  | float (num den : ℕ)
  | bool (b : Bool)
  /-- `np.inf` -/
  | inf
  /-- `'constant'` -/
  | constant
  | neg (e : Expr)
  | not (e : Expr)
  | and (a b : Expr)
  | or (a b : Expr)
  | bin (op : BinOp) (a b : Expr)
  | cmp (op : CmpOp) (a b : Expr)
  /-- `e.a` for an attribute of a value -/
  | attr (e : Expr) (a : Attr)
  /-- `e[i, ...]` -/
  | item (e : Expr) (idx : Args)
  /-- a list or tuple display -/
  | seq (l : Args)
  | call (f : Fn) (args : Args) (kws : Kws)
  /-- `[e for y in it]`, `(e for y in it)` -/
  | comp (e : Expr) (y : Var) (it : Expr)
  /-- `[e for y in it if c]` -/
  | compIf (e : Expr) (y : Var) (it c : Expr)
/-- Argument lists. -/
inductive Args where
  | nil
  | cons (e : Expr) (l : Args)
/-- Keyword arguments. -/
inductive Kws where
  | nil
  | cons (y : Var) (e : Expr) (l : Kws)
end

/-- What can be assigned to. -/
inductive Target where
  | var (y : Var)
  /-- `self.a` -/
  | self (a : Attr)
  /-- `self.a[idx]` -/
  | item (a : Attr) (idx : Args)

mutual
/-- Statements. -/
inductive Stmt where
  | assign (t : Target) (e : Expr)
  /-- `(t, ...) = e` -/
  | unpack (ts : List Target) (e : Expr)
  /-- `t += e` and the like -/
  | aug (op : BinOp) (t : Target) (e : Expr)
  /-- `self.a.append(e)` -/
  | append (a : Attr) (e : Expr)
  /-- a call as a statement -/
  | eval (e : Expr)
  | assert (e : Expr)
  | ite (c : Expr) (t e : Block)
  | loop (y : Var) (it : Expr) (body : Block)
  | ret (e : Expr)
  | raise (e : PyErr)
/-- Sequences of statements. -/
inductive Block where
  | nil
  | cons (s : Stmt) (b : Block)
end

/-- `[old| s; ...; t ]` is a block of statements. -/
syntax "[old| " sepBy(term, ";") " ]" : term
macro_rules
  | `([old| ]) => `(Block.nil)
  | `([old| $s]) => `(Block.cons $s Block.nil)
  | `([old| $s; $ss;*]) => `(Block.cons $s [old| $ss;* ])

/-- A function: its parameters (after `self`) with their defaults, and its body. -/
structure Func where
  params : List (Var × Option Expr)
  body : Block

end Verif.Old
