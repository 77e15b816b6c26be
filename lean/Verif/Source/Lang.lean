import Verif.Py

/-!
# The fragment of Python the package is written in

Syntax trees for the statements and expressions that occur in src/cvi/modules.  `Verif/Source/Text.lean` holds the trees of the
nine modules and of `_base.py`; `tools/embed.py` writes that file from the source.  Names (variables, attributes, functions,
methods) are the constructors of four enumerations, spelled as in the source.
-/

namespace Verif.Source

/-- Local variables and parameters; `underscore` is `_`. -/
inductive Var where
  | label | internal_label | sample | data | labels | criterion_value | i_label | n_samples_new | n_new | v_new | CP_new | G_new
  | delta_v | diff_x_v | ix | u | subset_indices | x | subset | D_new | d_column_new | jx | dim | values | S_new | underscore
  | n_max | d | epsilon | delta | sigma_new | diff_m | sigma_q | S_row_new | S_col_new | cl | C | D | d_temp | subset_ind | a
  | local_S | b
  deriving DecidableEq

/-- Attributes of `self`. -/
inductive Attr where
  | map | _label_map | _dim | _n_samples | _n | _v | _CP | _G | _n_clusters | criterion_value | _is_setup | _mu | _SEP | _BGSS
  | _WGSS | _D | _R | _S | _inter | _intra | _v_bar | _beta_t | _PS_i | _sigma | _delta_term | _constant | _sil_coefs
  deriving DecidableEq

/-- Functions of numpy (`np_`) and builtins (`py_`), methods of values (`m_`) and attributes of values (`a_`).  The names of
keyword arguments are part of the name: `np_mean_axis` is `np.mean(_, axis=_)`. -/
inductive Fn where
  | m_items | m_any | a_shape | a_ndim | a_size | py_len | py_sum | py_range | py_max | np_zeros | np_zeros_dtype | np_empty
  | np_ones | np_eye | np_array | np_unique | np_vstack | np_dstack | np_inner | np_outer | np_transpose | np_sum | np_sum_axis
  | np_mean_axis | np_min | np_max | np_max_axis | np_maximum | np_sqrt | np_exp | np_divide | np_delete | np_triu
  | np_triu_indices_k | np_linalg_det | np_linalg_inv
  deriving DecidableEq

/-- Methods called as statements: of `self`, of `super()`, and `self._label_map.get_internal_label`. -/
inductive Meth where
  | self_param_inc | self_param_batch | self_evaluate | self_setup | super__init__ | super_setup | super_setup_batch
  | get_internal_label
  deriving DecidableEq

/-- Binary operators. -/
inductive BinOp where
  | add | sub | mul | div | pow | matmul
  deriving DecidableEq

/-- Comparisons. -/
inductive CmpOp where
  | eq | gt | isIn
  deriving DecidableEq

/-- The types that occur as values (`dtype=int`, `np.ones(_, bool)`). -/
inductive Typ where
  | int_ | bool_
  deriving DecidableEq

mutual
/-- Expressions. -/
inductive Expr where
  | name (y : Var)
  | self (a : Attr)
  | none
  | int (n : ℕ)
  /-- a float literal with value `num / den` -/
  | float (num den : ℕ)
  | bool (b : Bool)
  | typ (t : Typ)
  /-- `np.pi` -/
  | pi
  | neg (e : Expr)
  | not (e : Expr)
  | and (a b : Expr)
  | bin (op : BinOp) (a b : Expr)
  | cmp (op : CmpOp) (a b : Expr)
  /-- `e.a` for an attribute of a value -/
  | attr (e : Expr) (a : Fn)
  /-- `e[i, ...]` -/
  | item (e : Expr) (idx : Args)
  /-- `:` in an index -/
  | colon
  /-- `a:b` in an index -/
  | slice (a b : Expr)
  /-- a list or tuple display -/
  | seq (l : Args)
  | call (f : Fn) (args : Args)
  /-- `[e for x in it]` -/
  | comp (e : Expr) (y : Var) (it : Expr)
  /-- `[e for x in it if c]` -/
  | compIf (e : Expr) (y : Var) (it c : Expr)
/-- Argument lists. -/
inductive Args where
  | nil
  | cons (e : Expr) (l : Args)
end

mutual
/-- Statements. -/
inductive Stmt where
  | assign (y : Var) (e : Expr)
  /-- `self.a = e` -/
  | setSelf (a : Attr) (e : Expr)
  /-- `x[idx] = e` -/
  | setItem (y : Var) (idx : Args) (e : Expr)
  /-- `self.a[idx] = e` -/
  | setSelfItem (a : Attr) (idx : Args) (e : Expr)
  /-- `self.a, self.b = e` -/
  | unpackSelf (a b : Attr) (e : Expr)
  /-- `self.a += e` and the like -/
  | augSelf (op : BinOp) (a : Attr) (e : Expr)
  /-- `self.a.append(e)` -/
  | append (a : Attr) (e : Expr)
  /-- `self.a = LabelMap()` -/
  | newMap (a : Attr)
  /-- `self.a = dict()` -/
  | newDict (a : Attr)
  | del (a : Attr)
  | doCall (m : Meth) (args : Args)
  | bindCall (y : Var) (m : Meth) (args : Args)
  | ite (c : Expr) (t e : Block)
  | loop (y : Var) (it : Expr) (body : Block)
  | cont
  | ret (e : Expr)
  | raise (e : PyErr)
/-- Sequences of statements. -/
inductive Block where
  | nil
  | cons (s : Stmt) (b : Block)
end

/-- `[py| s; ...; t ]` is a block of statements. -/
syntax "[py| " sepBy(term, ";") " ]" : term
macro_rules
  | `([py| ]) => `(Block.nil)
  | `([py| $s]) => `(Block.cons $s Block.nil)
  | `([py| $s; $ss;*]) => `(Block.cons $s [py| $ss;* ])

/-- A method: its parameters after `self`, and its body. -/
structure Method where
  params : List Var
  body : Block

end Verif.Source
