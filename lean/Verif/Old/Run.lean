import Verif.Old.Interp
import Verif.Compat.Basic

/-!
# Running the text of the older interface

Equations, one per construct, collected in the simp set `oldrun`.
-/

set_option linter.unusedSectionVars false
set_option linter.constructorNameAsVariable false

namespace Verif.Old
open V0

attribute [oldrun] Nat.cast_zero Nat.cast_one Nat.cast_ofNat Bool.cond_decide Bool.cond_true Bool.cond_false
  Bool.or_false Bool.false_or Bool.or_true Bool.true_or Bool.not_true Bool.not_false ite_true ite_false if_true if_false
  ne_eq not_false_eq_true reduceCtorEq except_bind_ok except_bind_error except_pure Res.bind_ok Res.bind_err
  Py.pure_apply Py.bind_apply Py.get_apply Py.modify_apply Py.raise_apply Py.ite_app
  eval evalArgs evalKws exec execBlock assignTo assignAll augTo bindParams kwGet paramVal Bool.cond_not

section Flow
variable {σ α β γ : Type}

@[oldrun] theorem andThen_ok (a : α) (s : σ) (k : α → Res σ β) : andThen (.ok a) s k = k a := rfl
@[oldrun] theorem andThen_error (e : PyErr) (s : σ) (k : α → Res σ β) : andThen (.error e) s k = .err e s := rfl
@[oldrun] theorem andThen_bind (x : Except PyErr α) (f : α → Except PyErr γ) (s : σ) (k : γ → Res σ β) :
    andThen (x >>= f) s k = andThen x s fun a => andThen (f a) s k := by
  cases x <;> rfl
@[oldrun] theorem andThen_andThen (x : Except PyErr α) (s : σ) (k : α → Res σ β) (f : β → σ → Res σ γ) :
    (andThen x s k).bind f = andThen x s fun a => (k a).bind f := by
  cases x <;> rfl
@[oldrun] theorem lift_eq (x : Except PyErr α) (s : σ) : Py.lift x s = andThen x s fun a => .ok a s := by
  cases x <;> rfl
@[oldrun] theorem bind_bind (r : Res σ α) (f : α → σ → Res σ β) (g : β → σ → Res σ γ) :
    (r.bind f).bind g = r.bind fun a s => (f a s).bind g := by
  cases r <;> rfl
@[oldrun] theorem except_assoc (x : Except PyErr α) (f : α → Except PyErr β) (g : β → Except PyErr γ) :
    (x >>= f) >>= g = x >>= fun a => f a >>= g := by
  cases x <;> rfl
/-- Only the first computation is run; what follows it waits. -/
theorem andThen_head {x x' : Except PyErr α} {s s' : σ} {k : α → Res σ β} (h : x = x') (hs : s = s') :
    andThen x s k = andThen x' s' k := by rw [h, hs]
theorem bind_head {x x' : Res σ α} {k : α → σ → Res σ β} (h : x = x') : x.bind k = x'.bind k := by rw [h]
theorem ebind_head {x x' : Except PyErr α} {k : α → Except PyErr β} (h : x = x') : (x >>= k) = (x' >>= k) := by rw [h]
theorem cond_head {b b' : Bool} {x y : Res σ α} (h : b = b') : cond b x y = cond b' x y := by rw [h]
end Flow

section Locals
@[oldrun] theorem get_put (L : Locals) (y z : Var) (v : PV) : (L.put y v).get z = if z = y then .ok v else L.get z := by
  unfold Locals.get Locals.put; split_ifs <;> rfl
theorem get_ne (L : Locals) {y z : Var} (v : PV) (h : z ≠ y) : (L.put y v).get z = L.get z := by rw [get_put, if_neg h]
end Locals

namespace Nm
@[oldrun] theorem val_int (b : Bool) (z : ℤ) : (int b z).val = .fin (z : ℝ) := rfl
@[oldrun] theorem val_flt (b : Bool) (y : XR) : (flt b y).val = y := rfl
@[oldrun] theorem np_int (b : Bool) (z : ℤ) : (int b z).np = b := rfl
@[oldrun] theorem np_flt (b : Bool) (y : XR) : (flt b y).np = b := rfl
@[oldrun] theorem add_int (b c : Bool) (z w : ℤ) : (int b z).add (int c w) = int (b || c) (z + w) := rfl
@[oldrun] theorem sub_int (b c : Bool) (z w : ℤ) : (int b z).sub (int c w) = int (b || c) (z - w) := rfl
@[oldrun] theorem mul_int (b c : Bool) (z w : ℤ) : (int b z).mul (int c w) = int (b || c) (z * w) := rfl
@[oldrun] theorem add_flt (m : Nm) (c : Bool) (y : XR) : m.add (flt c y) = flt (m.np || c) (m.val + y) := by cases m <;> rfl
@[oldrun] theorem flt_add (n : Nm) (c : Bool) (y : XR) : (flt c y).add n = flt (c || n.np) (y + n.val) := by cases n <;> rfl
@[oldrun] theorem sub_flt (m : Nm) (c : Bool) (y : XR) : m.sub (flt c y) = flt (m.np || c) (m.val - y) := by cases m <;> rfl
@[oldrun] theorem mul_flt (m : Nm) (c : Bool) (y : XR) : m.mul (flt c y) = flt (m.np || c) (m.val * y) := by cases m <;> rfl
@[oldrun] theorem neg_int (b : Bool) (z : ℤ) : (int b z).neg = int b (-z) := rfl
@[oldrun] theorem neg_flt (b : Bool) (y : XR) : (flt b y).neg = flt b (-y) := rfl
@[oldrun] theorem pow_flt (b c : Bool) (y : XR) (n : ℕ) : (flt b y).pow (int c n) = .ok (flt (b || c) (y.powNat n)) := by
  simp [pow]
@[oldrun] theorem pow_flt_two (b c : Bool) (y : XR) : (flt b y).pow (int c 2) = .ok (flt (b || c) (y.powNat 2)) := by
  simp [pow]
@[oldrun] theorem pow_flt_one (b c : Bool) (y : XR) : (flt b y).pow (int c 1) = .ok (flt (b || c) (y.powNat 1)) := by
  simp [pow]
@[oldrun] theorem lt_int (b c : Bool) (z w : ℤ) : (int b z).lt (int c w) = decide (z < w) := by
  simp [lt]
@[oldrun] theorem eq_int (b c : Bool) (z w : ℤ) : (int b z).eq (int c w) = decide (z = w) := by
  simp [eq]

theorem val_add (m n : Nm) : (m.add n).val = m.val + n.val := by
  cases m <;> cases n <;> simp [add, val, XR.fin_add]
theorem val_sub (m n : Nm) : (m.sub n).val = m.val - n.val := by
  cases m <;> cases n <;> simp [sub, val, XR.fin_sub]
theorem val_lt (m n : Nm) : m.lt n = true ↔ XR.lt m.val n.val := by
  cases m <;> cases n
  · simp [lt, val, XR.lt]
  all_goals exact @decide_eq_true_iff _ (Classical.propDecidable _)
theorem val_pyMin (m n : Nm) : (m.pyMin n).val = XR.pyMin m.val n.val := by
  unfold pyMin XR.pyMin
  by_cases h : XR.lt n.val m.val
  · rw [(val_lt n m).mpr h, if_pos h]; rfl
  · rw [Bool.eq_false_iff.mpr (mt (val_lt n m).mp h), if_neg h]; rfl
end Nm

section Ops
@[oldrun] theorem b_add (m n : Nm) : binFn .add (.num m) (.num n) = .ok (.num (m.add n)) := rfl
@[oldrun] theorem b_addv (a b : Vec) : binFn .add (.vec a) (.vec b) = Vec.add a b >>= fun c => .ok (.vec c) := rfl
@[oldrun] theorem b_addnv (m : Nm) (b : Vec) : binFn .add (.num m) (.vec b) = .ok (.vec (b.map fun y => m.val + y)) := rfl
@[oldrun] theorem b_sub (m n : Nm) : binFn .sub (.num m) (.num n) = .ok (.num (m.sub n)) := rfl
@[oldrun] theorem b_subv (a b : Vec) : binFn .sub (.vec a) (.vec b) = Vec.sub a b >>= fun c => .ok (.vec c) := rfl
@[oldrun] theorem b_subvn (a : Vec) (n : Nm) : binFn .sub (.vec a) (.num n) = .ok (.vec (a.map fun y => y - n.val)) := rfl
@[oldrun] theorem b_subnv (m : Nm) (b : Vec) : binFn .sub (.num m) (.vec b) = .ok (.vec (b.map fun y => m.val - y)) := rfl
@[oldrun] theorem b_mul (m n : Nm) : binFn .mul (.num m) (.num n) = .ok (.num (m.mul n)) := rfl
@[oldrun] theorem b_mulnv (m : Nm) (b : Vec) : binFn .mul (.num m) (.vec b) = .ok (.vec (Vec.smul m.val b)) := rfl
@[oldrun] theorem b_mulvn (m : Nm) (b : Vec) : binFn .mul (.vec b) (.num m) = .ok (.vec (Vec.smul m.val b)) := rfl
@[oldrun] theorem b_mulmn (a : Arr2) (n : Nm) : binFn .mul (.mat a) (.num n) = .ok (.mat ⟨a.cols, a.rows.map (Vec.smul n.val)⟩) := rfl
@[oldrun] theorem b_div (m n : Nm) : binFn .div (.num m) (.num n) = m.div n >>= fun c => .ok (.num c) := rfl
@[oldrun] theorem b_divvn (a : Vec) (n : Nm) : binFn .div (.vec a) (.num n) = .ok (.vec (vdiv a n.val)) := rfl
@[oldrun] theorem b_pow (m n : Nm) : binFn .pow (.num m) (.num n) = m.pow n >>= fun c => .ok (.num c) := rfl
@[oldrun] theorem k_eq (m n : Nm) : cmpFn .eq (.num m) (.num n) = .ok (m.eq n) := rfl
@[oldrun] theorem k_ne (m n : Nm) : cmpFn .ne (.num m) (.num n) = .ok (!m.eq n) := rfl
@[oldrun] theorem k_gt (m n : Nm) : cmpFn .gt (.num m) (.num n) = .ok (n.lt m) := rfl
@[oldrun] theorem k_ge (m n : Nm) : cmpFn .ge (.num m) (.num n) = .ok (n.lt m || m.eq n) := rfl
@[oldrun] theorem k_le (m n : Nm) : cmpFn .le (.num m) (.num n) = .ok (m.lt n || m.eq n) := rfl
@[oldrun] theorem k_is (v : PV) : cmpFn .is_ v .none = .ok (isNone v) := by cases v <;> rfl
@[oldrun] theorem k_isNot (v : PV) : cmpFn .isNot v .none = .ok (!isNone v) := by cases v <;> rfl
@[oldrun] theorem isNone_none : isNone .none = true := rfl
@[oldrun] theorem isNone_vec (v : Vec) : isNone (.vec v) = false := rfl
@[oldrun] theorem isNone_num (v : Nm) : isNone (.num v) = false := rfl
@[oldrun] theorem truth_bool (b : Bool) : truth (.bool b) = .ok b := rfl
@[oldrun] theorem truth_list (l : List PV) : truth (.list l) = .ok (!l.isEmpty) := rfl
@[oldrun] theorem i_list (l : List PV) (b : Bool) (z : ℤ) : itemFn (.list l) [.num (.int b z)] = getAt l z := rfl
@[oldrun] theorem i_mat (a : Arr2) (b c : Bool) (z w : ℤ) : itemFn (.mat a) [.num (.int b z), .num (.int c w)] =
    getAt2 a z w >>= fun y => .ok (.npf y) := rfl
@[oldrun] theorem s_list (l : List PV) (b : Bool) (z : ℤ) (v : PV) : setFn (.list l) [.num (.int b z)] v =
    setAt l z v >>= fun l' => .ok (.list l') := rfl
@[oldrun] theorem s_mat (a : Arr2) (b c : Bool) (z w : ℤ) (n : Nm) : setFn (.mat a) [.num (.int b z), .num (.int c w)] (.num n) =
    setAt2 a z w n.val >>= fun l' => .ok (.mat l') := rfl
@[oldrun] theorem a_list (l : List PV) (v : PV) : appendFn (.list l) v = .ok (.list (l ++ [v])) := rfl
@[oldrun] theorem it_list (l : List PV) : iterFn (.list l) = .ok l := rfl
@[oldrun] theorem asNum_num (n : Nm) : asNum (.num n) = .ok n := rfl
@[oldrun] theorem attr_eq (v : PV) (a : Attr) : attrFn v a = .error .attributeError := rfl
end Ops

section Builtins
@[oldrun] theorem calls0_eq (f : Fn) (vs : List PV) : calls0 f vs [] = builtin f vs := by cases f <;> rfl
@[oldrun] theorem f_len (l : List PV) : builtin .py_len [.list l] = .ok (.int l.length) := rfl
@[oldrun] theorem f_lenv (l : Vec) : builtin .py_len [.vec l] = .ok (.int l.length) := rfl
@[oldrun] theorem f_range (b : Bool) (n : ℕ) :
    builtin .py_range [.num (.int b n)] = .ok (.list ((List.range n).map fun (j : ℕ) => .int j)) := by
  simp [builtin, asNat]
@[oldrun] theorem f_min2 (m n : Nm) : builtin .py_min [.list [.num m, .num n]] = .ok (.num (m.pyMin n)) := rfl
@[oldrun] theorem f_max2 (m n : Nm) : builtin .py_max [.num m, .num n] = .ok (.num (m.pyMax n)) := rfl
@[oldrun] theorem f_minimum (b c : Bool) (y z : XR) :
    builtin .np_minimum [.num (.flt b y), .num (.flt c z)] = .ok (.npf (XR.min y z)) := rfl
@[oldrun] theorem f_maximum (b c : Bool) (y z : ℤ) :
    builtin .np_maximum [.num (.int b y), .num (.int c z)] = .ok (.num (.int true (max y z))) := rfl
@[oldrun] theorem f_norm (v : Vec) : builtin .np_linalg_norm [.vec v] = .ok (.npf (V0.norm 2 v)) := by
  simp [builtin, normFn]
@[oldrun] theorem f_norm2 (b : Bool) (v : Vec) : builtin .np_linalg_norm [.vec v, .num (.int b 2)] = .ok (.npf (V0.norm 2 v)) := by
  simp [builtin, normFn]
@[oldrun] theorem f_norm1 (b : Bool) (v : Vec) : builtin .np_linalg_norm [.vec v, .num (.int b 1)] = .ok (.npf (V0.norm 1 v)) := by
  simp [builtin, normFn]
@[oldrun] theorem f_zl (v : Vec) : builtin .np_zeros_like [.vec v] = .ok (.vec (Vec.zeros v.length)) := rfl
@[oldrun] theorem f_dot (a b : Vec) : builtin .np_dot [.vec a, .vec b] = Vec.inner a b >>= fun y => .ok (.npf y) := rfl
@[oldrun] theorem f_sqrt (n : Nm) : builtin .np_sqrt [.num n] = .ok (.npf (XR.sqrt n.val)) := rfl
@[oldrun] theorem f_exp (n : Nm) : builtin .np_exp [.num n] = .ok (.npf (XR.exp n.val)) := rfl
@[oldrun] theorem f_zeros (b c : Bool) : builtin .np_zeros [.list [.num (.int b 0), .num (.int c 0)]] = .ok (.mat (Arr2.zeros 0 0)) := rfl
@[oldrun] theorem f_ones (b c : Bool) : builtin .np_ones [.list [.num (.int b 0), .num (.int c 0)]] = .ok (.mat (Arr2.zeros 0 0)) := rfl
@[oldrun] theorem f_clusters : builtin .Clusters [] = .ok (.list []) := rfl
@[oldrun] theorem f_pad (a : Arr2) (n : Nm) : builtin .np_pad_mode_constant_values
    [.mat a, .list [.list [.int 0, .int 1], .list [.int 0, .int 1]], .constant, .num n] = .ok (.mat (pad a n.val)) := rfl
end Builtins

theorem nums_map (l : List Nm) : nums (l.map .num) = some l := by
  induction l with
  | nil => rfl
  | cons a l ih => simp [nums, ih]
theorem vecs_map (l : List Vec) : vecs (l.map .vec) = some l := by
  induction l with
  | nil => rfl
  | cons a l ih => simp [vecs, ih]

section Calls1
variable (vs : List PV) (ks : List (Var × PV))
@[oldrun] theorem g_len : calls1 .py_len vs ks = calls0 .py_len vs ks := rfl
@[oldrun] theorem g_range : calls1 .py_range vs ks = calls0 .py_range vs ks := rfl
@[oldrun] theorem g_min : calls1 .py_min vs ks = calls0 .py_min vs ks := rfl
@[oldrun] theorem g_max : calls1 .py_max vs ks = calls0 .py_max vs ks := rfl
@[oldrun] theorem g_sum : calls1 .py_sum vs ks = calls0 .py_sum vs ks := rfl
@[oldrun] theorem g_minimum : calls1 .np_minimum vs ks = calls0 .np_minimum vs ks := rfl
@[oldrun] theorem g_maximum : calls1 .np_maximum vs ks = calls0 .np_maximum vs ks := rfl
@[oldrun] theorem g_npmin : calls1 .np_min vs ks = calls0 .np_min vs ks := rfl
@[oldrun] theorem g_npmax : calls1 .np_max vs ks = calls0 .np_max vs ks := rfl
@[oldrun] theorem g_npsum : calls1 .np_sum vs ks = calls0 .np_sum vs ks := rfl
@[oldrun] theorem g_gen : calls1 .np_sum_generator vs ks = calls0 .np_sum_generator vs ks := rfl
@[oldrun] theorem g_exp : calls1 .np_exp vs ks = calls0 .np_exp vs ks := rfl
@[oldrun] theorem g_norm : calls1 .np_linalg_norm vs ks = calls0 .np_linalg_norm vs ks := rfl
@[oldrun] theorem g_dot : calls1 .np_dot vs ks = calls0 .np_dot vs ks := rfl
@[oldrun] theorem g_zeros : calls1 .np_zeros vs ks = calls0 .np_zeros vs ks := rfl
@[oldrun] theorem g_ones : calls1 .np_ones vs ks = calls0 .np_ones vs ks := rfl
@[oldrun] theorem g_pad : calls1 .np_pad_mode_constant_values vs ks = calls0 .np_pad_mode_constant_values vs ks := rfl
@[oldrun] theorem g_clusters : calls1 .Clusters vs ks = calls0 .Clusters vs ks := rfl
end Calls1

section NoSelf
@[oldrun] theorem noSelf_get (a : Attr) (s : Unit) : noSelf.get a s = stuck := rfl
@[oldrun] theorem noSelf_fn (s : Unit) : noSelf.fn s = calls0 := rfl
end NoSelf

section Std
variable {σ : Type} (get : Attr → σ → Except PyErr PV) (set : Attr → PV → σ → Except PyErr σ)
@[oldrun] theorem std_get : (stdHost get set).get = get := rfl
@[oldrun] theorem std_set : (stdHost get set).set = set := rfl
@[oldrun] theorem std_fn (s : σ) : (stdHost get set).fn s = calls1 := rfl
@[oldrun] theorem std_append (a : Attr) (v : PV) (s : σ) : (stdHost get set).append a v s =
    get a s >>= fun c => appendFn c v >>= fun c' => set a c' s := rfl
end Std

end Verif.Old
