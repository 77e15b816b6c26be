import Verif.Source.Interp

/-!
# Running the trees

Equations, one per construct, collected in the simp set `pyrun`.
-/

set_option linter.unusedSectionVars false
set_option linter.constructorNameAsVariable false

namespace Verif.Source

attribute [pyrun] Nat.cast_zero Nat.cast_one Nat.cast_ofNat Nat.cast_eq_zero Bool.cond_decide Bool.cond_true Bool.cond_false
  Bool.or_false Bool.false_or Bool.or_true Bool.true_or Bool.not_true Bool.not_false ite_true ite_false if_true if_false
  ne_eq not_false_eq_true reduceCtorEq except_bind_ok except_bind_error except_pure Res.bind_ok Res.bind_err
  Py.pure_apply Py.bind_apply Py.get_apply Py.modify_apply Py.raise_apply Py.ite_app mapE

section Flow
variable {σ α β γ : Type}

@[pyrun] theorem andThen_ok (a : α) (s : σ) (k : α → Res σ β) : andThen (.ok a) s k = k a := rfl
@[pyrun] theorem andThen_error (e : PyErr) (s : σ) (k : α → Res σ β) : andThen (.error e) s k = .err e s := rfl
@[pyrun] theorem andThen_bind (x : Except PyErr α) (f : α → Except PyErr γ) (s : σ) (k : γ → Res σ β) :
    andThen (x >>= f) s k = andThen x s fun a => andThen (f a) s k := by
  cases x <;> rfl
@[pyrun] theorem andThen_andThen (x : Except PyErr α) (s : σ) (k : α → Res σ β) (f : β → σ → Res σ γ) :
    (andThen x s k).bind f = andThen x s fun a => (k a).bind f := by
  cases x <;> rfl
@[pyrun] theorem lift_eq (x : Except PyErr α) (s : σ) : Py.lift x s = andThen x s fun a => .ok a s := by
  cases x <;> rfl
@[pyrun] theorem mapState_ok {τ : Type} (f : σ → τ) (a : α) (s : σ) : (Res.ok a s).mapState f = .ok a (f s) := rfl
@[pyrun] theorem mapState_err {τ : Type} (f : σ → τ) (e : PyErr) (s : σ) :
    (Res.err e s : Res σ α).mapState f = .err e (f s) := rfl
@[pyrun] theorem mapState_andThen {τ : Type} (f : σ → τ) (x : Except PyErr α) (s : σ) (k : α → Res σ β) :
    (andThen x s k).mapState f = andThen x (f s) fun a => (k a).mapState f := by
  cases x <;> rfl
@[pyrun] theorem bind_bind (r : Res σ α) (f : α → σ → Res σ β) (g : β → σ → Res σ γ) :
    (r.bind f).bind g = r.bind fun a s => (f a s).bind g := by
  cases r <;> rfl
@[pyrun] theorem except_assoc (x : Except PyErr α) (f : α → Except PyErr β) (g : β → Except PyErr γ) :
    (x >>= f) >>= g = x >>= fun a => f a >>= g := by
  cases x <;> rfl
@[pyrun] theorem andThen_ite (c : Prop) [Decidable c] (x y : Except PyErr α) (s : σ) (k : α → Res σ β) :
    andThen (if c then x else y) s k = if c then andThen x s k else andThen y s k := by
  split <;> rfl
theorem bind_ite (c : Prop) [Decidable c] (x y : Res σ α) (k : α → σ → Res σ β) :
    (if c then x else y).bind k = if c then x.bind k else y.bind k := by
  split <;> rfl
/-- Only the first computation is run; what follows it waits. -/
theorem andThen_head {x x' : Except PyErr α} {s s' : σ} {k : α → Res σ β} (h : x = x') (hs : s = s') :
    andThen x s k = andThen x' s' k := by rw [h, hs]
theorem bind_head {x x' : Res σ α} {k : α → σ → Res σ β} (h : x = x') : x.bind k = x'.bind k := by rw [h]
theorem ebind_head {x x' : Except PyErr α} {k : α → Except PyErr β} (h : x = x') : (x >>= k) = (x' >>= k) := by rw [h]
theorem mapState_head {τ : Type} {x x' : Res σ α} {f : σ → τ} (h : x = x') : x.mapState f = x'.mapState f := by rw [h]
theorem cond_head {b b' : Bool} {x y : Res σ α} (h : b = b') : cond b x y = cond b' x y := by rw [h]
/-- The same computation on both sides. -/
theorem andThen_same {x : Except PyErr α} {s : σ} {k k' : α → Res σ β} (h : ∀ a, x = .ok a → k a = k' a) :
    andThen x s k = andThen x s k' := by
  cases x with
  | ok a => exact h a rfl
  | error e => rfl
/-- A check that cannot fail. -/
theorem andThen_of_ok {x : Except PyErr α} {a : α} (h : x = .ok a) (s : σ) (k : α → Res σ β) :
    andThen x s k = k a := by rw [h]; rfl
end Flow

variable {F : Type} [Arith F]

section Vals
@[pyrun] theorem asNat_cast (b : Bool) (n : ℕ) : asNat (.int b (n : ℤ) : Val F) = .ok n := rfl
@[pyrun] theorem asNat_zero (b : Bool) : asNat (.int b 0 : Val F) = .ok 0 := rfl
@[pyrun] theorem asNat_one (b : Bool) : asNat (.int b 1 : Val F) = .ok 1 := rfl
@[pyrun] theorem asNat_succ (b : Bool) (n : ℕ) : asNat (.int b ((n : ℤ) + 1) : Val F) = .ok (n + 1) := rfl
@[pyrun] theorem asNat_zero_succ (b : Bool) : asNat (.int b (0 + 1) : Val F) = .ok (0 + 1) := rfl
@[pyrun] theorem asFlt_flt (a : F) : asFlt (.flt a) = .ok a := rfl
@[pyrun] theorem toFlt_flt (a : F) : toFlt (.flt a) = .ok a := rfl
@[pyrun] theorem toFlt_int (b : Bool) (z : ℤ) : toFlt (.int b z) = .ok (ofZ z : F) := rfl
@[pyrun] theorem ofZ_cast (n : ℕ) : (ofZ (n : ℤ) : F) = Arith.ofNat n := rfl
@[pyrun] theorem ofZ_succ (n : ℕ) : (ofZ ((n : ℤ) + 1) : F) = Arith.ofNat (n + 1) := rfl
@[pyrun] theorem ofZ_one_add (n : ℕ) : (ofZ (1 + (n : ℤ)) : F) = Arith.ofNat (1 + n) := rfl
@[pyrun] theorem ofZ_add (n m : ℕ) : (ofZ ((n : ℤ) + m) : F) = Arith.ofNat (n + m) := rfl
@[pyrun] theorem ofZ_succ_add (n m : ℕ) : (ofZ ((n : ℤ) + 1 + m) : F) = Arith.ofNat (n + 1 + m) := rfl
@[pyrun] theorem ofZ_zero : (ofZ 0 : F) = Arith.ofNat 0 := rfl
@[pyrun] theorem ofZ_one : (ofZ 1 : F) = Arith.ofNat 1 := rfl
@[pyrun] theorem ofZ_two : (ofZ 2 : F) = Arith.ofNat 2 := rfl
@[pyrun] theorem iterFn_ns (q : Seq ℕ) : iterFn (.ns q : Val F) = .ok q.items := rfl
@[pyrun] theorem truth_bool (b : Bool) : truth (.bool b : Val F) = .ok b := rfl
@[pyrun] theorem negFn_flt (a : F) : negFn (.flt a) = .ok (.flt (-a)) := rfl
@[pyrun] theorem negFn_pyf (a : F) : negFn (.pyf a) = .ok (.pyf (-a)) := rfl
@[pyrun] theorem sliceFn_int (b c : Bool) (y z : ℤ) : sliceFn (.int b y : Val F) (.int c z) = .ok (.slice y z) := rfl
@[pyrun] theorem divInt_succ (np : Bool) (a : ℤ) (n : ℕ) :
    (divInt np a ((n : ℤ) + 1) : Except PyErr F) = .ok (Arith.intDiv a ((n : ℤ) + 1)) := by
  simp only [divInt]; rw [if_neg (by omega)]

@[pyrun] theorem mkSeq_nil : mkSeq ([] : List (Val F)) = .ok (.fs ⟨false, []⟩) := rfl
@[pyrun] theorem mkSeq_flt (a : F) (l : List (Val F)) :
    mkSeq (.flt a :: l) = mapE asFlt l >>= fun ys => .ok (.fs ⟨false, a :: ys⟩) := rfl
@[pyrun] theorem mkSeq_int (b : Bool) (z : ℤ) (l : List (Val F)) :
    mkSeq (.int b z :: l) = asNat (.int b z : Val F) >>= fun y => mapE asNat l >>= fun ys => .ok (.ns ⟨false, y :: ys⟩) := rfl
@[pyrun] theorem mkSeq_vpair (a : Arr2 F) (v : Vec F) : mkSeq [.mat a, .fs ⟨true, v⟩] = .ok (.vpair a v) := rfl
@[pyrun] theorem mkSeq_dpair (sh) (p : List (Arr2 F)) (b : Arr2 F) : mkSeq [.cube sh p, .mat b] = .ok (.dpair sh p b) := rfl
theorem mapE_flt {f : ℕ → Except PyErr (Val F)} {g : ℕ → Except PyErr F}
    (h : ∀ j, f j = g j >>= fun y => .ok (.flt y)) (l : List ℕ) :
    mapE f l = mapE g l >>= fun ys => .ok (ys.map .flt) := by
  induction l with
  | nil => rfl
  | cons j l ih =>
    simp only [mapE, h, ih]
    cases g j with
    | error e => rfl
    | ok y => cases mapE g l <;> rfl
theorem mapE_asFlt (l : List F) : mapE asFlt (l.map .flt) = .ok l := by
  induction l with
  | nil => rfl
  | cons a l ih => simp only [List.map, mapE, ih]; rfl
theorem mkSeq_flts (l : List F) : mkSeq (l.map .flt) = .ok (.fs ⟨false, l⟩) := by
  cases l with
  | nil => rfl
  | cons a l => simp only [List.map, mkSeq, mapE_asFlt]; rfl
/-- A comprehension of floats. -/
theorem same_comp {σ β : Type} {f : ℕ → Except PyErr (Val F)} {g : ℕ → Except PyErr F} {l : List ℕ} {s : σ}
    {k : Val F → Res σ β} {k' : List F → Res σ β} (h : ∀ j, f j = g j >>= fun y => .ok (.flt y))
    (hk : ∀ ys, mapE g l = .ok ys → k (.fs ⟨false, ys⟩) = k' ys) :
    andThen (mapE f l) s (fun vs => andThen (mkSeq vs) s k) = andThen (mapE g l) s k' := by
  rw [mapE_flt h]
  cases hy : mapE g l with
  | error e => rfl
  | ok ys => simp only [andThen, except_bind_ok, mkSeq_flts]; exact hk ys hy
end Vals

section Calls
@[pyrun] theorem c_items (m) : callFn .m_items [(.dict m : Val F)] = .ok (.dict m) := rfl
@[pyrun] theorem c_any (a : Arr2 F) : callFn .m_any [.mat a] = .ok (.bool (Gen.Arr2.any a)) := rfl
@[pyrun] theorem c_len_dict (m : LabelMap) : callFn .py_len [(.dict m : Val F)] = .ok (.int false m.length) := rfl
@[pyrun] theorem c_len_zs (l) : callFn .py_len [(.zs l : Val F)] = .ok (.int false l.length) := rfl
@[pyrun] theorem c_len_fs (q : Seq F) : callFn .py_len [.fs q] = .ok (.int false q.items.length) := rfl
@[pyrun] theorem c_sum (q : Seq F) : callFn .py_sum [.fs q] = .ok (.flt (Arith.pySum q.items)) := rfl
@[pyrun] theorem c_range (v : Val F) : callFn .py_range [v] = asNat v >>= fun n => .ok (.ns ⟨false, List.range n⟩) := rfl
@[pyrun] theorem c_range2 (v w : Val F) : callFn .py_range [v, w] =
    asNat v >>= fun n => asNat w >>= fun m => .ok (.ns ⟨false, List.range' n (m - n)⟩) := rfl
@[pyrun] theorem c_max (q : Seq ℕ) : callFn .py_max [(.ns q : Val F)] = maxInts q.items := rfl
@[pyrun] theorem c_zeros (b : Bool) (z : ℤ) : callFn .np_zeros [(.int b z : Val F)] =
    asNat (.int b z : Val F) >>= fun n => .ok (.fs ⟨true, Vec.zeros n⟩) := rfl
@[pyrun] theorem c_zeros1 (b : Bool) (n : ℕ) : callFn .np_zeros [(.ns ⟨b, [n]⟩ : Val F)] = .ok (.fs ⟨true, Vec.zeros n⟩) := rfl
@[pyrun] theorem c_zeros2 (b : Bool) (r c : ℕ) :
    callFn .np_zeros [(.ns ⟨b, [r, c]⟩ : Val F)] = .ok (.mat (Arr2.zeros r c)) := rfl
@[pyrun] theorem c_zeros3 (b : Bool) (r c n : ℕ) :
    callFn .np_zeros [(.ns ⟨b, [r, c, n]⟩ : Val F)] = .ok (.cube (r, c) (List.replicate n (Arr2.zeros r c))) := rfl
@[pyrun] theorem c_zeros_int (v : Val F) : callFn .np_zeros_dtype [v, .typ .int_] =
    asNat v >>= fun n => .ok (.ns ⟨true, List.replicate n 0⟩) := rfl
@[pyrun] theorem c_empty (b : Bool) : callFn .np_empty [(.ns ⟨b, [0, 0]⟩ : Val F)] = .ok (.mat (Arr2.zeros 0 0)) := rfl
@[pyrun] theorem c_ones (b : Bool) (r c : ℕ) : callFn .np_ones [(.ns ⟨b, [r, c]⟩ : Val F)] =
    .ok (.mat ⟨c, List.replicate r (List.replicate c Arith.one)⟩) := rfl
@[pyrun] theorem c_trues (b : Bool) (r c : ℕ) :
    callFn .np_ones [(.ns ⟨b, [r, c]⟩ : Val F), .typ .bool_] = .ok (.allTrue r c) := rfl
@[pyrun] theorem c_eye (v : Val F) : callFn .np_eye [v] = asNat v >>= fun n =>
    .ok (.mat ⟨n, (List.range n).map fun i => (List.range n).map fun j => if i = j then Arith.one else 0⟩) := rfl
@[pyrun] theorem c_array (q : Seq F) : callFn .np_array [.fs q] = .ok (.fs ⟨true, q.items⟩) := rfl
@[pyrun] theorem c_unique (l) : callFn .np_unique [(.zs l : Val F)] = .ok (.zs (l.dedup.insertionSort (· ≤ ·))) := rfl
@[pyrun] theorem c_unique1 (b z) : callFn .np_unique [(.int b z : Val F)] = .ok (.zs [z]) := rfl
@[pyrun] theorem c_vstack (a : Arr2 F) (v) : callFn .np_vstack [.vpair a v] = a.vstack v >>= fun b => .ok (.mat b) := rfl
@[pyrun] theorem c_dstack (sh) (p : List (Arr2 F)) (b) : callFn .np_dstack [.dpair sh p b] = dstack sh p b := rfl
@[pyrun] theorem c_inner (a b : Vec F) : callFn .np_inner [.fs ⟨true, a⟩, .fs ⟨true, b⟩] =
    Gen.Vec.inner a b >>= fun y => .ok (.flt y) := rfl
@[pyrun] theorem c_outer (a b : Vec F) : callFn .np_outer [.fs ⟨true, a⟩, .fs ⟨true, b⟩] =
    .ok (.mat (Gen.Arr2.outer a b)) := rfl
@[pyrun] theorem c_transpose (a : Arr2 F) : callFn .np_transpose [.mat a] = .ok (.mat a.transpose) := rfl
@[pyrun] theorem c_transpose1 (a : Vec F) : callFn .np_transpose [.fs ⟨true, a⟩] = .ok (.fs ⟨true, a⟩) := rfl
@[pyrun] theorem c_npsum (a : Vec F) : callFn .np_sum [.fs ⟨true, a⟩] = .ok (.flt (Arith.npSum a)) := rfl
@[pyrun] theorem c_sum2 (a : Arr2 F) : callFn .np_sum [.mat a] = .ok (.flt (Arith.sum2 a.rows)) := rfl
@[pyrun] theorem c_rowsum (a : Arr2 F) (b : Bool) :
    callFn .np_sum_axis [.mat a, .int b 1] = .ok (.fs ⟨true, a.rows.map Arith.rowSum⟩) := rfl
@[pyrun] theorem c_mean (a : Arr2 F) (b : Bool) :
    callFn .np_mean_axis [.mat a, .int b 0] = .ok (.fs ⟨true, Gen.Arr2.mean0 a⟩) := rfl
@[pyrun] theorem c_min (a : Vec F) : callFn .np_min [.fs ⟨true, a⟩] = Gen.Vec.amin a >>= fun y => .ok (.flt y) := rfl
@[pyrun] theorem c_npmax (a : Vec F) : callFn .np_max [.fs ⟨true, a⟩] = Gen.Vec.amax a >>= fun y => .ok (.flt y) := rfl
@[pyrun] theorem c_max_axis (a : Arr2 F) (b : Bool) : callFn .np_max_axis [.mat a, .int b 0] =
    mapE (fun j => do let c ← a.col j; Gen.Vec.amax c) (List.range a.cols) >>= fun ys => .ok (.fs ⟨true, ys⟩) := rfl
@[pyrun] theorem c_maximum (a b : F) : callFn .np_maximum [.flt a, .flt b] = .ok (.flt (Arith.max2 a b)) := rfl
@[pyrun] theorem c_sqrt (a : F) : callFn .np_sqrt [.flt a] = .ok (.flt (Arith.sqrt a)) := rfl
@[pyrun] theorem c_sqrt_pyf (a : F) : callFn .np_sqrt [.pyf a] = .ok (.flt (Arith.sqrt a)) := rfl
@[pyrun] theorem c_exp (a : F) : callFn .np_exp [.flt a] = .ok (.flt (Arith.exp a)) := rfl
@[pyrun] theorem c_divide (q : Seq F) (p : Seq ℕ) : callFn .np_divide [.fs q, .ns p] =
    Vec.bin (· / ·) q.items (p.items.map Arith.ofNat) >>= fun ys => .ok (.fs ⟨true, ys⟩) := rfl
@[pyrun] theorem c_delete (a : Vec F) (v : Val F) : callFn .np_delete [.fs ⟨true, a⟩, v] =
    asNat v >>= fun i => Vec.delete a i >>= fun b => .ok (.fs ⟨true, b⟩) := rfl
@[pyrun] theorem c_triu (r c : ℕ) (b : Bool) : callFn .np_triu [(.allTrue r c : Val F), .int b 1] = .ok (.upper r c) := rfl
@[pyrun] theorem c_triui (v : Val F) (b : Bool) : callFn .np_triu_indices_k [v, .int b 1] =
    asNat v >>= fun n => .ok (.upperPairs n) := rfl
@[pyrun] theorem c_det (a : Arr2 F) : callFn .np_linalg_det [.mat a] = Arith.det a >>= fun y => .ok (.flt y) := rfl
@[pyrun] theorem c_inv (a : Arr2 F) : callFn .np_linalg_inv [.mat a] = Arith.inv a >>= fun y => .ok (.mat y) := rfl

@[pyrun] theorem a_ndim1 (q : Seq F) : attrFn .a_ndim (.fs q) = .ok (.int false 1) := rfl
@[pyrun] theorem a_ndim2 (a : Arr2 F) : attrFn .a_ndim (.mat a) = .ok (.int false 2) := rfl
@[pyrun] theorem a_ndim3 (sh) : attrFn .a_ndim (.nd sh : Val F) = .ok (.int false sh.length) := rfl
@[pyrun] theorem a_shape2 (a : Arr2 F) : attrFn .a_shape (.mat a) = .ok (.ns ⟨false, [a.rows.length, a.cols]⟩) := rfl
@[pyrun] theorem a_size1 (l) : attrFn .a_size (.zs l : Val F) = .ok (.int false l.length) := rfl
end Calls

section Ops
variable (K : Lits F)
@[pyrun] theorem b_add_int (p q : Bool) (a b : ℤ) : binFn K .add (.int p a) (.int q b) = .ok (.int (p || q) (a + b)) := rfl
@[pyrun] theorem b_add_flt (a b : F) : binFn K .add (.flt a) (.flt b) = .ok (.flt (a + b)) := rfl
@[pyrun] theorem b_add_vec (a b : Vec F) : binFn K .add (.fs ⟨true, a⟩) (.fs ⟨true, b⟩) =
    Gen.Vec.add a b >>= fun y => .ok (.fs ⟨true, y⟩) := rfl
@[pyrun] theorem b_add_mat (a b : Arr2 F) : binFn K .add (.mat a) (.mat b) =
    Gen.Arr2.add a b >>= fun y => .ok (.mat y) := rfl
@[pyrun] theorem b_sub_int (p q : Bool) (a b : ℤ) : binFn K .sub (.int p a) (.int q b) = .ok (.int (p || q) (a - b)) := rfl
@[pyrun] theorem b_sub_flt (a b : F) : binFn K .sub (.flt a) (.flt b) = .ok (.flt (a - b)) := rfl
@[pyrun] theorem b_sub_mix (p : Bool) (a : ℤ) (b : F) : binFn K .sub (.int p a) (.flt b) = .ok (.flt (ofZ a - b)) := rfl
@[pyrun] theorem b_sub_vec (a b : Vec F) : binFn K .sub (.fs ⟨true, a⟩) (.fs ⟨true, b⟩) =
    Gen.Vec.sub a b >>= fun y => .ok (.fs ⟨true, y⟩) := rfl
@[pyrun] theorem b_sub_mat (a b : Arr2 F) : binFn K .sub (.mat a) (.mat b) =
    Gen.Arr2.sub a b >>= fun y => .ok (.mat y) := rfl
@[pyrun] theorem b_mul_int (p q : Bool) (a b : ℤ) : binFn K .mul (.int p a) (.int q b) = .ok (.int (p || q) (a * b)) := rfl
@[pyrun] theorem b_mul_flt (a b : F) : binFn K .mul (.flt a) (.flt b) = .ok (.flt (a * b)) := rfl
@[pyrun] theorem b_mul_if (p : Bool) (a : ℤ) (b : F) : binFn K .mul (.int p a) (.flt b) = .ok (.flt (ofZ a * b)) := rfl
@[pyrun] theorem b_mul_fi (p : Bool) (a : F) (b : ℤ) : binFn K .mul (.flt a) (.int p b) = .ok (.flt (a * ofZ b)) := rfl
@[pyrun] theorem b_mul_fv (a : F) (b : Vec F) : binFn K .mul (.flt a) (.fs ⟨true, b⟩) =
    .ok (.fs ⟨true, Gen.Vec.smul a b⟩) := rfl
@[pyrun] theorem b_mul_iv (p : Bool) (a : ℤ) (b : Vec F) : binFn K .mul (.int p a) (.fs ⟨true, b⟩) =
    .ok (.fs ⟨true, Gen.Vec.smul (ofZ a) b⟩) := rfl
@[pyrun] theorem b_mul_fm (a : F) (b : Arr2 F) : binFn K .mul (.flt a) (.mat b) = .ok (.mat (Gen.Arr2.smul a b)) := rfl
@[pyrun] theorem b_mul_im (p : Bool) (a : ℤ) (b : Arr2 F) : binFn K .mul (.int p a) (.mat b) =
    .ok (.mat (Gen.Arr2.smul (ofZ a) b)) := rfl
@[pyrun] theorem b_mul_ip (p : Bool) (a : ℤ) (b : F) : binFn K .mul (.int p a) (.pyf b) = .ok (.pyf (ofZ a * b)) := rfl
@[pyrun] theorem b_mul_pv (a : F) (b : Vec F) : binFn K .mul (.pyf a) (.fs ⟨true, b⟩) =
    .ok (.fs ⟨true, Gen.Vec.smul a b⟩) := rfl
@[pyrun] theorem b_mul_mf (a : Arr2 F) (b : F) : binFn K .mul (.mat a) (.pyf b) =
    .ok (.mat ⟨a.cols, a.rows.map fun r => r.map fun y => y * b⟩) := rfl
@[pyrun] theorem b_mul_vm (a : Vec F) (b : Arr2 F) : binFn K .mul (.fs ⟨true, a⟩) (.mat b) =
    Arr2.bin (· * ·) ⟨a.length, [a]⟩ b >>= fun y => .ok (.mat y) := rfl
@[pyrun] theorem b_div_int (p q : Bool) (a b : ℤ) : binFn K .div (.int p a) (.int q b) =
    divInt (p || q) a b >>= fun y => .ok (.flt y) := rfl
@[pyrun] theorem b_div_flt (a b : F) : binFn K .div (.flt a) (.flt b) = .ok (.flt (a / b)) := rfl
@[pyrun] theorem b_div_if (p : Bool) (a : ℤ) (b : F) : binFn K .div (.int p a) (.flt b) = .ok (.flt (ofZ a / b)) := rfl
@[pyrun] theorem b_div_fi (p : Bool) (a : F) (b : ℤ) : binFn K .div (.flt a) (.int p b) = .ok (.flt (a / ofZ b)) := rfl
@[pyrun] theorem b_pow_vec (a : Vec F) (p : Bool) : binFn K .pow (.fs ⟨true, a⟩) (.int p 2) =
    .ok (.fs ⟨true, a.map Arith.sq⟩) := rfl
@[pyrun] theorem b_pow_mat (a : Arr2 F) (p : Bool) : binFn K .pow (.mat a) (.int p 2) =
    .ok (.mat ⟨a.cols, a.rows.map fun r => r.map Arith.sq⟩) := rfl
@[pyrun] theorem b_div_pi (p : Bool) (a : F) (b : ℤ) : binFn K .div (.pyf a) (.int p b) =
    if b = 0 then .error .zeroDivisionError else .ok (.pyf (a / ofZ b)) := rfl
@[pyrun] theorem b_pow_flt (a b : F) : binFn K .pow (.pyf a) (.pyf b) = K.fpow a b >>= fun y => .ok (.pyf y) := rfl
@[pyrun] theorem b_pow_int (a : F) (p : Bool) (z : ℤ) : binFn K .pow (.pyf a) (.int p z) =
    asNat (.int p z : Val F) >>= fun n => K.ipow a n >>= fun y => .ok (.pyf y) := rfl
@[pyrun] theorem b_mm_vm (a : Vec F) (b : Arr2 F) : binFn K .matmul (.fs ⟨true, a⟩) (.mat b) =
    Gen.Arr2.vecMul a b >>= fun y => .ok (.fs ⟨true, y⟩) := rfl
@[pyrun] theorem b_mm_vv (a b : Vec F) : binFn K .matmul (.fs ⟨true, a⟩) (.fs ⟨true, b⟩) =
    Gen.Vec.inner a b >>= fun y => .ok (.flt y) := rfl
@[pyrun] theorem b_mm_mm (a b : Arr2 F) : binFn K .matmul (.mat a) (.mat b) =
    Gen.Arr2.matmul a b >>= fun y => .ok (.mat y) := rfl

@[pyrun] theorem cmp_eq (p q : Bool) (a b : ℤ) : cmpFn .eq (.int p a : Val F) (.int q b) = .ok (decide (a = b)) := rfl
@[pyrun] theorem cmp_gt (p q : Bool) (a b : ℤ) : cmpFn .gt (.int p a : Val F) (.int q b) = .ok (decide (a > b)) := rfl
@[pyrun] theorem cmp_in (p : Bool) (a : ℤ) (m) : cmpFn .isIn (.int p a : Val F) (.dict m) = .ok (m.lookup a).isSome := rfl
@[pyrun] theorem cmp_in_zs (l) (m) : cmpFn .isIn (.zs l : Val F) (.dict m) = .error .typeError := rfl
end Ops

section Items
@[pyrun] theorem i_fs (q : Seq F) (b : Bool) (z : ℤ) : itemFn (.fs q) [.int b z] =
    asNat (.int b z : Val F) >>= fun i => q.get i >>= fun y => .ok (.flt y) := rfl
@[pyrun] theorem i_ns (q : Seq ℕ) (b : Bool) (z : ℤ) : itemFn (.ns q : Val F) [.int b z] =
    asNat (.int b z : Val F) >>= fun i => q.get i >>= fun y => .ok (.int q.isArr y) := rfl
@[pyrun] theorem i_zs (l) (b : Bool) (i : ℕ) : itemFn (.zs l : Val F) [.int b (i : ℤ)] =
    (match l[i]? with
    | some y => .ok (.int true y)
    | Option.none => .error .indexError) := rfl
@[pyrun] theorem i_row (a : Arr2 F) (b : Bool) (z : ℤ) : itemFn (.mat a) [.int b z, .colon] =
    asNat (.int b z : Val F) >>= fun i => a.row i >>= fun y => .ok (.fs ⟨true, y⟩) := rfl
@[pyrun] theorem i_col (a : Arr2 F) (b : Bool) (z : ℤ) : itemFn (.mat a) [.colon, .int b z] =
    asNat (.int b z : Val F) >>= fun i => a.col i >>= fun y => .ok (.fs ⟨true, y⟩) := rfl
@[pyrun] theorem i_get (a : Arr2 F) (b c : Bool) (z w : ℤ) : itemFn (.mat a) [.int b z, .int c w] =
    asNat (.int b z : Val F) >>= fun i => asNat (.int c w : Val F) >>= fun j => a.get i j >>= fun y => .ok (.flt y) := rfl
@[pyrun] theorem i_take (a : Arr2 F) (q : Seq ℕ) : itemFn (.mat a) [.ns q, .colon] =
    a.take q.items >>= fun y => .ok (.mat y) := rfl
@[pyrun] theorem i_take0 (a : Arr2 F) (b : Bool) : itemFn (.mat a) [.fs ⟨b, []⟩, .colon] =
    a.take [] >>= fun y => .ok (.mat y) := rfl
@[pyrun] theorem i_gather (a : Arr2 F) (b : Bool) (z : ℤ) (q : Seq ℕ) : itemFn (.mat a) [.int b z, .ns q] =
    asNat (.int b z : Val F) >>= fun i => gather a i q.items := rfl
@[pyrun] theorem i_gather0 (a : Arr2 F) (b c : Bool) (z : ℤ) : itemFn (.mat a) [.int b z, .fs ⟨c, []⟩] =
    asNat (.int b z : Val F) >>= fun i => gather a i [] := rfl
@[pyrun] theorem i_pairs (a : Arr2 F) (n : ℕ) : itemFn (.mat a) [.upperPairs n] =
    a.triu n >>= fun y => .ok (.fs ⟨true, y⟩) := rfl
@[pyrun] theorem i_upper (a : Arr2 F) (r c : ℕ) : itemFn (.mat a) [.upper r c] = maskUpper a r c := rfl
/-- `p[:, :, i]` -/
def pageOf (p : List (Arr2 F)) (i : ℕ) : Except PyErr (Arr2 F) :=
  match p[i]? with
  | some y => .ok y
  | Option.none => .error .indexError
@[pyrun] theorem i_page (sh) (p : List (Arr2 F)) (b : Bool) (i : ℕ) :
    itemFn (.cube sh p) [.colon, .colon, .int b (i : ℤ)] = pageOf p i >>= fun y => .ok (.mat y) := by
  simp only [itemFn, asNat_cast, except_bind_ok, pageOf]
  cases p[i]? <;> rfl
@[pyrun] theorem i_dict (m) (b : Bool) (z : ℤ) : itemFn (.dict m : Val F) [.int b z] =
    (match m.lookup z with
    | some i => .ok (.int false i)
    | Option.none => stuck) := rfl

@[pyrun] theorem s_fs (q : Seq F) (b : Bool) (z : ℤ) (v : Val F) : setFn (.fs q) [.int b z] v =
    toFlt v >>= fun y => asNat (.int b z : Val F) >>= fun i => q.set i y >>= fun q' => .ok (.fs q') := rfl
@[pyrun] theorem s_ns (q : Seq ℕ) (b : Bool) (z : ℤ) (v : Val F) : setFn (.ns q) [.int b z] v =
    asNat v >>= fun y => asNat (.int b z : Val F) >>= fun i => q.set i y >>= fun q' => .ok (.ns q') := rfl
@[pyrun] theorem s_row (a : Arr2 F) (b : Bool) (z : ℤ) (v : Vec F) : setFn (.mat a) [.int b z, .colon] (.fs ⟨true, v⟩) =
    asNat (.int b z : Val F) >>= fun i => a.setRow i v >>= fun a' => .ok (.mat a') := rfl
@[pyrun] theorem s_col (a : Arr2 F) (b : Bool) (z : ℤ) (v : Vec F) : setFn (.mat a) [.colon, .int b z] (.fs ⟨true, v⟩) =
    asNat (.int b z : Val F) >>= fun i => a.setCol i v >>= fun a' => .ok (.mat a') := rfl
@[pyrun] theorem s_entry (a : Arr2 F) (b c : Bool) (z w : ℤ) (y : F) : setFn (.mat a) [.int b z, .int c w] (.flt y) =
    asNat (.int b z : Val F) >>= fun i => asNat (.int c w : Val F) >>= fun j =>
    setEntry a i j y >>= fun a' => .ok (.mat a') := rfl
@[pyrun] theorem s_block (a b : Arr2 F) (r c : ℤ) : setFn (.mat a) [.slice 0 r, .slice 0 c] (.mat b) =
    asNat (.int false r : Val F) >>= fun i => asNat (.int false c : Val F) >>= fun j =>
    setBlock a i j b >>= fun a' => .ok (.mat a') := rfl
@[pyrun] theorem s_page (sh) (p : List (Arr2 F)) (b : Bool) (z : ℤ) (m : Arr2 F) :
    setFn (.cube sh p) [.colon, .colon, .int b z] (.mat m) =
    asNat (.int b z : Val F) >>= fun i => setPage sh p i m >>= fun p' => .ok (.cube sh p') := rfl
@[pyrun] theorem s_dict (m) (b : Bool) (z : ℤ) (w : Val F) : setFn (.dict m) [.int b z] w =
    asNat w >>= fun i => .ok (.dict (match m.lookup z with
      | some _ => m.map fun e => if e.1 = z then (z, i) else e
      | Option.none => m ++ [(z, i)])) := rfl
@[pyrun] theorem ap_fs (q : Seq F) (v : Val F) : appendFn (.fs q) v =
    toFlt v >>= fun y => q.append y >>= fun q' => .ok (.fs q') := rfl
@[pyrun] theorem ap_ns (q : Seq ℕ) (v : Val F) : appendFn (.ns q : Val F) v =
    asNat v >>= fun y => q.append y >>= fun q' => .ok (.ns q') := rfl
end Items

section Loc
variable (L : Locals F)
@[pyrun] theorem get_same (y : Var) (v : Val F) : (L.put y v).get y = .ok v := by simp [Locals.put, Locals.get]
@[pyrun] theorem get_ne {y z : Var} (v : Val F) (h : z ≠ y) : (L.put y v).get z = L.get z := by
  simp [Locals.put, Locals.get, h]
@[pyrun] theorem bind_nil : bindParams [] ([] : List (Val F)) = .ok Locals.empty := rfl
@[pyrun] theorem bind_cons (y ys) (v : Val F) (vs) : bindParams (y :: ys) (v :: vs) =
    bindParams ys vs >>= fun L => .ok (L.put y v) := rfl
end Loc

attribute [pyrun] eval evalArgs exec filterE

section Blocks
variable {σ : Type} (K : Lits F) (H : Host σ F)

/-- The rest of a block. -/
def restBlock (b : Block) (r : Res σ (Locals F × Flow F)) : Res σ (Locals F × Flow F) :=
  r.bind fun r s' =>
    match r.2 with
    | .next => execBlock K H b r.1 s'
    | .cont => .ok (r.1, .cont) s'
    | .ret v => .ok (r.1, .ret v) s'

@[pyrun] theorem block_nil (L : Locals F) (s : σ) : execBlock K H .nil L s = .ok (L, .next) s := by simp only [execBlock]
@[pyrun] theorem block_cons (st : Stmt) (b : Block) (L : Locals F) (s : σ) :
    execBlock K H (.cons st b) L s = restBlock K H b (exec K H st L s) := by
  simp only [execBlock, restBlock]
  rcases exec K H st L s with ⟨⟨L', fl⟩, s'⟩ | ⟨e, s'⟩
  · cases fl <;> rfl
  · rfl
@[pyrun] theorem rest_next (b : Block) (L : Locals F) (s : σ) :
    restBlock K H b (.ok (L, .next) s) = execBlock K H b L s := rfl
@[pyrun] theorem rest_cont (b : Block) (L : Locals F) (s : σ) :
    restBlock K H b (.ok (L, .cont) s) = .ok (L, .cont) s := rfl
@[pyrun] theorem rest_ret (b : Block) (L : Locals F) (v : Val F) (s : σ) :
    restBlock K H b (.ok (L, .ret v) s) = .ok (L, .ret v) s := rfl
@[pyrun] theorem rest_err (b : Block) (e : PyErr) (s : σ) :
    restBlock K H b (.err e s) = .err e s := rfl
@[pyrun] theorem rest_andThen {α : Type} (b : Block) (x : Except PyErr α) (s : σ) (k : α → Res σ (Locals F × Flow F)) :
    restBlock K H b (andThen x s k) = andThen x s fun a => restBlock K H b (k a) := by
  cases x <;> rfl
@[pyrun] theorem rest_bind {α : Type} (b : Block) (x : Res σ α) (k : α → σ → Res σ (Locals F × Flow F)) :
    restBlock K H b (x.bind k) = x.bind fun a s => restBlock K H b (k a s) := by
  cases x <;> rfl
end Blocks

@[pyrun] theorem seq_get0 (b : Bool) (y : ℕ) (l : List ℕ) : (⟨b, y :: l⟩ : Seq ℕ).get 0 = .ok y := rfl
@[pyrun] theorem seq_get1 (b : Bool) (x y : ℕ) (l : List ℕ) : (⟨b, x :: y :: l⟩ : Seq ℕ).get 1 = .ok y := rfl

/-- `_SEP` as XB reads it. -/
def sepVal : List F → Except PyErr (Val F)
  | [y] => .ok (.flt y)
  | l => .ok (.fs ⟨true, l⟩)

section Attrs
variable (I : Index) (o : Obj F)
@[pyrun] theorem g_dim : getAttr I ._dim o = .ok (.int false o.core.dim) := rfl
@[pyrun] theorem g_ns : getAttr I ._n_samples o = .ok (.int false o.core.nSamples) := rfl
@[pyrun] theorem g_n : getAttr I ._n o = .ok (.ns o.core.n) := rfl
@[pyrun] theorem g_v : getAttr I ._v o = .ok (.mat o.core.v) := rfl
@[pyrun] theorem g_CP : getAttr I ._CP o = Verif.attr o.core.CP >>= fun q => .ok (.fs q) := rfl
@[pyrun] theorem g_G : getAttr I ._G o = Verif.attr o.core.G >>= fun q => .ok (.mat q) := rfl
@[pyrun] theorem g_nc : getAttr I ._n_clusters o = .ok (.int false o.core.nClusters) := rfl
@[pyrun] theorem g_crit : getAttr I .criterion_value o = .ok (.flt o.core.criterion) := rfl
@[pyrun] theorem g_is : getAttr I ._is_setup o = .ok (.bool o.core.isSetup) := rfl
@[pyrun] theorem g_mu : getAttr I ._mu o = .ok (.fs ⟨true, o.core.mu⟩) := rfl
@[pyrun] theorem g_SEP_CH : getAttr .CH ._SEP o = .ok (.fs ⟨true, o.core.SEP⟩) := rfl
@[pyrun] theorem g_SEP_WB : getAttr .WB ._SEP o = .ok (.fs ⟨true, o.core.SEP⟩) := rfl
@[pyrun] theorem g_BGSS : getAttr I ._BGSS o = .ok (.flt o.core.BGSS) := rfl
@[pyrun] theorem g_WGSS : getAttr I ._WGSS o = .ok (.flt o.core.WGSS) := rfl
@[pyrun] theorem g_D : getAttr I ._D o = .ok (.mat o.core.D) := rfl
@[pyrun] theorem g_R : getAttr I ._R o = .ok (.mat o.core.R) := rfl
@[pyrun] theorem g_S_DB : getAttr .DB ._S o = .ok (.fs o.core.Sv) := rfl
@[pyrun] theorem g_S_cSIL : getAttr .cSIL ._S o = .ok (.mat o.core.Sm) := rfl
@[pyrun] theorem g_inter : getAttr I ._inter o = .ok (.flt o.core.inter) := rfl
@[pyrun] theorem g_intra : getAttr I ._intra o = .ok (.flt o.core.intra) := rfl
@[pyrun] theorem g_vbar : getAttr I ._v_bar o = .ok (.fs ⟨true, o.core.vBar⟩) := rfl
@[pyrun] theorem g_beta : getAttr I ._beta_t o = .ok (.flt o.core.betaT) := rfl
@[pyrun] theorem g_PS : getAttr I ._PS_i o = .ok (.fs ⟨true, o.core.PSi⟩) := rfl
@[pyrun] theorem g_sigma : getAttr I ._sigma o = .ok (.cube o.core.sigmaShape o.core.sigma) := rfl
@[pyrun] theorem g_delta : getAttr I ._delta_term o = .ok (.mat o.core.deltaTerm) := rfl
@[pyrun] theorem g_const : getAttr I ._constant o = .ok (.flt o.core.constant) := rfl
@[pyrun] theorem g_sil : getAttr I ._sil_coefs o = .ok (.fs ⟨true, o.core.silCoefs⟩) := rfl

variable (m : LabelMap) (s : Core F) (v : Val F)
@[pyrun] theorem g_SEP_XB : getAttr .XB ._SEP o = sepVal o.core.SEP := by
  rcases h : o.core.SEP with _ | ⟨y, _ | ⟨z, l⟩⟩ <;> simp [getAttr, h, sepVal]
@[pyrun] theorem sepVal_one (y : F) : sepVal [y] = .ok (.flt y) := rfl
@[pyrun] theorem t_map (d) : setAttr ._label_map (.dict d) ⟨m, s⟩ = .ok ⟨d, s⟩ := rfl
@[pyrun] theorem t_dim : setAttr ._dim v ⟨m, s⟩ = asNat v >>= fun n => .ok ⟨m, { s with dim := n }⟩ := rfl
@[pyrun] theorem t_ns : setAttr ._n_samples v ⟨m, s⟩ = asNat v >>= fun n => .ok ⟨m, { s with nSamples := n }⟩ := rfl
@[pyrun] theorem t_n (q) : setAttr ._n (.ns q : Val F) ⟨m, s⟩ = .ok ⟨m, { s with n := q }⟩ := rfl
@[pyrun] theorem t_n0 (b) : setAttr ._n (.fs ⟨b, []⟩ : Val F) ⟨m, s⟩ = .ok ⟨m, { s with n := ⟨b, []⟩ }⟩ := rfl
@[pyrun] theorem t_v (a) : setAttr ._v (.mat a) ⟨m, s⟩ = .ok ⟨m, { s with v := a }⟩ := rfl
@[pyrun] theorem t_CP (q) : setAttr ._CP (.fs q) ⟨m, s⟩ = .ok ⟨m, { s with CP := some q }⟩ := rfl
@[pyrun] theorem t_CPn (q : Seq ℕ) : setAttr ._CP (.ns q) ⟨m, s⟩ =
    .ok ⟨m, { s with CP := some ⟨q.isArr, q.items.map Arith.ofNat⟩ }⟩ := rfl
@[pyrun] theorem t_CP0 : setAttr ._CP (.none : Val F) ⟨m, s⟩ = .ok ⟨m, { s with CP := Option.none }⟩ := rfl
@[pyrun] theorem t_G (a) : setAttr ._G (.mat a) ⟨m, s⟩ = .ok ⟨m, { s with G := some a }⟩ := rfl
@[pyrun] theorem t_nc : setAttr ._n_clusters v ⟨m, s⟩ = asNat v >>= fun n => .ok ⟨m, { s with nClusters := n }⟩ := rfl
@[pyrun] theorem t_crit (y) : setAttr .criterion_value (.flt y) ⟨m, s⟩ = .ok ⟨m, { s with criterion := y }⟩ := rfl
@[pyrun] theorem t_is (b) : setAttr ._is_setup (.bool b : Val F) ⟨m, s⟩ = .ok ⟨m, { s with isSetup := b }⟩ := rfl
@[pyrun] theorem t_mu (l) : setAttr ._mu (.fs ⟨true, l⟩) ⟨m, s⟩ = .ok ⟨m, { s with mu := l }⟩ := rfl
@[pyrun] theorem t_SEP (l) : setAttr ._SEP (.fs ⟨true, l⟩) ⟨m, s⟩ = .ok ⟨m, { s with SEP := l }⟩ := rfl
@[pyrun] theorem t_SEP1 (y) : setAttr ._SEP (.flt y) ⟨m, s⟩ = .ok ⟨m, { s with SEP := [y] }⟩ := rfl
@[pyrun] theorem t_BGSS (y) : setAttr ._BGSS (.flt y) ⟨m, s⟩ = .ok ⟨m, { s with BGSS := y }⟩ := rfl
@[pyrun] theorem t_WGSS (y) : setAttr ._WGSS (.flt y) ⟨m, s⟩ = .ok ⟨m, { s with WGSS := y }⟩ := rfl
@[pyrun] theorem t_D (a) : setAttr ._D (.mat a) ⟨m, s⟩ = .ok ⟨m, { s with D := a }⟩ := rfl
@[pyrun] theorem t_R (a) : setAttr ._R (.mat a) ⟨m, s⟩ = .ok ⟨m, { s with R := a }⟩ := rfl
@[pyrun] theorem t_Sm (a) : setAttr ._S (.mat a) ⟨m, s⟩ = .ok ⟨m, { s with Sm := a }⟩ := rfl
@[pyrun] theorem t_Sv (q) : setAttr ._S (.fs q) ⟨m, s⟩ = .ok ⟨m, { s with Sv := q }⟩ := rfl
@[pyrun] theorem t_Sn (q : Seq ℕ) : setAttr ._S (.ns q) ⟨m, s⟩ =
    .ok ⟨m, { s with Sv := ⟨q.isArr, q.items.map Arith.ofNat⟩ }⟩ := rfl
@[pyrun] theorem t_inter (y) : setAttr ._inter (.flt y) ⟨m, s⟩ = .ok ⟨m, { s with inter := y }⟩ := rfl
@[pyrun] theorem t_intra (y) : setAttr ._intra (.flt y) ⟨m, s⟩ = .ok ⟨m, { s with intra := y }⟩ := rfl
@[pyrun] theorem t_vbar (q) : setAttr ._v_bar (.fs q) ⟨m, s⟩ = .ok ⟨m, { s with vBar := q.items }⟩ := rfl
@[pyrun] theorem t_beta (y) : setAttr ._beta_t (.flt y) ⟨m, s⟩ = .ok ⟨m, { s with betaT := y }⟩ := rfl
@[pyrun] theorem t_PS (l) : setAttr ._PS_i (.fs ⟨true, l⟩) ⟨m, s⟩ = .ok ⟨m, { s with PSi := l }⟩ := rfl
@[pyrun] theorem t_sigma (sh p) : setAttr ._sigma (.cube sh p) ⟨m, s⟩ =
    .ok ⟨m, { s with sigma := p, sigmaShape := sh }⟩ := rfl
@[pyrun] theorem t_delta (a) : setAttr ._delta_term (.mat a) ⟨m, s⟩ = .ok ⟨m, { s with deltaTerm := a }⟩ := rfl
@[pyrun] theorem t_const (y) : setAttr ._constant (.flt y) ⟨m, s⟩ = .ok ⟨m, { s with constant := y }⟩ := rfl
@[pyrun] theorem t_sil (q) : setAttr ._sil_coefs (.fs q) ⟨m, s⟩ = .ok ⟨m, { s with silCoefs := q.items }⟩ := rfl
@[pyrun] theorem d_CP : delAttr ._CP ⟨m, s⟩ =
    Verif.attr s.CP >>= fun _ => .ok ⟨m, { s with CP := Option.none }⟩ := rfl
@[pyrun] theorem d_G : delAttr ._G ⟨m, s⟩ =
    Verif.attr s.G >>= fun _ => .ok ⟨m, { s with G := Option.none }⟩ := rfl
@[pyrun] theorem attr_some {α : Type} (a : α) : Verif.attr (some a) = .ok a := rfl
@[pyrun] theorem attr_none {α : Type} : Verif.attr (Option.none : Option α) = .error .attributeError := rfl

variable (call : Meth → List (Val F) → Py (Obj F) (Val F))
@[pyrun] theorem host_get : (objHost I call).get = getAttr I := rfl
@[pyrun] theorem host_set : (objHost I call).set = setAttr := rfl
@[pyrun] theorem host_del : (objHost I call).del = delAttr := rfl
@[pyrun] theorem host_call : (objHost I call).call = call := rfl
end Attrs

/-! ## The base class and the label map -/

section Base
variable (K : Lits F) (I : Index)

@[pyrun] theorem super_setup_eq (x : Vec F) (m : LabelMap) (s : Core F) :
    superCall K I .super_setup [.fs ⟨true, x⟩] ⟨m, s⟩ = (onCore (Base.setup x) ⟨m, s⟩).bind fun _ o => .ok .none o := by
  simp only [callMethod, superCall, CVI._setup, pyrun]
  rfl

@[pyrun] theorem super_setup_batch_eq (a : Arr2 F) (m : LabelMap) (s : Core F) :
    superCall K I .super_setup_batch [.mat a] ⟨m, s⟩ = (onCore (Base.setupBatch a) ⟨m, s⟩).bind fun _ o => .ok .none o := by
  simp only [callMethod, superCall, CVI._setup_batch, pyrun]
  rfl

theorem getLabel_eq (z : ℤ) (m : LabelMap) (s : Core F) :
    getLabel K [.int false z] ⟨m, s⟩ =
      .ok (.int false (m.getInternalLabel z).1) ⟨(m.getInternalLabel z).2, s⟩ := by
  simp only [callMethod, getLabel, LabelMap.get_internal_label, pyrun, mapHost, Verif.LabelMap.getInternalLabel]
  cases h : m.lookup z <;> simp only [pyrun, Option.isSome]

theorem getLabel_arr (l : List ℤ) (m : LabelMap) (s : Core F) :
    getLabel K [.zs l] ⟨m, s⟩ = .err .typeError ⟨m, s⟩ := by
  simp only [callMethod, getLabel, LabelMap.get_internal_label, pyrun, mapHost]
end Base

end Verif.Source
