import Verif.Old.Matrix

/-!
# The text of `iSIL` does what `Verif/Compat/V0.lean` says

`self.g` holds the caller's arrays themselves, so an object has references in `g`, the caller's arrays, and the number of the array that
was passed to the method that is running: `self.g.append(x)` keeps that reference, and `self.g[i] += x` changes the array it refers to.
-/

set_option linter.unusedSectionVars false
set_option linter.constructorNameAsVariable false
set_option linter.unusedSimpArgs false

namespace Verif.Old
open V0

/-- The attributes of an `iSIL` object, with the kinds of their numbers; the caller's arrays; and the array passed to the current call. -/
structure SILo where
  heap : ℕ → Vec
  cur : ℕ
  sc : List Nm
  b : Arr2
  output : Nm
  N : ℕ
  centers : List Vec
  sizes : List ℕ
  CP : List Nm
  g : List ℕ
  sij : Arr2

namespace SILo

/-- The object of the model. -/
noncomputable def abs (o : SILo) : V0.SIL where
  heap := o.heap
  sc := o.sc.map Nm.val
  b := o.b
  output := o.output.val
  N := o.N
  centers := o.centers
  sizes := o.sizes
  CP := o.CP.map Nm.val
  g := o.g
  sij := o.sij

/-- Read an attribute. -/
def get (a : Attr) (o : SILo) : Except PyErr PV :=
  match a with
  | .sc => .ok (.list (o.sc.map .num))
  | .b => .ok (.mat o.b)
  | .output => .ok (.num o.output)
  | .N => .ok (.num (.int false o.N))
  | .cluster_centers => .ok (.list (o.centers.map .vec))
  | .cluster_sizes => .ok (.list (o.sizes.map natV))
  | .CP => .ok (.list (o.CP.map .num))
  | .g => .ok (.list ((o.g.map o.heap).map .vec))
  | .sij => .ok (.mat o.sij)
  | _ => .error .attributeError

/-- Assign an attribute; `g` is assigned only the empty list. -/
def set (a : Attr) (v : PV) (o : SILo) : Except PyErr SILo :=
  match a with
  | .sc => setNums v fun l => { o with sc := l }
  | .b => setMat v fun m => { o with b := m }
  | .output => setNum v fun n => { o with output := n }
  | .N => setNat v fun n => { o with N := n }
  | .cluster_centers => setVecs v fun l => { o with centers := l }
  | .cluster_sizes => setNats v fun l => { o with sizes := l }
  | .CP => setNums v fun l => { o with CP := l }
  | .g => match v with
    | .list [] => .ok { o with g := [] }
    | _ => stuck
  | .sij => setMat v fun m => { o with sij := m }
  | _ => stuck

open Classical in
/-- `self.a.append(v)`: to `g` only the array passed to the call is appended, by reference. -/
noncomputable def append (a : Attr) (v : PV) (o : SILo) : Except PyErr SILo :=
  match a with
  | .g => if v = .vec (o.heap o.cur) then .ok { o with g := o.g ++ [o.cur] } else stuck
  | a => (stdHost get set).append a v o

/-- `self.a[idx] op= v`: for `g` the array is changed in place. -/
noncomputable def augItem (op : BinOp) (a : Attr) (is : List PV) (v : PV) (o : SILo) : Except PyErr SILo :=
  match a with
  | .g => match op, is, v with
    | .add, [.num (.int _ z)], .vec x => do
      let r ← getAt o.g z
      let y ← addInPlace (o.heap r) x
      .ok { o with heap := Function.update o.heap r y }
    | _, _, _ => stuck
  | a => (stdHost get set).augItem op a is v o

/-- The value a method returns that assigns no attribute. -/
noncomputable def query (m : Func) (vs : List PV) (ks : List (Var × PV)) (o : SILo) : Except PyErr PV :=
  match callMethod (stdHost get set) m vs ks o with
  | .ok v _ => .ok v
  | .err e _ => .error e

/-- Calls in the methods: `self.s_ij_new` does not use `self`, and `self.sci` only reads attributes. -/
noncomputable def calls (o : SILo) : Calls
  | .self_s_ij_new, vs, ks => callFunc iSIL.s_ij_new vs ks
  | .self_sci, vs, ks => query iSIL.sci vs ks o
  | f, vs, ks => calls1 f vs ks

/-- The object as the interpreter sees it in `cp_update`. -/
noncomputable def host1 : Host SILo where
  get := get
  set := set
  fn := calls
  call := noCall
  append := append
  augItem := augItem

/-- The object as the interpreter sees it in `__init__` and `update`. -/
noncomputable def host : Host SILo :=
  { host1 with call := fun f vs => match f with
    | .self_cp_update => callMethod host1 iSIL.cp_update vs []
    | _ => Py.raise .assertionError }

/-- What holds of every object: one entry per cluster, no cluster is empty, and the matrices are large enough. -/
structure Good (o : SILo) : Prop where
  cs : o.centers.length = o.sizes.length
  cp : o.CP.length = o.sizes.length
  g : o.g.length = o.sizes.length
  ne : ∀ n ∈ o.sizes, n ≠ 0
  b : Sq o.sizes.length o.b
  rows : o.sizes.length ≤ o.sij.rows.length
  row : ∀ r ∈ o.sij.rows, o.sizes.length ≤ r.length

/-- `iSIL()` -/
noncomputable def runInit : Py SILo PV := callMethod host iSIL.init [] []

/-- `o.update(x, c)` where `x` is the caller's array number `b` -/
noncomputable def run (b : ℕ) (c : ℤ) : Py SILo PV := fun o =>
  callMethod host iSIL.update [.vec (o.heap b), .int c] [] { o with cur := b }

/-- A returned number, and the object. -/
def Rel (v : PV) (o : SILo) (y : XR) (s : V0.SIL) : Prop := (∃ n : Nm, v = .num n ∧ n.val = y) ∧ o.abs = s ∧ o.Good

/-- All arrays and all centers have length `d`. -/
def Uni (d : ℕ) (o : SILo) : Prop := (∀ a, (o.heap a).length = d) ∧ ∀ v ∈ o.centers, v.length = d

/-- After a call that returned: a number, and the object; lengths are kept. -/
def Ret (o : SILo) (v : PV) (o' : SILo) (y : XR) (s : V0.SIL) : Prop := Rel v o' y s ∧ ∀ d, Uni d o → Uni d o'

/-- After a call that raised: with arrays of one length, the object; lengths are kept. -/
def Exc (o o' : SILo) (s : V0.SIL) : Prop := ∀ d, Uni d o → o'.abs = s ∧ o'.Good ∧ Uni d o'

theorem bin_len {f : XR → XR → XR} {a b : Vec} {d : ℕ} (ha : a.length = d) (hb : b.length = d) :
    ∃ w, Vec.bin f a b = .ok w ∧ w.length = d := by
  refine ⟨_, if_pos (ha.trans hb.symm), ?_⟩
  simp [ha, hb]

theorem centerUpdate_len {x v : Vec} {n d : ℕ} {u : Vec × ℕ} (h : centerUpdate x v n = .ok u) (hx : x.length = d) (hv : v.length = d) :
    u.1.length = d := by
  obtain ⟨w, h1, h2⟩ := bin_len (f := (· - ·)) hx hv
  obtain ⟨w', h3, h4⟩ := bin_len (f := (· + ·)) hv (show (vdiv w (.fin ((n + 1 : ℕ) : ℝ))).length = d by simp [vdiv, h2])
  simp only [centerUpdate, Vec.sub, Vec.add, h1, except_bind_ok, h3] at h
  cases h
  exact h4

theorem addInPlace_len {a x : Vec} {d : ℕ} (ha : a.length = d) (hx : x.length = d) : ∃ y, addInPlace a x = .ok y ∧ y.length = d := by
  obtain ⟨w, h1, h2⟩ := bin_len (f := (· + ·)) ha hx
  refine ⟨w, ?_, h2⟩
  simp only [addInPlace, Vec.broadcastTo, hx, ha, if_true, except_bind_ok]
  exact h1

theorem sijNew_ok {x vj vi gj : Vec} {d : ℕ} (hx : x.length = d) (hj : vj.length = d) (hi : vi.length = d) (hg : gj.length = d)
    (i j : ℕ) (J : ℤ) (nj : ℕ) (cpj old : XR) : ∃ y, V0.SIL.sijNew x i j J nj cpj vj vi gj old = .ok y := by
  obtain ⟨w, h1, -⟩ := bin_len (f := (· - ·)) hx hi
  obtain ⟨w', h2, -⟩ := bin_len (f := (· - ·)) hx hj
  simp only [V0.SIL.sijNew, Vec.sub, h1, h2, except_bind_ok, Vec.inner, hi, hj, hg, if_true]
  split_ifs <;> exact ⟨_, rfl⟩

theorem _root_.Verif.Old.Nm.val_pyMax (m n : Nm) : (m.pyMax n).val = XR.pyMax m.val n.val := by
  unfold Nm.pyMax XR.pyMax
  by_cases h : XR.lt m.val n.val
  · rw [(Nm.val_lt m n).mpr h, if_pos h]; rfl
  · rw [Bool.eq_false_iff.mpr (mt (Nm.val_lt m n).mp h), if_neg h]; rfl

/-- The larger of two numpy floats is one. -/
theorem pyMin_flt (y z : XR) : (Nm.flt true y).pyMin (.flt true z) = .flt true (XR.pyMin y z) := by
  rw [← show ((Nm.flt true y).pyMin (.flt true z)).val = XR.pyMin y z from Nm.val_pyMin _ _]
  unfold Nm.pyMin
  cases (Nm.flt true z).lt (.flt true y) <;> rfl
theorem pyMax_flt (y z : XR) : (Nm.flt true y).pyMax (.flt true z) = .flt true (XR.pyMax y z) := by
  rw [← show ((Nm.flt true y).pyMax (.flt true z)).val = XR.pyMax y z from Nm.val_pyMax _ _]
  unfold Nm.pyMax
  cases (Nm.flt true y).lt (.flt true z) <;> rfl
theorem foldl_min (l : List XR) (y : XR) : (l.map (Nm.flt true)).foldl Nm.pyMin (.flt true y) = .flt true (l.foldl XR.pyMin y) := by
  induction l generalizing y with
  | nil => rfl
  | cons z l ih => simp only [List.map_cons, List.foldl_cons, pyMin_flt, ih]
theorem foldl_max (l : List XR) (y : XR) : (l.map (Nm.flt true)).foldl Nm.pyMax (.flt true y) = .flt true (l.foldl XR.pyMax y) := by
  induction l generalizing y with
  | nil => rfl
  | cons z l ih => simp only [List.map_cons, List.foldl_cons, pyMax_flt, ih]
theorem nums_npf (l : List XR) : nums (l.map PV.npf) = some (l.map (Nm.flt true)) := by
  rw [← nums_map, List.map_map]; rfl
@[oldrun] theorem min_npf (l : List XR) : builtin .py_min [.list (l.map PV.npf)] = listMin l >>= fun y => .ok (.npf y) := by
  cases l with
  | nil => rfl
  | cons y l =>
    simp only [builtin, nums_npf, listMin, except_bind_ok]
    simp only [List.map_cons, foldl_min]
@[oldrun] theorem max_npf (l : List XR) : builtin .py_max [.list (l.map PV.npf)] = listMax l >>= fun y => .ok (.npf y) := by
  cases l with
  | nil => rfl
  | cons y l =>
    simp only [builtin, nums_npf, listMax, except_bind_ok]
    simp only [List.map_cons, foldl_max]
@[oldrun] theorem sum_npf (l : List XR) : builtin .py_sum [.list (l.map PV.npf)] = .ok (.num (pySum (l.map (Nm.flt true)))) := by
  simp only [builtin, nums_npf]

section
attribute [local congr] andThen_head bind_head ebind_head cond_head

@[local oldrun] theorem h_get : host.get = get := rfl
@[local oldrun] theorem h_set : host.set = set := rfl
@[local oldrun] theorem h_fn (s) : host.fn s = calls s := rfl
@[local oldrun] theorem h_append : host.append = append := rfl
@[local oldrun] theorem h_aug : host.augItem = augItem := rfl
@[local oldrun] theorem h_call (vs) : host.call .self_cp_update vs = callMethod host1 iSIL.cp_update vs [] := rfl
@[local oldrun] theorem h1_get : host1.get = get := rfl
@[local oldrun] theorem h1_set : host1.set = set := rfl
@[local oldrun] theorem h1_fn (s) : host1.fn s = calls s := rfl
@[local oldrun] theorem h1_aug : host1.augItem = augItem := rfl
section
variable (o : SILo) (vs : List PV) (ks : List (Var × PV))
theorem c_sij : calls o .self_s_ij_new vs ks = callFunc iSIL.s_ij_new vs ks := rfl
theorem c_sci : calls o .self_sci vs ks = query iSIL.sci vs ks o := rfl
theorem c_len : calls o .py_len vs ks = calls1 .py_len vs ks := rfl
theorem c_range : calls o .py_range vs ks = calls1 .py_range vs ks := rfl
theorem c_sum : calls o .py_sum vs ks = calls1 .py_sum vs ks := rfl
theorem c_norm : calls o .np_linalg_norm vs ks = calls1 .np_linalg_norm vs ks := rfl
theorem c_pad : calls o .np_pad_mode_constant_values vs ks = calls1 .np_pad_mode_constant_values vs ks := rfl
theorem c_zeros : calls o .np_zeros vs ks = calls1 .np_zeros vs ks := rfl
theorem c_ones : calls o .np_ones vs ks = calls1 .np_ones vs ks := rfl
theorem c_center : calls o .cluster_center_update vs ks = calls1 .cluster_center_update vs ks := rfl
end
attribute [local oldrun] get set append augItem c_sij c_sci c_len c_range c_sum c_norm c_pad c_zeros c_ones c_center

theorem init_eq (o : SILo) : ∃ o', runInit o = .ok .none o' ∧ o'.abs = V0.SIL.init o.heap ∧ o'.Good := by
  refine ⟨⟨o.heap, o.cur, [], Arr2.zeros 0 0, .int false 0, 0, [], [], [], [], Arr2.zeros 0 0⟩, ?_, ?_, ?_⟩
  · simp -implicitDefEqProofs only [runInit, callMethod, iSIL.init, oldrun]
    rfl
  · simp only [abs, V0.SIL.init, Nm.val, Int.cast_zero, List.map_nil]; rfl
  · exact ⟨rfl, rfl, rfl, by simp, ⟨rfl, rfl, by simp [Arr2.zeros]⟩, Nat.zero_le _, fun _ _ => Nat.zero_le _⟩

/-- `self.s_ij_new` -/
theorem sij_eq (x vj vi gj : Vec) (i j : ℕ) (J : ℤ) {nj : ℕ} (hn : nj ≠ 0) (cpj : Nm) (old : XR) :
    callFunc iSIL.s_ij_new [.vec x, .int i, .int j, .int J, .int nj, .int ((nj : ℤ) - 1), .num cpj, .vec vj, .vec vi, .vec gj, .npf old] [] =
      V0.SIL.sijNew x i j J nj cpj.val vj vi gj old >>= fun y => .ok (.npf y) := by
  have h1 : XR.fin 1 / XR.fin (nj : ℝ) = .fin (1 / (nj : ℝ)) := XR.fin_div_of_ne _ (Nat.cast_ne_zero.2 hn)
  apply callFunc_eq
  simp -implicitDefEqProofs only [callMethod, iSIL.s_ij_new, oldrun, V0.SIL.sijNew]
  cases Vec.sub x vi with
  | error e => rfl
  | ok zi =>
    simp -implicitDefEqProofs only [oldrun]
    cases Vec.sub x vj with
    | error e => rfl
    | ok zj =>
      by_cases hi : (i : ℤ) = J <;> by_cases hj : (j : ℤ) = J <;>
        simp -implicitDefEqProofs only [oldrun, hi, hj, not_true_eq_false, decide_true, decide_false, div_nat hn, h1, Int.cast_one]
      · cases Vec.inner vj gj with
        | error e => rfl
        | ok p => simp -implicitDefEqProofs only [oldrun]; push_cast; rfl
      · cases Vec.inner vi gj with
        | error e => rfl
        | ok p => simp -implicitDefEqProofs only [oldrun]; push_cast; rfl
      · cases Vec.inner vi gj with
        | error e => rfl
        | ok p => simp -implicitDefEqProofs only [oldrun]; push_cast; rfl

/-- `self.sci` -/
theorem sci_eq (o : SILo) (i : ℕ) (J : ℤ) : query iSIL.sci [.int i, .int J] [] o = o.abs.sci J i >>= fun y => .ok (.npf y) := by
  have hq : ∀ x : Except PyErr PV, callMethod (stdHost get set) iSIL.sci [.int i, .int J] [] o = andThen x o (fun v => .ok v o) →
      query iSIL.sci [.int i, .int J] [] o = x := by
    intro x h
    unfold query; rw [h]; cases x <;> rfl
  apply hq
  have hf := filterE_map (p := fun j => do
      let a ← cmpFn .ne j (.int J)
      Except.ok a) (fun j : ℕ => PV.int j) (List.range o.centers.length) (q := fun j : ℕ => decide ((j : ℤ) ≠ J)) (by
      intro j
      simp -implicitDefEqProofs only [oldrun]
      simp only [decide_not])
  have hm := mapE_post (e := PV.npf) (f := fun j : ℕ => getAt2 o.sij (i : ℤ) (j : ℤ) >>= fun y => .ok (.npf y)) (g := fun j : ℕ => getAt2 o.sij i j)
    ((List.range o.centers.length).filter fun j : ℕ => decide ((j : ℤ) ≠ J)) (fun j => rfl)
  simp -implicitDefEqProofs only [callMethod, iSIL.sci, oldrun, V0.SIL.sci, hf, hm, V0.SIL.others, abs]
  generalize hl : mapE (fun j : ℕ => getAt2 o.sij (i : ℤ) (j : ℤ)) ((List.range o.centers.length).filter fun j : ℕ => decide ¬ (j : ℤ) = J) = r
  rw [hl] at hm
  cases r with
  | error e => simp -implicitDefEqProofs only [oldrun]
  | ok l =>
    simp -implicitDefEqProofs only [oldrun]
    cases listMin l with
    | error e => simp -implicitDefEqProofs only [oldrun]
    | ok mn =>
      simp -implicitDefEqProofs only [oldrun]
      cases ha : getAt2 o.sij (i : ℤ) J with
      | error e => simp -implicitDefEqProofs only [oldrun]
      | ok a =>
        simp -implicitDefEqProofs only [oldrun, ha, hf, hm, hl]
        cases listMax l with
        | error e => simp -implicitDefEqProofs only [oldrun]
        | ok mx => simp -implicitDefEqProofs only [oldrun, pyMax_flt, div_np]

/-- The `if` statement. -/
def first : Stmt :=
  match iSIL.update.body with
  | .cons s _ => s
  | _ => .assert .none
/-- The rest. -/
def tail : Block :=
  match iSIL.update.body with
  | .cons _ b => b
  | _ => .nil

theorem update_eq : iSIL.update = ⟨[(.x, Option.none), (.c_i, Option.none)], .cons first tail⟩ := rfl

/-- The rest of the model's `update`. -/
noncomputable def mtail (x : Vec) (c : ℤ) : Py V0.SIL XR := do
  Py.modify fun s => { s with N := s.N + 1 }
  let s ← Py.get
  let v ← Py.lift (getAt s.centers c)
  let n ← Py.lift (getAt s.sizes c)
  let u ← Py.lift (centerUpdate x v n)
  let cs ← Py.lift (setAt s.centers c u.1)
  Py.modify fun s => { s with centers := cs }
  let ns ← Py.lift (setAt s.sizes c u.2)
  Py.modify fun s => { s with sizes := ns }
  let s ← Py.get
  let m ← Py.lift (s.loop x c)
  Py.modify fun s => { s with sij := m }
  let cp ← Py.lift (getAt s.CP c)
  let cps ← Py.lift (setAt s.CP c (cp + V0.norm22 x))
  Py.modify fun s => { s with CP := cps }
  let gc ← Py.lift (getAt s.g c)
  let gn ← Py.lift (addInPlace (s.heap gc) x)
  Py.modify fun s => { s with heap := Function.update s.heap gc gn }
  let s ← Py.get
  let es ← Py.lift (mapE (s.sci c) (List.range s.centers.length))
  Py.modify fun s => { s with output := .fin (1 / (s.centers.length : ℝ)) * es.sum }
  let s ← Py.get
  pure s.output

theorem model_eq (b : ℕ) (c : ℤ) (s : V0.SIL) : V0.SIL.update b c s =
    if c = s.sizes.length then mtail (s.heap b) c { s with
      centers := s.centers ++ [s.heap b], sizes := s.sizes ++ [1], sc := s.sc ++ [0]
      b := V0.pad s.b .pinf, sij := V0.pad (V0.pad s.b .pinf) 0
      CP := s.CP ++ [V0.norm22 (s.heap b)], g := s.g ++ [b] }
    else if c > s.sizes.length then .err .valueError s
    else mtail (s.heap b) c s := by
  by_cases h1 : c = s.sizes.length
  · simp only [V0.SIL.update, mtail, oldrun, h1]
  · by_cases h2 : c > s.sizes.length
    · simp only [V0.SIL.update, oldrun, h1, h2]
    · simp only [V0.SIL.update, mtail, oldrun, h1, h2]

@[local oldrun] theorem std_aug (op : BinOp) (a : Attr) (is : List PV) (v : PV) (s : SILo) : (stdHost get set).augItem op a is v s =
    get a s >>= fun c => itemFn c is >>= fun w => binFn op w v >>= fun u => setFn c is u >>= fun c' => set a c' s := rfl

theorem loop_size {k : ℕ} {a m : Arr2} {F : ℕ → ℕ → Except PyErr XR} (hk : k ≤ a.rows.length) (hr : ∀ r ∈ a.rows, k ≤ r.length)
    (hM : (mapE (fun i => mapE (F i) (List.range k)) (List.range k) >>= fun es =>
      Except.ok (⟨a.cols, List.zipWith (fun e r => e ++ r.drop k) es (a.rows.take k) ++ a.rows.drop k⟩ : Arr2)) = .ok m) :
    k ≤ m.rows.length ∧ ∀ r ∈ m.rows, k ≤ r.length := by
  cases hes : mapE (fun i => mapE (F i) (List.range k)) (List.range k) with
  | error e => rw [hes] at hM; cases hM
  | ok es =>
    rw [hes] at hM
    cases hM
    obtain ⟨h1, h2⟩ := mapE_inv hes
    refine ⟨?_, ?_⟩
    · simp only [List.length_append, List.length_zipWith, List.length_take, List.length_drop, h1, List.length_range]
      omega
    · intro r hm
      rcases List.mem_append.1 hm with hm | hm
      · rw [List.mem_iff_getElem] at hm
        obtain ⟨q, hq, rfl⟩ := hm
        simp only [List.getElem_zipWith, List.length_append]
        obtain ⟨b, -, h3⟩ := h2 _ (List.getElem_mem (l := es) (n := q) (by simp at hq; omega))
        have h4 := (mapE_inv h3).1
        rw [List.length_range] at h4
        omega
      · exact hr r (List.mem_of_mem_drop hm)

theorem centerUpdate_size {x v : Vec} {n : ℕ} {u : Vec × ℕ} (h : centerUpdate x v n = .ok u) : u.2 = n + 1 := by
  unfold centerUpdate at h
  cases h1 : Vec.sub x v with
  | error e => simp [h1] at h
  | ok w =>
    simp only [h1, except_bind_ok] at h
    revert h
    cases Vec.add v _ with
    | error e => simp
    | ok y => intro h; cases h; rfl

/-- The tail of `update`, for an object whose lists have an entry for the cluster. -/
theorem tail_sim (x : Vec) (c : ℤ) (L : Locals) (hx : L.get .x = .ok (.vec x)) (hc : L.get .c_i = .ok (.int c)) (o : SILo) (h : o.Good) :
    SimS (fun v o' y s => Rel v o' y s ∧ ∀ d, x.length = d → Uni d o → Uni d o')
      (fun o' s => ∀ d, x.length = d → Uni d o → o'.abs = s ∧ o'.Good ∧ Uni d o') ((execBlock host tail L o).bind fun r s' => match r.2 with | .ret v => .ok v s' | .next => .ok .none s')
      (mtail x c o.abs) := by
  cases hi : pyIdx o.sizes.length c with
  | none =>
    have hw : getAt o.centers c = .error .indexError := getAt_err (h.cs ▸ hi)
    simp -implicitDefEqProofs only [tail, iSIL.update, mtail, oldrun, hx, hc, abs, hw]
    exact ⟨rfl, fun d _ hU => ⟨rfl, ⟨h.cs, h.cp, h.g, h.ne, h.b, h.rows, h.row⟩, hU⟩⟩
  | some i =>
    have hk := pyIdx_lt hi
    have hic : pyIdx o.centers.length c = some i := h.cs ▸ hi
    have hip : pyIdx o.CP.length c = some i := h.cp ▸ hi
    have hig : pyIdx o.g.length c = some i := h.g ▸ hi
    obtain ⟨v, hv⟩ := getAt_ok hic
    obtain ⟨n, hn⟩ := getAt_ok hi
    obtain ⟨w, hw⟩ := getAt_ok hip
    obtain ⟨r, hr⟩ := getAt_ok hig
    simp -implicitDefEqProofs only [tail, iSIL.update, mtail, oldrun, hx, hc, abs, hv, hn]
    refine simS_bind (fun _ _ d _ hU => ⟨rfl, ⟨h.cs, h.cp, h.g, h.ne, h.b, h.rows, h.row⟩, hU⟩) fun u hu => ?_
    have hvm : v ∈ o.centers := by
      obtain ⟨v', h1, h2⟩ := getAt_isOk hic
      rw [hv] at h2
      cases h2
      exact List.mem_of_getElem? h1
    have hcen : ∀ d, x.length = d → Uni d o → ∀ v ∈ o.centers.set i u.1, v.length = d := by
      intro d hx hU v' hv'
      rcases List.mem_or_eq_of_mem_set hv' with hv' | rfl
      · exact hU.2 v' hv'
      · exact centerUpdate_len hu hx (hU.2 v hvm)
    have hu2 := centerUpdate_size hu
    simp -implicitDefEqProofs only [oldrun, hx, hc, setAt_isOk _ hic, setAt_isOk _ hi, List.length_set]
    have hne : ∀ m ∈ o.sizes.set i u.2, m ≠ 0 := by
      intro m hm
      rcases List.mem_or_eq_of_mem_set hm with hm | rfl
      · exact h.ne m hm
      · omega
    let G : ℕ → ℕ → XR → Except PyErr XR := fun i' j old => do
      let nj ← getAt (o.sizes.set i u.2) (j : ℤ)
      let cpj ← getAt o.CP (j : ℤ)
      let vj ← getAt (o.centers.set i u.1) (j : ℤ)
      let vi ← getAt (o.centers.set i u.1) (i' : ℤ)
      let gj ← getAt o.g (j : ℤ)
      V0.SIL.sijNew x i' j c nj cpj.val vj vi (o.heap gj) old
    have hidx : ∀ j ∈ List.range o.sizes.length, pyIdx o.sizes.length (j : ℤ) = some j := by
      intro j hj
      rw [List.mem_range] at hj
      simp [pyIdx, hj]
    generalize hR : runLoop _ _ _ _ _ = R
    have hd := loop_run hR (f := fun (i' : ℕ) a => foldE (fun (j : ℕ) a => getAt2 a (i' : ℤ) (j : ℤ) >>= fun y => G i' j y >>= fun e =>
          setAt2 a (i' : ℤ) (j : ℤ) e) (List.range o.sizes.length) a)
      (Inv := fun L' s a => L'.get .x = .ok (.vec x) ∧ L'.get .c_i = .ok (.int c) ∧
        s = ⟨o.heap, o.cur, o.sc, o.b, o.output, o.N + 1, o.centers.set i u.1, o.sizes.set i u.2, o.CP, o.g, a⟩)
      (b := o.sij) ⟨hx, hc, rfl⟩ (by
        rintro L1 s a i' hi' ⟨h1, h2, rfl⟩
        simp -implicitDefEqProofs only [oldrun, List.length_set]
        generalize hR1 : runLoop _ _ _ _ _ = R1
        have hd1 := loop_run hR1 (f := fun (j : ℕ) a => getAt2 a (i' : ℤ) (j : ℤ) >>= fun y => G i' j y >>= fun e =>
            setAt2 a (i' : ℤ) (j : ℤ) e)
          (Inv := fun L' s a => L'.get .x = .ok (.vec x) ∧ L'.get .c_i = .ok (.int c) ∧ L'.get .i = .ok (.int i') ∧
            s = ⟨o.heap, o.cur, o.sc, o.b, o.output, o.N + 1, o.centers.set i u.1, o.sizes.set i u.2, o.CP, o.g, a⟩)
          (b := a) ⟨by rw [get_ne _ _ (by decide)]; exact h1, by rw [get_ne _ _ (by decide)]; exact h2, by simp only [oldrun], rfl⟩ (by
            rintro L2 s a j hj ⟨k1, k2, k3, rfl⟩
            have hj' := hidx j hj
            obtain ⟨nj, hnj, hnj'⟩ := getAt_isOk (l := o.sizes.set i u.2) (c := j) (i := j) (by rw [List.length_set]; exact hj')
            obtain ⟨cpj, hcpj⟩ := getAt_ok (l := o.CP) (c := j) (i := j) (by rw [h.cp]; exact hj')
            obtain ⟨vj, hvj⟩ := getAt_ok (l := o.centers.set i u.1) (c := j) (i := j) (by rw [List.length_set, h.cs]; exact hj')
            obtain ⟨vi, hvi⟩ := getAt_ok (l := o.centers.set i u.1) (c := i') (i := i') (by rw [List.length_set, h.cs]; exact hidx i' hi')
            obtain ⟨gj, hgj⟩ := getAt_ok (l := o.g) (c := j) (i := j) (by rw [h.g]; exact hj')
            have hgv := getAt_map o.heap o.g j
            rw [hgj] at hgv
            simp -implicitDefEqProofs only [oldrun, k1, k2, k3, hnj', hcpj, hvj, hvi, hgj, hgv]
            cases hy : getAt2 a (i' : ℤ) (j : ℤ) with
            | error e => exact ⟨_, rfl⟩
            | ok y =>
              simp -implicitDefEqProofs only [oldrun, sij_eq x vj vi (o.heap gj) i' j c (hne nj (List.mem_of_getElem? hnj)) cpj y, G,
                hnj', hcpj, hvj, hvi, hgj]
              cases V0.SIL.sijNew x i' j c nj cpj.val vj vi (o.heap gj) y with
              | error e => exact ⟨_, rfl⟩
              | ok e =>
                simp -implicitDefEqProofs only [oldrun, k1, k2, k3]
                cases setAt2 a (i' : ℤ) (j : ℤ) e with
                | error e => exact ⟨_, rfl⟩
                | ok a' =>
                  simp -implicitDefEqProofs only [oldrun]
                  exact ⟨_, _, rfl, by rw [get_ne _ _ (by decide)]; exact k1, by rw [get_ne _ _ (by decide)]; exact k2,
                    by rw [get_ne _ _ (by decide)]; exact k3, rfl⟩)
        cases hF : foldE (fun (j : ℕ) a => getAt2 a (i' : ℤ) (j : ℤ) >>= fun y => G i' j y >>= fun e =>
            setAt2 a (i' : ℤ) (j : ℤ) e) (List.range o.sizes.length) a with
        | error e =>
          rw [hF] at hd1
          obtain ⟨s', rfl⟩ := hd1
          exact ⟨s', rfl⟩
        | ok a' =>
          rw [hF] at hd1
          obtain ⟨L', s', rfl, k1, k2, k3, rfl⟩ := hd1
          exact ⟨_, _, rfl, k1, k2, rfl⟩)
    rw [fold_matrix G _ _ h.rows h.row] at hd
    have hE : V0.SIL.loop ⟨o.heap, o.sc.map Nm.val, o.b, o.output.val, o.N + 1, o.centers.set i u.1, o.sizes.set i u.2, o.CP.map Nm.val, o.g, o.sij⟩ x c =
        (mapE (fun i' : ℕ => mapE (fun j : ℕ => getAt2 o.sij (i' : ℤ) (j : ℤ) >>= G i' j) (List.range o.sizes.length)) (List.range o.sizes.length) >>= fun es =>
        .ok ⟨o.sij.cols, List.zipWith (fun e r => e ++ r.drop o.sizes.length) es (o.sij.rows.take o.sizes.length) ++ o.sij.rows.drop o.sizes.length⟩) := by
      simp only [V0.SIL.loop, List.length_set]
      congr 1
      refine mapE_congr fun i' hi' => mapE_congr fun j hj => ?_
      have hj' := hidx j hj
      obtain ⟨nj, hnj⟩ := getAt_ok (l := o.sizes.set i u.2) (c := j) (i := j) (by rw [List.length_set]; exact hj')
      obtain ⟨cpj, hcpj⟩ := getAt_ok (l := o.CP) (c := j) (i := j) (by rw [h.cp]; exact hj')
      obtain ⟨vj, hvj⟩ := getAt_ok (l := o.centers.set i u.1) (c := j) (i := j) (by rw [List.length_set, h.cs]; exact hj')
      obtain ⟨vi, hvi⟩ := getAt_ok (l := o.centers.set i u.1) (c := i') (i := i') (by rw [List.length_set, h.cs]; exact hidx i' hi')
      obtain ⟨gj, hgj⟩ := getAt_ok (l := o.g) (c := j) (i := j) (by rw [h.g]; exact hj')
      simp only [V0.SIL.loopEntry, hnj, hcpj, hvj, hvi, hgj, getAt_map Nm.val, except_bind_ok, G]
    rw [hE]
    generalize hM : (mapE (fun i' : ℕ => mapE (fun j : ℕ => getAt2 o.sij (i' : ℤ) (j : ℤ) >>= G i' j) (List.range o.sizes.length))
        (List.range o.sizes.length) >>= fun es => Except.ok (⟨o.sij.cols, List.zipWith (fun e r => e ++ r.drop o.sizes.length) es
          (o.sij.rows.take o.sizes.length) ++ o.sij.rows.drop o.sizes.length⟩ : Arr2)) = M
    rw [hM] at hd
    cases M with
    | error e =>
      obtain ⟨s', rfl⟩ := hd
      refine ⟨rfl, fun d hxd hU => ?_⟩
      exfalso
      have hok : ∀ i' ∈ List.range o.sizes.length, ∀ j ∈ List.range o.sizes.length, ∃ y, (getAt2 o.sij (i' : ℤ) (j : ℤ) >>= G i' j) = .ok y := by
        intro i' hi' j hj
        have hj' := hidx j hj
        obtain ⟨nj, hnj⟩ := getAt_ok (l := o.sizes.set i u.2) (c := j) (i := j) (by rw [List.length_set]; exact hj')
        obtain ⟨cpj, hcpj⟩ := getAt_ok (l := o.CP) (c := j) (i := j) (by rw [h.cp]; exact hj')
        obtain ⟨vj, hvj', hvj⟩ := getAt_isOk (l := o.centers.set i u.1) (c := j) (i := j) (by rw [List.length_set, h.cs]; exact hj')
        obtain ⟨vi, hvi', hvi⟩ := getAt_isOk (l := o.centers.set i u.1) (c := i') (i := i') (by rw [List.length_set, h.cs]; exact hidx i' hi')
        obtain ⟨gj, hgj⟩ := getAt_ok (l := o.g) (c := j) (i := j) (by rw [h.g]; exact hj')
        rw [List.mem_range] at hi' hj
        have h1 : i' < o.sij.rows.length := lt_of_lt_of_le hi' h.rows
        have h2 : j < (o.sij.rows[i']).length := lt_of_lt_of_le hj (h.row _ (List.getElem_mem h1))
        simp only [getAt2, getAt_nat h1, except_bind_ok, getAt_nat h2, G, hnj, hcpj, hvj, hvi, hgj]
        exact sijNew_ok hxd (hcen d hxd hU _ (List.mem_of_getElem? hvj')) (hcen d hxd hU _ (List.mem_of_getElem? hvi')) (hU.1 gj) _ _ _ _ _ _
      obtain ⟨es, hes⟩ := mapE_all fun i' hi' => mapE_all (hok i' hi')
      rw [hes] at hM
      cases hM
    | ok m =>
      obtain ⟨L', s', rfl, k1, k2, rfl⟩ := hd
      simp -implicitDefEqProofs only [oldrun, k1, k2, callMethod, iSIL.cp_update, hw, hr, setAt_isOk _ hip, getAt_map Nm.val, List.length_set,
        setAt_isOk (l := o.CP.map Nm.val) _ (by rw [List.length_map]; exact hip)]
      obtain ⟨hm1, hm2⟩ := loop_size h.rows h.row hM
      clear hR hE hM hidx G
      have hup : ∀ y, addInPlace (o.heap r) x = .ok y → ∀ d, x.length = d → Uni d o → ∀ a, (Function.update o.heap r y a).length = d := by
        intro y hy d hxd hU a
        by_cases ha : a = r
        · subst ha
          obtain ⟨y', h1, h2⟩ := addInPlace_len (hU.1 a) hxd
          rw [hy] at h1
          cases h1
          simpa using h2
        · rw [Function.update_of_ne ha]; exact hU.1 a
      refine simS_bind (fun _ he d hxd hU => ?_) fun y hy => ?_
      · obtain ⟨y, h1, -⟩ := addInPlace_len (hU.1 r) hxd
        rw [h1] at he
        cases he
      have hk0 : o.centers.length ≠ 0 := by rw [h.cs]; omega
      have h1 : XR.fin 1 / XR.fin (o.centers.length : ℝ) = .fin (1 / (o.centers.length : ℝ)) := XR.fin_div_of_ne _ (Nat.cast_ne_zero.2 hk0)
      simp -implicitDefEqProofs only [oldrun, List.length_set, div_nat hk0, h1, Int.cast_one, sci_eq]
      rw [mapE_post (e := PV.npf) _ (fun j => rfl)]
      simp -implicitDefEqProofs only [oldrun]
      simp only [abs, List.map_set, Nm.val_flt]
      refine simS_bind (fun _ _ d hxd hU => ⟨?_, ?_, hup y hy d hxd hU, hcen d hxd hU⟩) fun es _ => ?_
      · simp only [abs, List.map_set, Nm.val_flt]; rfl
      · exact ⟨by simp [h.cs], by simp [h.cp], by simp [h.g], hne, by simpa using h.b, by simpa using hm1, by simpa using hm2⟩
      have hv : ((Nm.flt false (XR.fin (1 / (o.centers.length : ℝ)))).mul (pySum (es.map (Nm.flt true)))).val =
          .fin (1 / (o.centers.length : ℝ)) * es.sum := by
        have h2 := pySum_val (es.map (Nm.flt true))
        rw [List.map_map] at h2
        have h3 : (Nm.val ∘ Nm.flt true) = id := rfl
        rw [h3, List.map_id] at h2
        rw [← h2]
        cases pySum (es.map (Nm.flt true)) <;> rfl
      refine ⟨⟨⟨_, rfl, hv⟩, ?_, ?_⟩, fun d hxd hU => ⟨hup y hy d hxd hU, hcen d hxd hU⟩⟩
      · simp only [abs, hv, List.map_set, Nm.val_flt]; rfl
      · exact ⟨by simp [h.cs], by simp [h.cp], by simp [h.g], hne, by simpa using h.b, by simpa using hm1, by simpa using hm2⟩

theorem Good.cur {o : SILo} (h : o.Good) (b : ℕ) : Good { o with cur := b } := ⟨h.cs, h.cp, h.g, h.ne, h.b, h.rows, h.row⟩

theorem run_sim (b : ℕ) (c : ℤ) (o : SILo) (h : o.Good) : SimS (Ret o) (Exc o) (run b c o) (V0.SIL.update b c o.abs) := by
  rw [model_eq]
  unfold run callMethod
  rw [update_eq]
  by_cases hc : c = o.sizes.length
  · rw [if_pos (show c = o.abs.sizes.length from hc)]
    simp -implicitDefEqProofs only [first, iSIL.update, oldrun, hc, decide_true]
    rw [← hc]
    let o' : SILo := ⟨o.heap, b, o.sc ++ [.int false 0], V0.pad o.b .pinf, o.output, o.N, o.centers ++ [o.heap b], o.sizes ++ [1],
      o.CP ++ [.flt true (V0.norm22 (o.heap b))], o.g ++ [b], V0.pad (V0.pad o.b .pinf) 0⟩
    have hb := h.b.pad .pinf
    have hs := hb.pad 0
    have h' : o'.Good := by
      refine ⟨by simp [o', h.cs], by simp [o', h.cp], by simp [o', h.g], ?_, by simpa [o'] using hb, ?_, ?_⟩
      · intro n hn
        rcases List.mem_append.1 hn with hn | hn
        · exact h.ne n hn
        · simp only [List.mem_singleton] at hn; omega
      · simp only [o', List.length_append, List.length_singleton, hs.len]; omega
      · intro r hr
        simp only [o', List.length_append, List.length_singleton, hs.row r hr]; omega
    have ht := tail_sim (o.heap b) c ((Locals.empty.put .c_i (.int c)).put .x (.vec (o.heap b))) (by simp only [oldrun]) (by simp only [oldrun]) o' h'
    have hU' : ∀ d, Uni d o → Uni d o' := by
      intro d hU
      refine ⟨hU.1, fun v hv => ?_⟩
      rcases List.mem_append.1 hv with hv | hv
      · exact hU.2 v hv
      · rw [List.mem_singleton.1 hv]; exact hU.1 b
    have h0 : (XR.fin ((0 : ℤ) : ℝ)) = 0 := by rw [Int.cast_zero]; rfl
    have ha : o'.abs = { o.abs with
        centers := o.abs.centers ++ [o.heap b], sizes := o.abs.sizes ++ [1], sc := o.abs.sc ++ [0]
        b := V0.pad o.abs.b .pinf, sij := V0.pad (V0.pad o.abs.b .pinf) 0
        CP := o.abs.CP ++ [V0.norm22 (o.heap b)], g := o.abs.g ++ [b] } := by
      simp only [abs, o', List.map_append, List.map_cons, List.map_nil, Nm.val_int, Nm.val_flt, h0]
    rw [ha] at ht
    rw [h0]
    refine simS_mono (fun v o'' y s hR => ⟨hR.1, fun d hU => hR.2 d (hU.1 b) (hU' d hU)⟩) (fun o'' s hE d hU => hE d (hU.1 b) (hU' d hU)) ht
  · rw [if_neg (show ¬ c = o.abs.sizes.length from hc)]
    by_cases hgt : (o.sizes.length : ℤ) < c
    · rw [if_pos (show c > o.abs.sizes.length from hgt)]
      simp -implicitDefEqProofs only [first, iSIL.update, oldrun, hc, hgt, decide_true, decide_false]
      exact ⟨rfl, fun d hU => ⟨rfl, h.cur b, hU⟩⟩
    · rw [if_neg (show ¬ c > o.abs.sizes.length from hgt)]
      simp -implicitDefEqProofs only [first, iSIL.update, oldrun, hc, hgt, decide_true, decide_false]
      exact simS_mono (fun v o'' y s hR => ⟨hR.1, fun d hU => hR.2 d (hU.1 b) hU⟩) (fun o'' s hE d hU => hE d (hU.1 b) hU)
        (tail_sim (o.heap b) c _ (by simp only [oldrun]) (by simp only [oldrun]) _ (h.cur b))
end

end SILo
end Verif.Old
