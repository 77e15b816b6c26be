import Verif.Old.Sim

/-! # The text of `iCH` does what `Verif/Compat/V0.lean` says -/

set_option linter.unusedSectionVars false
set_option linter.constructorNameAsVariable false
set_option linter.unusedSimpArgs false

namespace Verif.Old
open V0

/-- The attributes of an `iCH` object, with the kinds of their numbers.  `data_center` is the int 0 (`none`) or an array. -/
structure CHo where
  clusters : List Unit
  WGSS : Nm
  WGSSi : List Nm
  BGSS : Nm
  BGSSi : List Nm
  output : Nm
  dataCenter : Option Vec
  N : ℕ
  centers : List Vec
  sizes : List ℕ
  g : Option Vec

namespace CHo

/-- The object of the model. -/
noncomputable def abs (o : CHo) : V0.CH where
  clusters := o.clusters
  WGSS := o.WGSS.val
  WGSSi := o.WGSSi.map Nm.val
  BGSS := o.BGSS.val
  BGSSi := o.BGSSi.map Nm.val
  output := o.output.val
  dataCenter := o.dataCenter
  N := o.N
  centers := o.centers
  sizes := o.sizes
  g := o.g

/-- The int 0 or an array. -/
def zeroVec : Option Vec → PV
  | Option.none => .num (.int false 0)
  | some v => .vec v

/-- The int 0 or an array is assigned. -/
def setZeroVec (v : PV) (k : Option Vec → CHo) : Except PyErr CHo :=
  match v with
  | .num (.int false 0) => .ok (k Option.none)
  | .vec v => .ok (k (some v))
  | _ => stuck

/-- An empty list is assigned. -/
def setEmpty (v : PV) (k : List Unit → CHo) : Except PyErr CHo :=
  match v with
  | .list [] => .ok (k [])
  | _ => stuck

/-- Read an attribute. -/
def get (a : Attr) (o : CHo) : Except PyErr PV :=
  match a with
  | .clusters => .ok (.list (o.clusters.map fun _ => .none))
  | .WGSS => .ok (.num o.WGSS)
  | .WGSS_i => .ok (.list (o.WGSSi.map .num))
  | .BGSS => .ok (.num o.BGSS)
  | .BGSS_i => .ok (.list (o.BGSSi.map .num))
  | .output => .ok (.num o.output)
  | .data_center => .ok (zeroVec o.dataCenter)
  | .N => .ok (.num (.int false o.N))
  | .cluster_centers => .ok (.list (o.centers.map .vec))
  | .cluster_sizes => .ok (.list (o.sizes.map natV))
  | .g => .ok (gArg o.g)
  | _ => .error .attributeError

/-- Assign an attribute. -/
def set (a : Attr) (v : PV) (o : CHo) : Except PyErr CHo :=
  match a with
  | .clusters => setEmpty v fun l => { o with clusters := l }
  | .WGSS => setNum v fun n => { o with WGSS := n }
  | .WGSS_i => setNums v fun l => { o with WGSSi := l }
  | .BGSS => setNum v fun n => { o with BGSS := n }
  | .BGSS_i => setNums v fun l => { o with BGSSi := l }
  | .output => setNum v fun n => { o with output := n }
  | .data_center => setZeroVec v fun w => { o with dataCenter := w }
  | .N => setNat v fun n => { o with N := n }
  | .cluster_centers => setVecs v fun l => { o with centers := l }
  | .cluster_sizes => setNats v fun l => { o with sizes := l }
  | .g => setOpt v fun w => { o with g := w }
  | _ => stuck

/-- What holds of every object: the lists have one entry per cluster (`clusters` stays empty). -/
structure Good (o : CHo) : Prop where
  cl : o.clusters = []
  ws : o.WGSSi.length = o.sizes.length
  bs : o.BGSSi.length = o.sizes.length
  cs : o.centers.length = o.sizes.length

/-- The object as the interpreter sees it. -/
noncomputable def host : Host CHo := stdHost get set

/-- `iCH()` -/
noncomputable def runInit : Py CHo PV := callMethod host iCH.init [] []

/-- `o.update(x, c)` -/
noncomputable def run (x : Vec) (c : ℤ) : Py CHo PV := callMethod host iCH.update [.vec x, .int c] []

/-- A returned number, and the object. -/
def Rel (v : PV) (o : CHo) (y : XR) (s : V0.CH) : Prop := (∃ n : Nm, v = .num n ∧ n.val = y) ∧ o.abs = s ∧ o.Good

/-- After a call that raised. -/
def Exc (o : CHo) (s : V0.CH) : Prop := o.abs = s ∧ o.Good

section
attribute [local congr] andThen_head bind_head ebind_head cond_head

@[local oldrun] theorem host_eq : host = stdHost get set := rfl
@[local oldrun] theorem zero_none : zeroVec Option.none = .num (.int false 0) := rfl
@[local oldrun] theorem zero_some (v) : zeroVec (some v) = .vec v := rfl
@[local oldrun] theorem setZero_zero (k) : setZeroVec (.num (.int false 0)) k = .ok (k Option.none) := rfl
@[local oldrun] theorem setZero_vec (v k) : setZeroVec (.vec v) k = .ok (k (some v)) := rfl
@[local oldrun] theorem setEmpty_nil (k) : setEmpty (.list []) k = .ok (k []) := rfl
attribute [local oldrun] get set

theorem init_eq (o : CHo) : ∃ o', runInit o = .ok .none o' ∧ o'.abs = V0.CH.init ∧ o'.Good := by
  refine ⟨⟨[], .int false 0, [], .int false 0, [], .int false 0, Option.none, 0, [], [], Option.none⟩, ?_, ?_, ?_⟩
  · simp -implicitDefEqProofs only [runInit, callMethod, iCH.init, oldrun]
  · simp only [abs, V0.CH.init, Nm.val, Int.cast_zero, List.map_nil]; rfl
  · exact ⟨rfl, rfl, rfl, rfl⟩

/-- `self.N += 1` -/
def first : Stmt :=
  match iCH.update.body with
  | .cons s _ => s
  | _ => .assert .none
/-- The assignment of `data_center`. -/
def second : Stmt :=
  match iCH.update.body with
  | .cons _ (.cons s _) => s
  | _ => .assert .none
/-- The `if` statement. -/
def third : Stmt :=
  match iCH.update.body with
  | .cons _ (.cons _ (.cons s _)) => s
  | _ => .assert .none
/-- The rest of `update`, from `self.BGSS -= self.BGSS_i[c_i]` on. -/
def tail : Block :=
  match iCH.update.body with
  | .cons _ (.cons _ (.cons _ b)) => b
  | _ => .nil

theorem update_eq : iCH.update = ⟨[(.x, Option.none), (.c_i, Option.none)], .cons first (.cons second (.cons third tail))⟩ := rfl

/-- The model's data center. -/
noncomputable def mfirst (x : Vec) : Py V0.CH Vec := do
  Py.modify fun s => { s with N := s.N + 1 }
  let s ← Py.get
  let t ← Py.lift (scaleAdd ((s.N : ℝ) - 1) s.dataCenter x)
  let dc := vdiv t (.fin s.N)
  Py.modify fun s => { s with dataCenter := some dc }
  pure dc

/-- The model's `if`. -/
noncomputable def mhead (x : Vec) (c : ℤ) : Py V0.CH Unit := do
  let s ← Py.get
  (if c = s.clusters.length then
    Py.modify fun s => { s with
      centers := s.centers ++ [x], sizes := s.sizes ++ [1], WGSSi := s.WGSSi ++ [0], BGSSi := s.BGSSi ++ [0] }
  else if c > s.sizes.length then Py.raise .valueError
  else do
    let w ← Py.lift (getAt s.WGSSi c)
    Py.modify fun s => { s with WGSS := s.WGSS - w }
    let v ← Py.lift (getAt s.centers c)
    let n ← Py.lift (getAt s.sizes c)
    let u ← Py.lift (cpUpdate x v n s.g w 2 2)
    let ws ← Py.lift (setAt s.WGSSi c u.cp)
    Py.modify fun s => { s with WGSSi := ws, g := some u.g }
    let cs ← Py.lift (setAt s.centers c u.v)
    Py.modify fun s => { s with centers := cs }
    let ns ← Py.lift (setAt s.sizes c u.n)
    Py.modify fun s => { s with sizes := ns }
    Py.modify fun s => { s with WGSS := s.WGSS + u.cp })

/-- The rest of the model's `update`. -/
noncomputable def mtail (c : ℤ) (dc : Vec) : Py V0.CH XR := do
  let s ← Py.get
  let b ← Py.lift (getAt s.BGSSi c)
  Py.modify fun s => { s with BGSS := s.BGSS - b }
  let n ← Py.lift (getAt s.sizes c)
  let v ← Py.lift (getAt s.centers c)
  let e ← Py.lift (Vec.sub v dc)
  let bn := XR.fin n * V0.norm22 e
  let bs ← Py.lift (setAt s.BGSSi c bn)
  Py.modify fun s => { s with BGSSi := bs, BGSS := s.BGSS + bn }
  let s ← Py.get
  (if s.centers.length > 1 ∧ (s.N : ℤ) - s.centers.length > 0 then
    Py.modify fun s => { s with output :=
      (s.BGSS / .fin ((s.centers.length : ℝ) - 1)) / (s.WGSS / .fin ((s.N : ℝ) - s.centers.length)) }
  else Py.modify fun s => { s with output := 0 })
  let s ← Py.get
  pure s.output

theorem model_eq (x : Vec) (c : ℤ) (s : V0.CH) :
    V0.CH.update x c s = (mfirst x s).bind fun dc s' => (mhead x c s').bind fun _ s' => mtail c dc s' := by
  simp only [V0.CH.update, mfirst, mhead, mtail, oldrun]

theorem exec_first (L : Locals) (o : CHo) : exec host first L o = .ok (L, .next) { o with N := o.N + 1 } := by
  simp -implicitDefEqProofs only [first, iCH.update, oldrun]

theorem exec_second (L : Locals) (x : Vec) (hL : L.get .x = .ok (.vec x)) (o : CHo) :
    exec host second L o = andThen (scaleAdd ((o.N : ℝ) - 1) o.dataCenter x) o fun t =>
      .ok (L, .next) { o with dataCenter := some (vdiv t (.fin o.N)) } := by
  cases hd : o.dataCenter with
  | none =>
    simp -implicitDefEqProofs only [second, iCH.update, oldrun, hL, hd, scaleAdd, mul_zero]
    have h0 : (x.map fun y => XR.fin ((0 : ℤ) : ℝ) + y) = x := by
      conv_rhs => rw [← List.map_id x]
      refine List.map_congr_left fun y _ => ?_
      rw [Int.cast_zero]
      exact zero_add y
    rw [h0, Int.cast_natCast]
  | some v =>
    simp -implicitDefEqProofs only [second, iCH.update, oldrun, hL, hd, scaleAdd, Int.cast_sub, Int.cast_natCast, Int.cast_one]

theorem tail_sim (c : ℤ) (L : Locals) (hL : L.get .c_i = .ok (.int c)) (dc : Vec) (o : CHo) (h : o.Good) (hd : o.dataCenter = some dc) {i : ℕ}
    (hi : pyIdx o.sizes.length c = some i) :
    SimS Rel Exc ((execBlock host tail L o).bind fun r s' => match r.2 with | .ret v => .ok v s' | .next => .ok .none s')
      (mtail c dc o.abs) := by
  have hib : pyIdx o.BGSSi.length c = some i := h.bs ▸ hi
  obtain ⟨b, hb⟩ := getAt_ok hib
  obtain ⟨v, hv⟩ := getAt_ok (h.cs ▸ hi : pyIdx o.centers.length c = some i)
  obtain ⟨n, hn⟩ := getAt_ok hi
  simp -implicitDefEqProofs only [tail, iCH.update, mtail, oldrun, hL, hb, hv, hn, hd, abs, getAt_map Nm.val]
  refine simS_bind (fun _ _ => ⟨by simp only [abs, hd, Nm.val_sub], h.cl, h.ws, h.bs, h.cs⟩) fun e _ => ?_
  simp -implicitDefEqProofs only [oldrun, hL, setAt_isOk _ hib, getAt_set hib,
    setAt_isOk (l := o.BGSSi.map Nm.val) _ (by rw [List.length_map]; exact hib)]
  have hdl : ∀ (y : XR) (k : Nm), (Nm.flt true y).div k = .ok (.flt true (y / k.val)) := by
    intro y k
    simp [Nm.div, Nm.np, Nm.val]
  by_cases h1 : o.centers.length > 1
  · by_cases h2 : (o.N : ℤ) - o.centers.length > 0
    · have h1' : (1 : ℤ) < o.centers.length := by exact_mod_cast h1
      have h2' : (0 : ℤ) < (o.N : ℤ) - o.centers.length := h2
      have hdw : o.WGSS.div (.int false ((o.N : ℤ) - o.centers.length)) =
          .ok (.flt o.WGSS.np (o.WGSS.val / .fin ((o.N : ℝ) - o.centers.length))) := by
        rw [div_ok (Or.inr (by simp only [Nm.val, ne_eq, XR.fin.injEq]; exact_mod_cast h2'.ne'))]
        simp [Nm.val, Nm.np]
      simp -implicitDefEqProofs only [oldrun, h1, h1', h2, h2', and_self, decide_true, hdl, hdw, gt_iff_lt]
      refine ⟨⟨_, rfl, ?_⟩, ?_, ⟨h.cl, h.ws, by rw [List.length_set]; exact h.bs, h.cs⟩⟩
      · simp only [Nm.val_sub, Nm.val_flt, Int.cast_natCast, Int.cast_sub, Int.cast_one]
      · simp only [abs, List.map_set, Nm.val_sub, Nm.val_flt, Int.cast_natCast, Int.cast_sub, Int.cast_one]
    · have h1' : (1 : ℤ) < o.centers.length := by exact_mod_cast h1
      have h2' : ¬ (0 : ℤ) < (o.N : ℤ) - o.centers.length := h2
      simp -implicitDefEqProofs only [oldrun, h1, h1', h2, h2', and_false, decide_false, gt_iff_lt]
      refine ⟨⟨_, rfl, ?_⟩, ?_, ⟨h.cl, h.ws, by rw [List.length_set]; exact h.bs, h.cs⟩⟩
      · simp only [Nm.val, Int.cast_zero]; rfl
      · simp only [abs, List.map_set, Nm.val_sub, Nm.val_flt, Nm.val_int, Int.cast_natCast, Int.cast_zero]; rfl
  · have h1' : ¬ (1 : ℤ) < o.centers.length := by exact_mod_cast h1
    simp -implicitDefEqProofs only [oldrun, h1, h1', false_and, decide_false, gt_iff_lt]
    refine ⟨⟨_, rfl, ?_⟩, ?_, ⟨h.cl, h.ws, by rw [List.length_set]; exact h.bs, h.cs⟩⟩
    · simp only [Nm.val, Int.cast_zero]; rfl
    · simp only [abs, List.map_set, Nm.val_sub, Nm.val_flt, Nm.val_int, Int.cast_natCast, Int.cast_zero]; rfl

theorem run_sim (x : Vec) (c : ℤ) (o : CHo) (h : o.Good) : SimS Rel Exc (run x c o) (V0.CH.update x c o.abs) := by
  rw [model_eq]
  have hr : run x c o = (exec host second ((Locals.empty.put .c_i (.int c)).put .x (.vec x)) { o with N := o.N + 1 }).bind
      fun r s' => match r.2 with
        | .next => (exec host third r.1 s').bind fun r s' => match r.2 with
          | .next => (execBlock host tail r.1 s').bind fun r s' => match r.2 with | .ret v => .ok v s' | .next => .ok .none s'
          | .ret v => .ok v s'
        | .ret v => .ok v s' := by
    unfold run callMethod
    rw [update_eq]
    simp -implicitDefEqProofs only [bindParams, except_bind_ok, andThen_ok, execBlock, exec_first, Res.bind_ok, bind_bind]
    congr 1
    funext r s'
    rcases r with ⟨L, _ | v⟩
    · simp only [bind_bind]
      congr 1
      funext r s'
      rcases r with ⟨L, _ | v⟩ <;> rfl
    · rfl
  rw [hr, exec_second _ x (by simp only [oldrun])]
  clear hr
  have hdc : mfirst x o.abs = andThen (scaleAdd (((o.N + 1 : ℕ) : ℝ) - 1) o.dataCenter x) { o with N := o.N + 1 }.abs fun t =>
      .ok (vdiv t (.fin (o.N + 1 : ℕ))) { o with N := o.N + 1, dataCenter := some (vdiv t (.fin (o.N + 1 : ℕ))) }.abs := by
    simp -implicitDefEqProofs only [mfirst, oldrun, abs]
  rw [hdc]
  simp -implicitDefEqProofs only [andThen_andThen]
  refine simS_bind (fun _ _ => ⟨rfl, h.cl, h.ws, h.bs, h.cs⟩) fun t _ => ?_
  simp -implicitDefEqProofs only [Res.bind_ok]
  generalize hdc' : vdiv t (.fin (o.N + 1 : ℕ)) = dc
  have hcl : o.clusters = [] := h.cl
  by_cases hc : c = 0
  · have ht := tail_sim c ((Locals.empty.put .c_i (.int c)).put .x (.vec x)) (by simp only [oldrun]) dc
      { o with N := o.N + 1, dataCenter := some dc, centers := o.centers ++ [x], sizes := o.sizes ++ [1],
               WGSSi := o.WGSSi ++ [.int false 0], BGSSi := o.BGSSi ++ [.int false 0] }
      ⟨h.cl, by simp [h.ws], by simp [h.bs], by simp [h.cs]⟩ rfl (i := 0)
      (by rw [List.length_append, hc]; simp [pyIdx])
    simp -implicitDefEqProofs only [third, iCH.update, mhead, oldrun, hc, hcl, List.length_nil, decide_true, abs, List.map_append,
      List.map_cons, List.map_nil, Int.cast_zero] at ht ⊢
    exact ht
  · by_cases hgt : (o.sizes.length : ℤ) < c
    · simp -implicitDefEqProofs only [third, iCH.update, mhead, oldrun, hc, hgt, hcl, List.map_nil, List.length_nil, decide_true, decide_false, abs, gt_iff_lt]
      exact ⟨rfl, by simp only [abs, hcl, List.map_nil], rfl, h.ws, h.bs, h.cs⟩
    · cases hi : pyIdx o.sizes.length c with
      | none =>
        have hw : getAt o.WGSSi c = .error .indexError := getAt_err (h.ws ▸ hi)
        simp -implicitDefEqProofs only [third, iCH.update, mhead, oldrun, hc, hgt, hcl, List.map_nil, List.length_nil, decide_true, decide_false, abs, gt_iff_lt,
          hw, getAt_map Nm.val]
        exact ⟨rfl, by simp only [abs, hcl, List.map_nil], rfl, h.ws, h.bs, h.cs⟩
      | some i =>
        have hiw : pyIdx o.WGSSi.length c = some i := h.ws ▸ hi
        have hic : pyIdx o.centers.length c = some i := h.cs ▸ hi
        obtain ⟨w, hw⟩ := getAt_ok hiw
        obtain ⟨v, hv⟩ := getAt_ok hic
        obtain ⟨n, hn⟩ := getAt_ok hi
        simp -implicitDefEqProofs only [third, iCH.update, mhead, oldrun, hc, hgt, hcl, List.map_nil, List.length_nil, decide_true, decide_false, abs, gt_iff_lt,
          hw, hv, hn, getAt_map Nm.val, cp_eq x v n o.g w [] (Or.inl ⟨rfl, rfl, rfl⟩)]
        refine simS_bind (fun _ _ => ⟨by simp only [abs, hcl, List.map_nil, Nm.val_sub], rfl, h.ws, h.bs, h.cs⟩) fun u _ => ?_
        have ht := tail_sim c ((Locals.empty.put .c_i (.int c)).put .x (.vec x)) (by simp only [oldrun]) dc
          { o with N := o.N + 1, dataCenter := some dc, WGSS := (o.WGSS.sub w).add (.flt true u.cp), WGSSi := o.WGSSi.set i (.flt true u.cp), g := some u.g,
                   centers := o.centers.set i u.v, sizes := o.sizes.set i u.n }
          ⟨h.cl, by simp [h.ws], by simp [h.bs], by simp [h.cs]⟩ rfl (i := i)
          (by rw [List.length_set]; exact hi)
        simp -implicitDefEqProofs only [oldrun, hcl, setAt_isOk _ hiw, setAt_isOk _ hic, setAt_isOk _ hi, getAt_set hiw,
          setAt_isOk (l := o.WGSSi.map Nm.val) _ (by rw [List.length_map]; exact hiw), abs, List.map_set, Nm.val_sub, Nm.val_add] at ht ⊢
        exact ht
end

end CHo
end Verif.Old
