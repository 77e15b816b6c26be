import Verif.Old.Sim

/-! # The text of `iXB` does what `Verif/Compat/V0.lean` says -/

set_option linter.unusedSectionVars false
set_option linter.constructorNameAsVariable false
set_option linter.unusedSimpArgs false

namespace Verif.Old
open V0

/-- As `Does`, with a condition on the object after an exception. -/
def DoesE {σ β : Type} (r : Res σ (Locals × Flow)) (Inv : Locals → σ → β → Prop) (E : σ → Prop) : Except PyErr β → Prop
  | .ok b => ∃ L s, r = .ok (L, .next) s ∧ Inv L s b
  | .error e => ∃ s, r = .err e s ∧ E s

theorem loop_runE {σ β ι : Type} {y : Var} {body : Locals → σ → Res σ (Locals × Flow)} {enc : ι → PV} {l : List ι} {L : Locals} {s : σ}
    {r : Res σ (Locals × Flow)} (hr : runLoop y body (l.map enc) L s = r) {f : ι → β → Except PyErr β}
    {Inv : Locals → σ → β → Prop} {E : σ → Prop} {b : β} (h0 : Inv L s b)
    (step : ∀ L s b j, j ∈ l → Inv L s b → DoesE (body (L.put y (enc j)) s) Inv E (f j b)) : DoesE r Inv E (foldE f l b) := by
  subst hr
  induction l generalizing L s b with
  | nil => exact ⟨L, s, rfl, h0⟩
  | cons j l ih =>
    have h1 := step L s b j List.mem_cons_self h0
    simp only [foldE, List.map_cons, runLoop]
    cases hf : f j b with
    | error e =>
      rw [hf] at h1
      obtain ⟨s', h1, h2⟩ := h1
      exact ⟨s', by rw [h1]; rfl, h2⟩
    | ok b' =>
      rw [hf] at h1
      obtain ⟨L', s', h1, h2⟩ := h1
      rw [h1]
      exact ih h2 fun L s b j hj => step L s b j (List.mem_cons_of_mem _ hj)

/-- The attributes of an `iXB` object, with the kinds of their numbers. -/
structure XBo where
  minV : Nm
  minVi : List Nm
  N : ℕ
  WGSS : Nm
  WGSSi : List Nm
  output : Nm
  centers : List Vec
  sizes : List ℕ
  g : Option Vec

namespace XBo

/-- The object of the model. -/
noncomputable def abs (o : XBo) : V0.XB where
  minV := o.minV.val
  minVi := o.minVi.map Nm.val
  N := o.N
  WGSS := o.WGSS.val
  WGSSi := o.WGSSi.map Nm.val
  output := o.output.val
  centers := o.centers
  sizes := o.sizes
  g := o.g

/-- Read an attribute. -/
def get (a : Attr) (o : XBo) : Except PyErr PV :=
  match a with
  | .min_v => .ok (.num o.minV)
  | .min_v_i => .ok (.list (o.minVi.map .num))
  | .N => .ok (.num (.int false o.N))
  | .WGSS => .ok (.num o.WGSS)
  | .WGSS_i => .ok (.list (o.WGSSi.map .num))
  | .output => .ok (.num o.output)
  | .cluster_centers => .ok (.list (o.centers.map .vec))
  | .cluster_sizes => .ok (.list (o.sizes.map natV))
  | .g => .ok (gArg o.g)
  | _ => .error .attributeError

/-- Assign an attribute. -/
def set (a : Attr) (v : PV) (o : XBo) : Except PyErr XBo :=
  match a with
  | .min_v => setNum v fun n => { o with minV := n }
  | .min_v_i => setNums v fun l => { o with minVi := l }
  | .N => setNat v fun n => { o with N := n }
  | .WGSS => setNum v fun n => { o with WGSS := n }
  | .WGSS_i => setNums v fun l => { o with WGSSi := l }
  | .output => setNum v fun n => { o with output := n }
  | .cluster_centers => setVecs v fun l => { o with centers := l }
  | .cluster_sizes => setNats v fun l => { o with sizes := l }
  | .g => setOpt v fun w => { o with g := w }
  | _ => stuck

/-- What holds of every object: the lists have one entry per cluster, and `min_v` is a numpy float or not zero. -/
structure Good (o : XBo) : Prop where
  ws : o.WGSSi.length = o.sizes.length
  ms : o.minVi.length = o.sizes.length
  cs : o.centers.length = o.sizes.length
  mv : o.minV.np = true ∨ o.minV.val ≠ .fin 0

/-- The object as the interpreter sees it. -/
noncomputable def host : Host XBo := stdHost get set

/-- `iXB()` -/
noncomputable def runInit : Py XBo PV := callMethod host iXB.init [] []

/-- `o.update(x, c)` -/
noncomputable def run (x : Vec) (c : ℤ) : Py XBo PV := callMethod host iXB.update [.vec x, .int c] []

/-- The object, but for the entries of `min_v_i`, which are set to infinity before they are read.  (An exception in the loop leaves them half
computed.) -/
def Near (o : XBo) (s : V0.XB) : Prop := o.Good ∧ ∃ m : List XR, m.length = o.sizes.length ∧ s = { o.abs with minVi := m }

/-- A returned number, and the object. -/
def Rel (v : PV) (o : XBo) (y : XR) (s : V0.XB) : Prop := (∃ n : Nm, v = .num n ∧ n.val = y) ∧ Near o s

section
attribute [local congr] andThen_head bind_head ebind_head cond_head

@[local oldrun] theorem host_eq : host = stdHost get set := rfl
attribute [local oldrun] get set

theorem init_eq (o : XBo) : ∃ o', runInit o = .ok .none o' ∧ o'.abs = V0.XB.init ∧ o'.Good := by
  refine ⟨⟨.flt false .pinf, [], 0, .int false 0, [], .int false 0, [], [], Option.none⟩, ?_, ?_, ?_⟩
  · simp -implicitDefEqProofs only [runInit, callMethod, iXB.init, oldrun]
  · simp only [abs, V0.XB.init, Nm.val, Int.cast_zero, List.map_nil]; rfl
  · exact ⟨rfl, rfl, rfl, Or.inr (by simp [Nm.val])⟩

theorem init_near (o : XBo) : ∃ o', runInit o = .ok .none o' ∧ Near o' V0.XB.init := by
  obtain ⟨o', h1, h2, h3⟩ := init_eq o
  exact ⟨o', h1, h3, o'.abs.minVi, by simp [abs, h3.ms], h2.symm⟩

theorem val_pyMin_flt (m : Nm) (p : Bool) (y : XR) : (m.pyMin (.flt p y)).val = XR.pyMin m.val y := Nm.val_pyMin _ _

/-- The rest of `update`, from `self.WGSS += self.WGSS_i[c_i]` on. -/
def tail : Block :=
  match iXB.update.body with
  | .cons _ (.cons _ b) => b
  | _ => .nil

/-- The rest of the model's `update`. -/
noncomputable def mtail (c : ℤ) : Py V0.XB XR := do
  let s ← Py.get
  let w ← Py.lift (getAt s.WGSSi c)
  Py.modify fun s => { s with WGSS := s.WGSS + w }
  let m0 ← Py.lift (setAt s.minVi c .pinf)
  Py.modify fun s => { s with minVi := m0 }
  let ds ← Py.lift (sepList s.centers c)
  let mc := ds.foldl XR.min .pinf
  let m1 ← Py.lift (setAt m0 c mc)
  Py.modify fun s => { s with minVi := m1, minV := XR.pyMin s.minV mc }
  Py.modify fun s => { s with output := s.WGSS / .fin s.N / s.minV }
  let s ← Py.get
  pure s.output

theorem tail_sim (c : ℤ) (L : Locals) (hL : L.get .c_i = .ok (.int c)) (o : XBo) (h : o.Good) (hN : o.N ≠ 0) {i : ℕ}
    (hi : pyIdx o.sizes.length c = some i) (m : List XR) (hml : m.length = o.sizes.length) :
    SimS Rel Near ((execBlock host tail L o).bind fun r s' => match r.2 with | .ret v => .ok v s' | .next => .ok .none s')
      (mtail c { o.abs with minVi := m }) := by
  obtain ⟨w, hw⟩ := getAt_ok (h.ws ▸ hi : pyIdx o.WGSSi.length c = some i)
  have him : pyIdx o.minVi.length c = some i := h.ms ▸ hi
  obtain ⟨a, ha⟩ := getAt_ok (h.cs ▸ hi : pyIdx o.centers.length c = some i)
  simp -implicitDefEqProofs only [tail, iXB.update, mtail, oldrun, hL, hw, abs, getAt_map Nm.val, setAt_isOk _ him, setAt_isOk _ (hml.symm ▸ hi : pyIdx m.length c = some i)]
  generalize hr : runLoop _ _ _ _ _ = r
  have hd := loop_runE hr (E := fun s => ∃ p b, s = { o with minVi := o.minVi.set i (.flt p b), WGSS := o.WGSS.add w }) (f := fun j b => bif decide ((j : ℤ) ≠ c) then
      (do
        let a ← getAt o.centers c
        let b ← getAt o.centers j
        let e ← Vec.sub a b
        pure (V0.norm22 e)) >>= fun y => .ok (XR.min b y) else .ok b)
    (Inv := fun L' s b => L'.get .c_i = .ok (.int c) ∧ ∃ p, (p = true ∨ b = .pinf) ∧
      s = { o with minVi := o.minVi.set i (.flt p b), WGSS := o.WGSS.add w })
    (b := .pinf) ⟨hL, false, Or.inr rfl, rfl⟩ (by
      rintro L1 s b j - ⟨h1, p, hp, rfl⟩
      simp -implicitDefEqProofs only [oldrun, h1]
      by_cases hj : (j : ℤ) = c
      · simp -implicitDefEqProofs only [oldrun, hj, decide_true, not_true_eq_false, decide_false]
        exact ⟨_, _, rfl, by rw [get_ne _ _ (by decide)]; exact h1, p, hp, rfl⟩
      · simp -implicitDefEqProofs only [oldrun, hj, decide_false, decide_true, getAt_set him, setAt_set him, ha]
        cases getAt o.centers (j : ℤ) with
        | error e => exact ⟨_, rfl, p, b, rfl⟩
        | ok a' =>
          simp -implicitDefEqProofs only [oldrun]
          cases Vec.sub a a' with
          | error e => exact ⟨_, rfl, p, b, rfl⟩
          | ok d =>
            simp -implicitDefEqProofs only [oldrun]
            exact ⟨_, _, rfl, by rw [get_ne _ _ (by decide)]; exact h1, true, Or.inl rfl, rfl⟩)
  rw [foldE_filter] at hd
  change DoesE r _ _ (sepList o.centers c >>= _) at hd
  cases hs : sepList o.centers c with
  | error e =>
    rw [hs] at hd
    obtain ⟨s', rfl, p, b, rfl⟩ := hd
    refine ⟨rfl, ⟨h.ws, by rw [List.length_set]; exact h.ms, h.cs, h.mv⟩, m.set i .pinf, by simp [hml], ?_⟩
    simp only [abs, Nm.val_add, List.map_set]
  | ok ds =>
    rw [hs] at hd
    obtain ⟨L', s', rfl, h1, p, hp, rfl⟩ := hd
    have hm := val_pyMin_flt o.minV p (ds.foldl XR.min .pinf)
    have hmv : (o.minV.pyMin (.flt p (ds.foldl XR.min .pinf))).np = true ∨ (o.minV.pyMin (.flt p (ds.foldl XR.min .pinf))).val ≠ .fin 0 := by
      unfold Nm.pyMin
      cases Nm.lt (.flt p (ds.foldl XR.min .pinf)) o.minV with
      | false => exact h.mv
      | true =>
        rcases hp with rfl | hp
        · exact Or.inl rfl
        · refine Or.inr ?_
          rw [hp]; simp [Nm.val]
    have hN' : (Nm.int false (o.N : ℤ)).np = true ∨ (Nm.int false (o.N : ℤ)).val ≠ .fin 0 := by
      refine Or.inr ?_
      simp [Nm.val, hN]
    simp -implicitDefEqProofs only [oldrun, h1, getAt_set him, div_ok hN', div_ok hmv, hm, Int.cast_natCast, Nm.val_add,
      setAt_set (hml.symm ▸ hi : pyIdx m.length c = some i)]
    refine ⟨⟨_, rfl, rfl⟩, ⟨h.ws, by rw [List.length_set]; exact h.ms, h.cs, hmv⟩, m.set i (ds.foldl XR.min .pinf), by simp [hml], ?_⟩
    simp only [abs, hm, Nm.val_add, Nm.val_flt, List.map_set]

/-- The statements before it. -/
def first : Stmt :=
  match iXB.update.body with
  | .cons s _ => s
  | _ => .assert .none
/-- The `if` statement. -/
def second : Stmt :=
  match iXB.update.body with
  | .cons _ (.cons s _) => s
  | _ => .assert .none

theorem update_eq : iXB.update = ⟨[(.x, Option.none), (.c_i, Option.none)], .cons first (.cons second tail)⟩ := rfl

/-- The model's `if`. -/
noncomputable def mhead (x : Vec) (c : ℤ) : Py V0.XB Unit := do
  Py.modify fun s => { s with N := s.N + 1 }
  let s ← Py.get
  (if c = s.sizes.length then
    Py.modify fun s => { s with
      centers := s.centers ++ [x], sizes := s.sizes ++ [1], WGSSi := s.WGSSi ++ [0], minVi := s.minVi ++ [.pinf] }
  else if c > s.sizes.length then Py.raise .valueError
  else do
    let w ← Py.lift (getAt s.WGSSi c)
    Py.modify fun s => { s with WGSS := s.WGSS - w }
    let v ← Py.lift (getAt s.centers c)
    let n ← Py.lift (getAt s.sizes c)
    let u ← Py.lift (cpUpdate x v n s.g w 2 2)
    let ws ← Py.lift (setAt s.WGSSi c u.cp)
    Py.modify fun s => { s with WGSSi := ws, g := some u.g }
    let cs ← Py.lift (setAt s.centers c u.v)
    Py.modify fun s => { s with centers := cs }
    let ns ← Py.lift (setAt s.sizes c u.n)
    Py.modify fun s => { s with sizes := ns })

theorem model_eq (x : Vec) (c : ℤ) (s : V0.XB) : V0.XB.update x c s = (mhead x c s).bind fun _ s' => mtail c s' := by
  simp only [V0.XB.update, mhead, mtail, oldrun]

theorem exec_first (L : Locals) (o : XBo) : exec host first L o = .ok (L, .next) { o with N := o.N + 1 } := by
  simp -implicitDefEqProofs only [first, iXB.update, oldrun]

theorem run_sim (x : Vec) (c : ℤ) (o : XBo) (h : o.Good) (m : List XR) (hml : m.length = o.sizes.length) :
    SimS Rel Near (run x c o) (V0.XB.update x c { o.abs with minVi := m }) := by
  rw [model_eq]
  have hr : run x c o = (exec host second ((Locals.empty.put .c_i (.int c)).put .x (.vec x)) { o with N := o.N + 1 }).bind
      fun r s' => match r.2 with
        | .next => (execBlock host tail r.1 s').bind fun r s' => match r.2 with | .ret v => .ok v s' | .next => .ok .none s'
        | .ret v => .ok v s' := by
    unfold run callMethod
    rw [update_eq]
    simp -implicitDefEqProofs only [bindParams, except_bind_ok, andThen_ok, execBlock, exec_first, Res.bind_ok, bind_bind]
    congr 1
    funext r s'
    rcases r with ⟨L, _ | v⟩ <;> rfl
  rw [hr]
  by_cases hc : c = o.sizes.length
  · have ht := tail_sim c ((Locals.empty.put .c_i (.int c)).put .x (.vec x)) (by simp only [oldrun])
      { o with N := o.N + 1, centers := o.centers ++ [x], sizes := o.sizes ++ [1], WGSSi := o.WGSSi ++ [.int false 0],
               minVi := o.minVi ++ [.flt false .pinf] }
      ⟨by simp [h.ws], by simp [h.ms], by simp [h.cs], h.mv⟩ (Nat.succ_ne_zero _) (i := o.sizes.length)
      (by rw [List.length_append]; exact pyIdx_last hc) (m ++ [.pinf]) (by simp [hml])
    simp -implicitDefEqProofs only [second, iXB.update, mhead, oldrun, hc, decide_true, abs, List.map_append,
      List.map_cons, List.map_nil, Int.cast_zero] at ht ⊢
    exact ht
  · by_cases hgt : (o.sizes.length : ℤ) < c
    · simp -implicitDefEqProofs only [second, iXB.update, mhead, oldrun, hc, hgt, decide_true, decide_false, abs, gt_iff_lt]
      exact ⟨rfl, ⟨h.ws, h.ms, h.cs, h.mv⟩, m, hml, rfl⟩
    · cases hi : pyIdx o.sizes.length c with
      | none =>
        have hw : getAt o.WGSSi c = .error .indexError := getAt_err (h.ws ▸ hi)
        simp -implicitDefEqProofs only [second, iXB.update, mhead, oldrun, hc, hgt, decide_true, decide_false, abs, gt_iff_lt,
          hw, getAt_map Nm.val]
        exact ⟨rfl, ⟨h.ws, h.ms, h.cs, h.mv⟩, m, hml, rfl⟩
      | some i =>
        have hiw : pyIdx o.WGSSi.length c = some i := h.ws ▸ hi
        have hic : pyIdx o.centers.length c = some i := h.cs ▸ hi
        obtain ⟨w, hw⟩ := getAt_ok hiw
        obtain ⟨v, hv⟩ := getAt_ok hic
        obtain ⟨n, hn⟩ := getAt_ok hi
        simp -implicitDefEqProofs only [second, iXB.update, mhead, oldrun, hc, hgt, decide_true, decide_false, abs, gt_iff_lt,
          hw, hv, hn, getAt_map Nm.val, cp_eq x v n o.g w [] (Or.inl ⟨rfl, rfl, rfl⟩)]
        refine simS_bind (fun _ _ => ⟨⟨h.ws, h.ms, h.cs, h.mv⟩, m, hml, by simp only [abs, Nm.val_sub]⟩) fun u _ => ?_
        have ht := tail_sim c ((Locals.empty.put .c_i (.int c)).put .x (.vec x)) (by simp only [oldrun])
          { o with N := o.N + 1, WGSS := o.WGSS.sub w, WGSSi := o.WGSSi.set i (.flt true u.cp), g := some u.g,
                   centers := o.centers.set i u.v, sizes := o.sizes.set i u.n }
          ⟨by simp [h.ws], by simp [h.ms], by simp [h.cs], h.mv⟩ (Nat.succ_ne_zero _) (i := i)
          (by rw [List.length_set]; exact hi) m (by simp [hml])
        simp -implicitDefEqProofs only [oldrun, setAt_isOk _ hiw, setAt_isOk _ hic, setAt_isOk _ hi,
          setAt_isOk (l := o.WGSSi.map Nm.val) _ (by rw [List.length_map]; exact hiw), abs, List.map_set, Nm.val_sub] at ht ⊢
        exact ht
end

end XBo
end Verif.Old
