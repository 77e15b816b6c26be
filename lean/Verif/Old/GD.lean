import Verif.Old.Sim

/-! # The text of `iGD43` and `iGD53` does what `Verif/Compat/V0.lean` says -/

set_option linter.unusedSectionVars false
set_option linter.constructorNameAsVariable false
set_option linter.unusedSimpArgs false

namespace Verif.Old
open V0

/-- A square matrix. -/
structure Sq (k : ℕ) (a : Arr2) : Prop where
  cols : a.cols = k
  len : a.rows.length = k
  row : ∀ r ∈ a.rows, r.length = k

theorem Sq.pad {k : ℕ} {a : Arr2} (h : Sq k a) (v : XR) : Sq (k + 1) (V0.pad a v) := by
  refine ⟨by simp [V0.pad, h.cols], by simp [V0.pad, h.len], ?_⟩
  intro r hr
  simp only [V0.pad, List.mem_append, List.mem_map, List.mem_singleton] at hr
  rcases hr with ⟨r', hr', rfl⟩ | rfl
  · simp [h.row r' hr']
  · simp [h.cols]

theorem Sq.set {k : ℕ} {a : Arr2} (h : Sq k a) {c j : ℤ} {i i' : ℕ} (hc : pyIdx k c = some i) (hj : pyIdx k j = some i') (v : XR) :
    ∃ a', setAt2 a c j v = .ok a' ∧ getAt2 a' c j = .ok v ∧ Sq k a' := by
  have hc' : pyIdx a.rows.length c = some i := h.len.symm ▸ hc
  obtain ⟨r, hr, hr'⟩ := getAt_isOk hc'
  have hrl : r.length = k := h.row r (List.mem_of_getElem? hr)
  have hj' : pyIdx r.length j = some i' := hrl.symm ▸ hj
  refine ⟨⟨a.cols, a.rows.set i (r.set i' v)⟩, ?_, ?_, ?_⟩
  · simp only [setAt2, hr', except_bind_ok, setAt_isOk _ hj', setAt_isOk _ hc']; rfl
  · simp only [getAt2, getAt_set hc', except_bind_ok, getAt_set hj']
  · refine ⟨h.cols, by simp [h.len], ?_⟩
    intro r1 h1
    rcases List.mem_or_eq_of_mem_set h1 with h1 | rfl
    · exact h.row r1 h1
    · simp [hrl]

theorem forEach_filter {σ ι : Type} (p : ι → Bool) (body : ι → Py σ Unit) (l : List ι) (s : σ) :
    Py.forEach (l.filter p) body s = Py.forEach l (fun j => bif p j then body j else pure ()) s := by
  induction l generalizing s with
  | nil => rfl
  | cons j l ih =>
    cases hp : p j with
    | false =>
      rw [List.filter_cons_of_neg (by simp [hp]), ih, Py.forEach, Py.bind_apply, hp]
      rfl
    | true =>
      rw [List.filter_cons_of_pos hp, Py.forEach, Py.forEach, Py.bind_apply, Py.bind_apply, hp, cond_true]
      congr 1
      funext u s'
      exact ih s'

/-- A loop of the text and a loop of the model, step by step. -/
theorem loop_forEach {σ τ ι : Type} {y : Var} {body : Locals → σ → Res σ (Locals × Flow)} {mbody : ι → Py τ Unit} {enc : ι → PV}
    {R : Locals → σ → τ → Prop} {E : σ → τ → Prop} (l : List ι)
    (step : ∀ L s t j, j ∈ l → R L s t → SimS (fun a s' (_ : Unit) t' => a.2 = .next ∧ R a.1 s' t') E (body (L.put y (enc j)) s) (mbody j t)) :
    ∀ L s t, R L s t → SimS (fun a s' (_ : Unit) t' => a.2 = .next ∧ R a.1 s' t') E (runLoop y body (l.map enc) L s) (Py.forEach l mbody t) := by
  induction l with
  | nil => exact fun L s t h => ⟨rfl, h⟩
  | cons j l ih =>
    intro L s t h
    have h1 := step L s t j List.mem_cons_self h
    simp only [List.map_cons, runLoop, Py.forEach, Py.bind_apply]
    cases hb : body (L.put y (enc j)) s with
    | err e s' =>
      cases hm : mbody j t with
      | err e' t' => rw [hb, hm] at h1; exact h1
      | ok u t' => rw [hb, hm] at h1; exact h1.elim
    | ok a s' =>
      cases hm : mbody j t with
      | err e' t' => rw [hb, hm] at h1; exact h1.elim
      | ok u t' =>
        rw [hb, hm] at h1
        obtain ⟨h2, h3⟩ := h1
        simp only [Res.bind_ok, h2]
        exact ih (fun L s t j hj => step L s t j (List.mem_cons_of_mem _ hj)) a.1 s' t' h3

theorem loop_forEach' {σ τ ι : Type} {y : Var} {body : Locals → σ → Res σ (Locals × Flow)} {mbody : ι → Py τ Unit} {enc : ι → PV}
    {R : Locals → σ → τ → Prop} {E : σ → τ → Prop} {p : ι → Bool} {l : List ι} {L : Locals} {s : σ} {t : τ} {r : Res σ (Locals × Flow)} {m : Res τ Unit}
    (hr : runLoop y body (l.map enc) L s = r) (hm : Py.forEach (l.filter p) mbody t = m) (h0 : R L s t)
    (step : ∀ L s t j, j ∈ l → R L s t → SimS (fun a s' (_ : Unit) t' => a.2 = .next ∧ R a.1 s' t') E (body (L.put y (enc j)) s)
      ((bif p j then mbody j else pure ()) t)) :
    SimS (fun a s' (_ : Unit) t' => a.2 = .next ∧ R a.1 s' t') E r m := by
  subst hr hm
  rw [forEach_filter]
  exact loop_forEach l step L s t h0

/-- The attributes of an `iGD` object, with the kinds of their numbers. -/
structure GDo where
  t : ℕ
  d : Arr2
  D : List Nm
  output : Nm
  centers : List Vec
  sizes : List ℕ
  g : Option Vec
  CP : List Nm

namespace GDo

/-- The object of the model. -/
noncomputable def abs (o : GDo) : V0.GD where
  t := o.t
  d := o.d
  D := o.D.map Nm.val
  output := o.output.val
  centers := o.centers
  sizes := o.sizes
  g := o.g
  CP := o.CP.map Nm.val

/-- Read an attribute. -/
def get (a : Attr) (o : GDo) : Except PyErr PV :=
  match a with
  | .t => .ok (.num (.int false o.t))
  | .d => .ok (.mat o.d)
  | .D => .ok (.list (o.D.map .num))
  | .output => .ok (.num o.output)
  | .cluster_centers => .ok (.list (o.centers.map .vec))
  | .cluster_sizes => .ok (.list (o.sizes.map natV))
  | .g => .ok (gArg o.g)
  | .CP => .ok (.list (o.CP.map .num))
  | _ => .error .attributeError

/-- Assign an attribute. -/
def set (a : Attr) (v : PV) (o : GDo) : Except PyErr GDo :=
  match a with
  | .t => setNat v fun n => { o with t := n }
  | .d => setMat v fun m => { o with d := m }
  | .D => setNums v fun l => { o with D := l }
  | .output => setNum v fun n => { o with output := n }
  | .cluster_centers => setVecs v fun l => { o with centers := l }
  | .cluster_sizes => setNats v fun l => { o with sizes := l }
  | .g => setOpt v fun w => { o with g := w }
  | .CP => setNums v fun l => { o with CP := l }
  | _ => stuck

/-- What holds of every object: one entry per cluster, and a square matrix. -/
structure Good (o : GDo) : Prop where
  cs : o.centers.length = o.sizes.length
  cp : o.CP.length = o.sizes.length
  d : Sq o.sizes.length o.d

/-- The object as the interpreter sees it in `iGD`. -/
noncomputable def host : Host GDo := stdHost get set

/-- The object as the interpreter sees it in a subclass: `super().__init__` is `iGD.__init__`. -/
noncomputable def subHost : Host GDo :=
  { host with call := fun f vs => match f with
    | .super_init => callMethod host iGD.init vs []
    | _ => Py.raise .assertionError }

/-- `iGD43()` -/
noncomputable def runInit43 : Py GDo PV := callMethod subHost iGD43.init [] []

/-- `iGD53()` -/
noncomputable def runInit53 : Py GDo PV := callMethod subHost iGD53.init [] []

/-- `o.update(x, c)` -/
noncomputable def run (x : Vec) (c : ℤ) : Py GDo PV := callMethod host iGD.update [.vec x, .int c] []

/-- A returned number, and the object. -/
def Rel (v : PV) (o : GDo) (y : XR) (s : V0.GD) : Prop := (∃ n : Nm, v = .num n ∧ n.val = y) ∧ o.abs = s ∧ o.Good

/-- After a call that raised. -/
def Exc (o : GDo) (s : V0.GD) : Prop := o.abs = s ∧ o.Good

section
attribute [local congr] andThen_head bind_head ebind_head cond_head

@[local oldrun] theorem host_eq : host = stdHost get set := rfl
@[local oldrun] theorem sub_fn (s) : subHost.fn s = calls1 := rfl
@[local oldrun] theorem sub_call (vs) : subHost.call .super_init vs = callMethod host iGD.init vs [] := rfl
attribute [local oldrun] get set

theorem init43_eq (o : GDo) : ∃ o', runInit43 o = .ok .none o' ∧ o'.abs = V0.GD.init 43 ∧ o'.Good := by
  refine ⟨⟨43, Arr2.zeros 0 0, [], .int false 0, [], [], Option.none, []⟩, ?_, ?_, ?_⟩
  · simp -implicitDefEqProofs only [runInit43, callMethod, iGD43.init, iGD.init, oldrun, decide_true, decide_false]
    rfl
  · simp only [abs, V0.GD.init, Nm.val, Int.cast_zero, List.map_nil]; rfl
  · exact ⟨rfl, rfl, ⟨rfl, rfl, by simp [Arr2.zeros]⟩⟩

theorem init53_eq (o : GDo) : ∃ o', runInit53 o = .ok .none o' ∧ o'.abs = V0.GD.init 53 ∧ o'.Good := by
  refine ⟨⟨53, Arr2.zeros 0 0, [], .int false 0, [], [], Option.none, []⟩, ?_, ?_, ?_⟩
  · simp -implicitDefEqProofs only [runInit53, callMethod, iGD53.init, iGD.init, oldrun, decide_true, decide_false]
    rfl
  · simp only [abs, V0.GD.init, Nm.val, Int.cast_zero, List.map_nil]; rfl
  · exact ⟨rfl, rfl, ⟨rfl, rfl, by simp [Arr2.zeros]⟩⟩

theorem run_sim (x : Vec) (c : ℤ) (o : GDo) (h : o.Good) : SimS Rel Exc (run x c o) (V0.GD.update x c o.abs) := by
  by_cases hc : c = o.centers.length
  · simp -implicitDefEqProofs only [run, callMethod, iGD.update, V0.GD.update, oldrun, hc, decide_true, abs]
    refine ⟨⟨_, rfl, rfl⟩, ?_, ⟨by simp [h.cs], by simp [h.cp], ?_⟩⟩
    · simp only [abs, List.map_append, List.map_cons, List.map_nil, Nm.val_int, Nm.val_flt, Int.cast_zero]
      rfl
    · simp only [List.length_append, List.length_singleton]
      exact h.d.pad _
  · by_cases hgt : (o.sizes.length : ℤ) < c
    · simp -implicitDefEqProofs only [run, callMethod, iGD.update, V0.GD.update, oldrun, hc, hgt, decide_true, decide_false, abs, gt_iff_lt]
      exact ⟨rfl, rfl, h⟩
    · cases hi : pyIdx o.sizes.length c with
      | none =>
        have hw : getAt o.centers c = .error .indexError := getAt_err (h.cs ▸ hi)
        simp -implicitDefEqProofs only [run, callMethod, iGD.update, V0.GD.update, oldrun, hc, hgt, decide_true, decide_false, abs, gt_iff_lt, hw]
        exact ⟨rfl, rfl, h⟩
      | some i =>
        have hic : pyIdx o.centers.length c = some i := h.cs ▸ hi
        have hip : pyIdx o.CP.length c = some i := h.cp ▸ hi
        obtain ⟨v, hv⟩ := getAt_ok hic
        obtain ⟨n, hn⟩ := getAt_ok hi
        obtain ⟨w, hw⟩ := getAt_ok hip
        simp -implicitDefEqProofs only [run, callMethod, iGD.update, V0.GD.update, oldrun, hc, hgt, decide_true, decide_false, abs, gt_iff_lt,
          hv, hn, hw, getAt_map Nm.val, cp_eq x v n o.g w [(.p, .int 1)] (Or.inr ⟨rfl, rfl, rfl⟩)]
        refine simS_bind (fun _ _ => ⟨rfl, h⟩) fun u _ => ?_
        simp -implicitDefEqProofs only [oldrun, setAt_isOk _ hip, setAt_isOk _ hic, setAt_isOk _ hi,
          setAt_isOk (l := o.CP.map Nm.val) _ (by rw [List.length_map]; exact hip)]
        have hlen : (o.centers.set i u.v).length = o.sizes.length := by rw [List.length_set]; exact h.cs
        have hrange : ∀ j ∈ List.range (o.centers.set i u.v).length, pyIdx o.sizes.length (j : ℤ) = some j := by
          intro j hj
          rw [List.mem_range, hlen] at hj
          simp [pyIdx, hj]
        let sm : V0.GD := ⟨o.t, o.d, o.D.map Nm.val, o.output.val, o.centers.set i u.v, o.sizes.set i u.n, some u.g, (o.CP.map Nm.val).set i u.cp⟩
        let tx (d' : Arr2) : GDo := ⟨o.t, d', o.D, o.output, o.centers.set i u.v, o.sizes.set i u.n, some u.g, o.CP.set i (.flt true u.cp)⟩
        have hgood : ∀ d', Sq o.sizes.length d' → (tx d').Good := fun d' hd' =>
          ⟨by simp [tx, h.cs], by simp [tx, h.cp], by simpa [tx] using hd'⟩
        have habs : ∀ d', (tx d').abs = { sm with d := d' } := fun d' => by simp [tx, sm, abs, List.map_set, Nm.val]
        have he : ∀ d' (j : ℕ), V0.GD.entry { sm with d := d' } c j = sm.entry c j := fun _ _ => rfl
        by_cases ht : o.t = 43
        · have ht' : (o.t : ℤ) = 43 := by exact_mod_cast ht
          have hE : ∀ j : ℕ, sm.entry c j = (do
              let a ← getAt (o.centers.set i u.v) c
              let b ← getAt (o.centers.set i u.v) j
              let e ← Vec.sub a b
              pure (V0.norm22 e)) := by
            intro j
            simp only [V0.GD.entry, sm, ht, if_true]
          simp -implicitDefEqProofs only [oldrun, ht', if_true]
          generalize hr : runLoop _ _ _ _ _ = r
          generalize hf : Py.forEach _ _ _ = rm
          have hd := loop_forEach' (R := fun L' s t => L'.get .c_i = .ok (.int c) ∧ ∃ d', Sq o.sizes.length d' ∧ s = tx d' ∧ t = { sm with d := d' })
            (E := Exc) hr hf ⟨by simp only [oldrun], o.d, h.d, rfl, rfl⟩ (by
              rintro L1 s t j hj ⟨h1, d', hd', rfl, rfl⟩
              have hj' := hrange j hj
              simp -implicitDefEqProofs only [oldrun, h1, he, tx]
              by_cases hjc : c = (j : ℤ)
              · simp -implicitDefEqProofs only [oldrun, ← hjc, decide_true, not_true_eq_false, decide_false]
                exact ⟨rfl, by rw [get_ne _ _ (by decide)]; exact h1, d', hd', rfl, rfl⟩
              · simp -implicitDefEqProofs only [oldrun, hjc, decide_false, decide_true, getAt_set hic, hE]
                cases getAt (o.centers.set i u.v) (j : ℤ) with
                | error e => exact ⟨rfl, habs d', hgood d' hd'⟩
                | ok a' =>
                  simp -implicitDefEqProofs only [oldrun]
                  cases Vec.sub u.v a' with
                  | error e => exact ⟨rfl, habs d', hgood d' hd'⟩
                  | ok dd =>
                    obtain ⟨a1, h1', h1g, h1s⟩ := hd'.set hi hj' (V0.norm22 dd)
                    obtain ⟨a2, h2, -, h2s⟩ := h1s.set hj' hi (V0.norm22 dd)
                    simp -implicitDefEqProofs only [oldrun, h1', h1g, h2]
                    exact ⟨rfl, by rw [get_ne _ _ (by decide)]; exact h1, a2, h2s, rfl, rfl⟩)
          cases r with
          | err e s1 =>
            cases rm with
            | err e' t1 => exact hd
            | ok a t1 => exact hd.elim
          | ok a s1 =>
            cases rm with
            | err e' t1 => exact hd.elim
            | ok a' t1 =>
              obtain ⟨L2, fl⟩ := a
              obtain ⟨rfl, hL2, d2, hd2, rfl, rfl⟩ := hd
              simp -implicitDefEqProofs only [oldrun, hL2, getAt_set hip, getAt_set hi, sm, tx,
                getAt_set (l := o.CP.map Nm.val) (by rw [List.length_map]; exact hip)]
              exact ⟨rfl, habs d2, hgood d2 hd2⟩
        · have ht' : ¬ (o.t : ℤ) = 43 := by exact_mod_cast ht
          have hE : ∀ j : ℕ, sm.entry c j = (do
              let a ← getAt ((o.CP.map Nm.val).set i u.cp) c
              let b ← getAt ((o.CP.map Nm.val).set i u.cp) j
              let m ← getAt (o.sizes.set i u.n) c
              let n ← getAt (o.sizes.set i u.n) j
              pure ((a + b) / .fin ((m + n : ℕ) : ℝ))) := by
            intro j
            simp only [V0.GD.entry, sm, ht, if_false]
          simp -implicitDefEqProofs only [oldrun, ht', if_false]
          generalize hr : runLoop _ _ _ _ _ = r
          generalize hf : Py.forEach _ _ _ = rm
          have hd := loop_forEach' (R := fun L' s t => L'.get .c_i = .ok (.int c) ∧ ∃ d', Sq o.sizes.length d' ∧ s = tx d' ∧ t = { sm with d := d' })
            (E := Exc) hr hf ⟨by simp only [oldrun], o.d, h.d, rfl, rfl⟩ (by
              rintro L1 s t j hj ⟨h1, d', hd', rfl, rfl⟩
              have hj' := hrange j hj
              simp -implicitDefEqProofs only [oldrun, h1, he, tx]
              by_cases hjc : c = (j : ℤ)
              · simp -implicitDefEqProofs only [oldrun, ← hjc, decide_true, not_true_eq_false, decide_false]
                exact ⟨rfl, by rw [get_ne _ _ (by decide)]; exact h1, d', hd', rfl, rfl⟩
              · obtain ⟨b', hb'⟩ := getAt_ok (l := o.CP.set i (.flt true u.cp)) (c := j) (i := j) (by rw [List.length_set, h.cp]; exact hj')
                obtain ⟨m', hm'⟩ := getAt_ok (l := o.sizes.set i u.n) (c := j) (i := j) (by rw [List.length_set]; exact hj')
                have hbv : getAt ((o.CP.map Nm.val).set i u.cp) (j : ℤ) = .ok b'.val := by
                  have := getAt_map Nm.val (o.CP.set i (.flt true u.cp)) j
                  rw [List.map_set, hb'] at this
                  exact this
                have hdl : ∀ (y : XR) (k : Nm), (Nm.flt true y).div k = .ok (.flt true (y / k.val)) := by
                  intro y k
                  simp [Nm.div, Nm.np, Nm.val]
                obtain ⟨a1, h1', h1g, h1s⟩ := hd'.set hi hj' ((u.cp + b'.val) / .fin ((u.n + m' : ℕ) : ℝ))
                obtain ⟨a2, h2, -, h2s⟩ := h1s.set hj' hi ((u.cp + b'.val) / .fin ((u.n + m' : ℕ) : ℝ))
                have hcast : ((((u.n : ℤ) + (m' : ℤ) : ℤ)) : ℝ) = ((u.n + m' : ℕ) : ℝ) := by push_cast; rfl
                simp -implicitDefEqProofs only [oldrun, hjc, decide_false, decide_true, getAt_set hip, getAt_set hi, hb', hm', hbv, hE, hdl, hcast,
                  getAt_set (l := o.CP.map Nm.val) (by rw [List.length_map]; exact hip), h1', h1g, h2]
                exact ⟨rfl, by rw [get_ne _ _ (by decide)]; exact h1, a2, h2s, rfl, rfl⟩)
          cases r with
          | err e s1 =>
            cases rm with
            | err e' t1 => exact hd
            | ok a t1 => exact hd.elim
          | ok a s1 =>
            cases rm with
            | err e' t1 => exact hd.elim
            | ok a' t1 =>
              obtain ⟨L2, fl⟩ := a
              obtain ⟨rfl, hL2, d2, hd2, rfl, rfl⟩ := hd
              simp -implicitDefEqProofs only [oldrun, hL2, getAt_set hip, getAt_set hi, sm, tx,
                getAt_set (l := o.CP.map Nm.val) (by rw [List.length_map]; exact hip)]
              exact ⟨rfl, habs d2, hgood d2 hd2⟩
end

end GDo
end Verif.Old
