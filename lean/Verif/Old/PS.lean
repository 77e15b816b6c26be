import Verif.Old.Sim

/-! # The text of `iPS` does what `Verif/Compat/V0.lean` says -/

set_option linter.unusedSectionVars false
set_option linter.constructorNameAsVariable false
set_option linter.unusedSimpArgs false

namespace Verif.Old
open V0

/-- The attributes of an `iPS` object, with the kinds of their numbers. -/
structure PSo where
  meanCenter : Option Nm
  maxSize : Nm
  output : Nm
  PSi : List Nm
  centers : List Vec
  sizes : List ℕ

namespace PSo

/-- The natural number a number is. -/
def toNat : Nm → ℕ
  | .int _ z => z.toNat
  | .flt _ _ => 0

/-- The object of the model. -/
noncomputable def abs (o : PSo) : V0.PS where
  meanCenter := o.meanCenter.map Nm.val
  maxSize := toNat o.maxSize
  output := o.output.val
  PSi := o.PSi.map Nm.val
  centers := o.centers
  sizes := o.sizes

/-- `None` or a number. -/
def optNum : Option Nm → PV
  | Option.none => .none
  | some n => .num n

/-- `None` or a number is assigned. -/
def setOptNum (v : PV) (k : Option Nm → PSo) : Except PyErr PSo :=
  match v with
  | .none => .ok (k Option.none)
  | .num n => .ok (k (some n))
  | _ => stuck

/-- Read an attribute. -/
def get (a : Attr) (o : PSo) : Except PyErr PV :=
  match a with
  | .mean_cluster_center => .ok (optNum o.meanCenter)
  | .max_cluster_size => .ok (.num o.maxSize)
  | .output => .ok (.num o.output)
  | .PS_i => .ok (.list (o.PSi.map .num))
  | .cluster_centers => .ok (.list (o.centers.map .vec))
  | .cluster_sizes => .ok (.list (o.sizes.map natV))
  | _ => .error .attributeError

/-- Assign an attribute. -/
def set (a : Attr) (v : PV) (o : PSo) : Except PyErr PSo :=
  match a with
  | .mean_cluster_center => setOptNum v fun n => { o with meanCenter := n }
  | .max_cluster_size => setNum v fun n => { o with maxSize := n }
  | .output => setNum v fun n => { o with output := n }
  | .PS_i => setNums v fun l => { o with PSi := l }
  | .cluster_centers => setVecs v fun l => { o with centers := l }
  | .cluster_sizes => setNats v fun l => { o with sizes := l }
  | _ => stuck

/-- What holds of every object: the lists have one entry per cluster, no cluster is empty, and the largest size is an int. -/
structure Good (o : PSo) : Prop where
  ps : o.PSi.length = o.sizes.length
  cs : o.centers.length = o.sizes.length
  ne : ∀ n ∈ o.sizes, n ≠ 0
  mx : ∃ (b : Bool) (m : ℕ), o.maxSize = .int b m

/-- The object as the interpreter sees it. -/
noncomputable def host : Host PSo := stdHost get set

/-- `iPS()` -/
noncomputable def runInit : Py PSo PV := callMethod host iPS.init [] []

/-- `o.update(x, c)` -/
noncomputable def run (x : Vec) (c : ℤ) : Py PSo PV := callMethod host iPS.update [.vec x, .int c] []

/-- A returned number, and the object. -/
def Rel (v : PV) (o : PSo) (y : XR) (s : V0.PS) : Prop := (∃ n : Nm, v = .num n ∧ n.val = y) ∧ o.abs = s ∧ o.Good

/-- After a call that raised. -/
def Exc (o : PSo) (s : V0.PS) : Prop := o.abs = s ∧ o.Good

section
attribute [local congr] andThen_head bind_head ebind_head cond_head

@[local oldrun] theorem host_eq : host = stdHost get set := rfl
@[local oldrun] theorem setOptNum_none (k) : setOptNum .none k = .ok (k Option.none) := rfl
@[local oldrun] theorem setOptNum_num (n k) : setOptNum (.num n) k = .ok (k (some n)) := rfl
@[local oldrun] theorem optNum_some (n) : optNum (some n) = .num n := rfl
attribute [local oldrun] get set

theorem init_eq (o : PSo) : ∃ o', runInit o = .ok .none o' ∧ o'.abs = V0.PS.init ∧ o'.Good := by
  refine ⟨⟨Option.none, .int false 0, .int false 0, [], [], []⟩, ?_, ?_, ?_⟩
  · simp -implicitDefEqProofs only [runInit, callMethod, iPS.init, oldrun]
  · simp only [abs, V0.PS.init, Nm.val, Int.cast_zero, List.map_nil]; rfl
  · exact ⟨rfl, rfl, by simp, ⟨false, 0, rfl⟩⟩

/-- The `if` statement. -/
def first : Stmt :=
  match iPS.update.body with
  | .cons s _ => s
  | _ => .assert .none
/-- The rest. -/
def tail : Block :=
  match iPS.update.body with
  | .cons _ b => b
  | _ => .nil

theorem update_eq : iPS.update = ⟨[(.x, Option.none), (.c_i, Option.none)], .cons first tail⟩ := rfl

/-- The model's `if`. -/
noncomputable def mhead (x : Vec) (c : ℤ) : Py V0.PS Unit := do
  let s ← Py.get
  (if c ≥ s.centers.length then
    Py.modify fun s => { s with centers := s.centers ++ [x], sizes := s.sizes ++ [1], PSi := s.PSi ++ [0] }
  else do
    let v ← Py.lift (getAt s.centers c)
    let n ← Py.lift (getAt s.sizes c)
    let u ← Py.lift (centerUpdate x v n)
    let cs ← Py.lift (setAt s.centers c u.1)
    Py.modify fun s => { s with centers := cs }
    let ns ← Py.lift (setAt s.sizes c u.2)
    Py.modify fun s => { s with sizes := ns })

/-- The rest of the model's `update`. -/
noncomputable def mtail (c : ℤ) : Py V0.PS XR := do
  let s ← Py.get
  let n ← Py.lift (getAt s.sizes c)
  Py.modify fun s => { s with maxSize := max s.maxSize n }
  let s ← Py.get
  let bs ← Py.lift (sepList s.centers c)
  (if bs ≠ [] then do
    let b ← Py.lift (Vec.amin bs)
    let t ← Py.lift (sumAll s.centers)
    let k : XR := .fin s.centers.length
    let m := t / k
    Py.modify fun s => { s with meanCenter := some m }
    let bt := (s.centers.map fun cc => V0.norm22 (cc.map fun y => y - m)).sum / k
    let ps ← Py.lift (setAt s.PSi c (.fin ((n : ℝ) / (s.maxSize : ℝ)) - XR.exp (-b / bt)))
    Py.modify fun s => { s with PSi := ps }
  else do
    let ps ← Py.lift (setAt s.PSi c 0)
    Py.modify fun s => { s with PSi := ps }
    Py.modify fun s => { s with output := s.PSi.sum })
  let s ← Py.get
  pure s.output

theorem model_eq (x : Vec) (c : ℤ) (s : V0.PS) : V0.PS.update x c s = (mhead x c s).bind fun _ s' => mtail c s' := by
  simp only [V0.PS.update, mhead, mtail, oldrun]

theorem tail_sim (c : ℤ) (L : Locals) (hL : L.get .c_i = .ok (.int c)) (o : PSo) (h : o.Good) :
    SimS Rel Exc ((execBlock host tail L o).bind fun r s' => match r.2 with | .ret v => .ok v s' | .next => .ok .none s')
      (mtail c o.abs) := by
  obtain ⟨b, m, hm⟩ := h.mx
  cases hi : pyIdx o.sizes.length c with
  | none =>
    simp -implicitDefEqProofs only [tail, iPS.update, mtail, oldrun, hL, abs, getAt_err hi]
    exact ⟨rfl, rfl, h⟩
  | some i =>
    obtain ⟨n, hn, hn'⟩ := getAt_isOk hi
    have hn0 : n ≠ 0 := h.ne n (List.mem_of_getElem? hn)
    obtain ⟨a, ha⟩ := getAt_ok (h.cs ▸ hi : pyIdx o.centers.length c = some i)
    have hk : o.centers.length ≠ 0 := by
      rw [h.cs]
      have := pyIdx_lt hi
      omega
    have hf := filterE_map (p := fun j => do
        let a ← cmpFn .ne j (.int c)
        Except.ok a) (fun j : ℕ => PV.int j) (List.range o.centers.length) (q := fun j : ℕ => decide ((j : ℤ) ≠ c)) (by
        intro j
        simp -implicitDefEqProofs only [oldrun]
        simp only [decide_not])
    simp -implicitDefEqProofs only [tail, iPS.update, mtail, oldrun, hL, abs, hn', hm, hf]
    rw [mapE_post (e := PV.npf) (g := fun j : ℕ => do
        let a ← getAt o.centers c
        let b ← getAt o.centers j
        let e ← Vec.sub a b
        pure (V0.norm22 e)) _ (by
          intro j
          simp -implicitDefEqProofs only [oldrun, ha])]
    change SimS Rel Exc (andThen (sepList o.centers c >>= fun ys => .ok (ys.map PV.npf)) _ _) _
    simp -implicitDefEqProofs only [oldrun]
    have hM : (max (m : ℤ) (n : ℤ)) = ((max m n : ℕ) : ℤ) := (Nat.cast_max m n).symm
    have hexc : Exc { o with maxSize := .int true (max (m : ℤ) (n : ℤ)) } { o.abs with maxSize := max m n } := by
      refine ⟨?_, h.ps, h.cs, h.ne, ⟨true, max m n, by rw [hM]⟩⟩
      simp only [abs, hM, toNat, Int.toNat_natCast]
    refine simS_bind (fun _ _ => hexc) fun bs _ => ?_
    have hps : pyIdx o.PSi.length c = some i := h.ps ▸ hi
    have hM0 : max m n ≠ 0 := by omega
    cases bs with
    | nil =>
      simp -implicitDefEqProofs only [oldrun, List.map_nil, List.isEmpty_nil, setAt_isOk _ hps, not_true_eq_false,
        setAt_isOk (l := o.PSi.map Nm.val) _ (by rw [List.length_map]; exact hps)]
      refine ⟨⟨_, rfl, ?_⟩, ?_, ⟨by rw [List.length_set]; exact h.ps, h.cs, h.ne, ⟨true, max m n, by rw [hM]⟩⟩⟩
      · rw [npSum_val, List.map_set]; simp [Nm.val]; rfl
      · simp only [abs, npSum_val, List.map_set, Nm.val_int, Int.cast_zero, hM, toNat, Int.toNat_natCast]; rfl
    | cons b0 bs =>
      have hbe : List.isEmpty (PV.npf b0 :: bs.map PV.npf) = false := rfl
      have hmin := min_flts (b0 :: bs)
      rw [List.map_cons] at hmin
      have hcs : o.centers ≠ [] := fun hh => hk (by rw [hh]; rfl)
      simp -implicitDefEqProofs only [oldrun, List.map_cons, hbe, hmin, sum_vecs hcs]
      refine simS_bind (fun _ _ => hexc) fun b1 _ => ?_
      try simp -implicitDefEqProofs only [oldrun]
      refine simS_bind (fun _ _ => hexc) fun t _ => ?_
      have hdM : ∀ k : Nm, k.div (.int true (max (m : ℤ) (n : ℤ))) = .ok (.flt true (k.val / .fin ((max m n : ℕ) : ℝ))) := by
        intro k
        rw [hM, div_nat hM0, Bool.or_true]
      have hdl : ∀ (y : XR) (k : Nm), (Nm.flt true y).div k = .ok (.flt true (y / k.val)) := by
        intro y k
        simp [Nm.div, Nm.np, Nm.val]
      simp -implicitDefEqProofs only [oldrun, div_nat hk, hn', hdM, hdl, Nm.val_flt, setAt_isOk _ hps,
        setAt_isOk (l := o.PSi.map Nm.val) _ (by rw [List.length_map]; exact hps)]
      have hm' : toNat (Nm.int b (m : ℤ)) = m := rfl
      have hq : ∀ q : XR, XR.fin ((n : ℤ) : ℝ) / XR.fin ((max m n : ℕ) : ℝ) - q = XR.fin ((n : ℝ) / ((max m n : ℕ) : ℝ)) - q := by
        intro q
        rw [XR.fin_div_of_ne _ (by exact_mod_cast hM0), Int.cast_natCast]
      refine ⟨⟨_, rfl, rfl⟩, ?_, ⟨by rw [List.length_set]; exact h.ps, h.cs, h.ne, ⟨true, max m n, by rw [hM]⟩⟩⟩
      simp only [abs, List.map_set, Nm.val_flt, hM, toNat, Int.toNat_natCast, pySum_val, List.map_map, hq, hm', Option.map_some]
      rfl

theorem run_sim (x : Vec) (c : ℤ) (o : PSo) (h : o.Good) : SimS Rel Exc (run x c o) (V0.PS.update x c o.abs) := by
  rw [model_eq]
  have hr : run x c o = (exec host first ((Locals.empty.put .c_i (.int c)).put .x (.vec x)) o).bind
      fun r s' => match r.2 with
        | .next => (execBlock host tail r.1 s').bind fun r s' => match r.2 with | .ret v => .ok v s' | .next => .ok .none s'
        | .ret v => .ok v s' := by
    unfold run callMethod
    rw [update_eq]
    simp -implicitDefEqProofs only [bindParams, except_bind_ok, andThen_ok, execBlock, Res.bind_ok, bind_bind]
    congr 1
    funext r s'
    rcases r with ⟨L, _ | v⟩ <;> rfl
  rw [hr]
  by_cases hc : c ≥ o.centers.length
  · have hb : (decide ((o.centers.length : ℤ) < c) || decide (c = (o.centers.length : ℤ))) = true := by
      simp only [Bool.or_eq_true, decide_eq_true_eq]; omega
    have ht := tail_sim c ((Locals.empty.put .c_i (.int c)).put .x (.vec x)) (by simp only [oldrun])
      { o with centers := o.centers ++ [x], sizes := o.sizes ++ [1], PSi := o.PSi ++ [.int false 0] }
      ⟨by simp [h.ps], by simp [h.cs], by
        intro n hn
        rcases List.mem_append.1 hn with hn | hn
        · exact h.ne n hn
        · rw [List.mem_singleton.1 hn]; exact one_ne_zero, h.mx⟩
    simp -implicitDefEqProofs only [first, iPS.update, mhead, oldrun, hc, hb, decide_true, abs, List.map_append,
      List.map_cons, List.map_nil, Int.cast_zero] at ht ⊢
    exact ht
  · have hb : (decide ((o.centers.length : ℤ) < c) || decide (c = (o.centers.length : ℤ))) = false := by
      simp only [Bool.or_eq_false_iff, decide_eq_false_iff_not]; omega
    cases hi : pyIdx o.sizes.length c with
    | none =>
      have hw : getAt o.centers c = .error .indexError := getAt_err (h.cs ▸ hi)
      simp -implicitDefEqProofs only [first, iPS.update, mhead, oldrun, hc, hb, decide_true, decide_false, abs, hw]
      exact ⟨rfl, rfl, h⟩
    | some i =>
      have hic : pyIdx o.centers.length c = some i := h.cs ▸ hi
      obtain ⟨v, hv⟩ := getAt_ok hic
      obtain ⟨n, hn⟩ := getAt_ok hi
      simp -implicitDefEqProofs only [first, iPS.update, mhead, oldrun, hc, hb, decide_true, decide_false, abs, hv, hn, center_eq]
      refine simS_bind (fun _ _ => ⟨rfl, h⟩) fun u hu => ?_
      have ht := tail_sim c ((Locals.empty.put .c_i (.int c)).put .x (.vec x)) (by simp only [oldrun])
          { o with centers := o.centers.set i u.1, sizes := o.sizes.set i u.2 }
          ⟨by simp [h.ps], by simp [h.cs], by
            intro k hk
            rcases List.mem_or_eq_of_mem_set hk with hk | hk
            · exact h.ne k hk
            · rw [hk]
              revert hu
              unfold centerUpdate
              cases Vec.sub x v with
              | error e => intro hu; cases hu
              | ok d =>
                simp only [except_bind_ok]
                cases Vec.add v (vdiv d _) with
                | error e => intro hu; cases hu
                | ok w => intro hu; cases hu; exact Nat.succ_ne_zero n, h.mx⟩
      simp -implicitDefEqProofs only [oldrun, setAt_isOk _ hic, setAt_isOk _ hi, abs] at ht ⊢
      exact ht
end

end PSo
end Verif.Old
