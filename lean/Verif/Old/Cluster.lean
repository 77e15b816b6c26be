import Verif.Old.Sim

/-! # The text of `Cluster` does what `Verif/Compat/V0.lean` says -/

set_option linter.unusedSectionVars false
set_option linter.constructorNameAsVariable false
set_option linter.unusedSimpArgs false

namespace Verif.Old
open V0

namespace Clu

/-- A list of Python ints, or `none`. -/
def ints : List PV → Option (List ℤ)
  | [] => some []
  | .num (.int false z) :: l => (ints l).map (z :: ·)
  | _ :: _ => Option.none

/-- The attribute `center`. -/
def centerV : Option Vec → PV
  | Option.none => .int 0
  | some v => .vec v

/-- The attribute `bounding_box`. -/
def boxV : Option Vec → PV
  | Option.none => .list []
  | some v => .vec v

/-- Read an attribute. -/
def get (a : Attr) (o : V0.Cluster) : Except PyErr PV :=
  match a with
  | .radial => .ok (.bool o.radial)
  | .box => .ok (.bool o.boxed)
  | .len => .ok (.int o.len)
  | .center => .ok (centerV o.center)
  | .bounding_box => .ok (boxV o.box)
  | .points => .ok (.list (o.points.map .vec))
  | .indicies => .ok (.list (o.indices.map PV.int))
  | .dim => .ok (.int o.dim)
  | _ => .error .attributeError

/-- Assign an attribute. -/
def set (a : Attr) (v : PV) (o : V0.Cluster) : Except PyErr V0.Cluster :=
  match a with
  | .radial => match v with
    | .bool b => .ok { o with radial := b }
    | _ => stuck
  | .box => match v with
    | .bool b => .ok { o with boxed := b }
    | _ => stuck
  | .len => setNat v fun n => { o with len := n }
  | .center => match v with
    | .num (.int false 0) => .ok { o with center := Option.none }
    | .vec w => .ok { o with center := some w }
    | _ => stuck
  | .bounding_box => match v with
    | .list [] => .ok { o with box := Option.none }
    | .vec w => .ok { o with box := some w }
    | _ => stuck
  | .points => setVecs v fun l => { o with points := l }
  | .indicies => match v with
    | .list l => match ints l with
      | some zs => .ok { o with indices := zs }
      | Option.none => stuck
    | _ => stuck
  | .dim => setNat v fun n => { o with dim := n }
  | _ => stuck

/-- The object as the interpreter sees it. -/
noncomputable def host : Host V0.Cluster := stdHost get set

/-- `Cluster(radial, box)` -/
noncomputable def runInit (radial box : Bool) : Py V0.Cluster PV := callMethod host Cluster.init [.bool radial, .bool box] []

/-- The argument `i`. -/
def indexV : Option ℤ → PV
  | Option.none => .none
  | some z => .int z

/-- `o.add_point(x, i)` -/
noncomputable def runAdd (x : Vec) (i : Option ℤ) : Py V0.Cluster PV := callMethod host Cluster.add_point [.vec x, indexV i] []

/-- A bounding box has at least two entries. -/
def Good (o : V0.Cluster) : Prop := ∀ b, o.box = some b → 2 ≤ b.length

section
attribute [local congr] andThen_head bind_head ebind_head cond_head

@[local oldrun] theorem host_eq : host = stdHost get set := rfl
theorem ints_append (l : List ℤ) (z : ℤ) : ints (l.map PV.int ++ [.num (.int false z)]) = some (l ++ [z]) := by
  induction l with
  | nil => rfl
  | cons a l ih => simp only [List.map_cons, List.cons_append, ints, ih]; rfl
@[local oldrun] theorem f_max (x : Vec) : builtin .np_max [.vec x] = Vec.amax x >>= fun y => .ok (.npf y) := rfl
@[local oldrun] theorem f_min (x : Vec) : builtin .np_min [.vec x] = Vec.amin x >>= fun y => .ok (.npf y) := rfl
@[local oldrun] theorem f_append (x y : Vec) : builtin .np_append [.vec x, .vec y] = .ok (.vec (x ++ y)) := rfl
@[local oldrun] theorem g_append (vs : List PV) (ks : List (Var × PV)) : calls1 .np_append vs ks = calls0 .np_append vs ks := rfl
@[local oldrun] theorem g_equal (vs : List PV) (ks : List (Var × PV)) : calls1 .np_array_equal vs ks = calls0 .np_array_equal vs ks := rfl
@[local oldrun] theorem f_minv (x y : Vec) : builtin .np_minimum [.vec x, .vec y] = Vec.bin XR.min x y >>= fun y => .ok (.vec y) := rfl
@[local oldrun] theorem f_equal (x y : Vec) : builtin .np_array_equal [.vec x, .vec y] = .ok (.bool (arrayEqual x y)) := rfl
@[local oldrun] theorem i_none : indexV Option.none = .none := rfl
@[local oldrun] theorem i_some (z : ℤ) : indexV (some z) = .num (.int false z) := rfl
@[local oldrun] theorem c_none : centerV Option.none = .num (.int false 0) := rfl
@[local oldrun] theorem c_some (v : Vec) : centerV (some v) = .vec v := rfl
@[local oldrun] theorem x_none : boxV Option.none = .list [] := rfl
@[local oldrun] theorem x_some (v : Vec) : boxV (some v) = .vec v := rfl
@[local oldrun] theorem setNat_nat {σ : Type} (k : ℕ → σ) (n : ℕ) : setNat (.num (.int false (n : ℤ))) k = .ok (k n) := by simp [setNat]
attribute [local oldrun] get set ints_append

/-- The constructor. -/
theorem init_eq (radial box : Bool) (o : V0.Cluster) : runInit radial box o = .ok .none (V0.Cluster.init radial box) := by
  simp -implicitDefEqProofs only [runInit, callMethod, Cluster.init, oldrun]
  rfl

theorem flt_eq (y : XR) (n : Nm) : (Nm.flt true y).eq n = true ↔ y = n.val ∧ y ≠ .nan := by
  cases n <;> exact @decide_eq_true_iff _ (_)
theorem le_one (y : XR) : ((Nm.flt true y).lt (.int false 1) || (Nm.flt true y).eq (.int false 1)) = @decide (XR.lt y (.fin 1) ∨ y = .fin 1) (Classical.propDecidable _) := by
  rw [Bool.eq_iff_iff, Bool.or_eq_true]
  rw [Nm.val_lt, flt_eq, @decide_eq_true_iff _ (Classical.propDecidable _)]
  simp only [Nm.val, Int.cast_one]
  constructor
  · rintro (h | ⟨h, -⟩)
    · exact .inl h
    · exact .inr h
  · rintro (h | rfl)
    · exact .inl h
    · exact .inr ⟨rfl, XR.fin_ne_nan 1⟩
theorem ge_zero (y : XR) : ((Nm.int false 0).lt (.flt true y) || (Nm.flt true y).eq (.int false 0)) = @decide (XR.lt (.fin 0) y ∨ y = .fin 0) (Classical.propDecidable _) := by
  rw [Bool.eq_iff_iff, Bool.or_eq_true]
  rw [Nm.val_lt, flt_eq, @decide_eq_true_iff _ (Classical.propDecidable _)]
  simp only [Nm.val, Int.cast_zero]
  constructor
  · rintro (h | ⟨h, -⟩)
    · exact .inl h
    · exact .inr h
  · rintro (h | rfl)
    · exact .inl h
    · exact .inr ⟨rfl, XR.fin_ne_nan 0⟩

/-- The statements from `if self.box` on. -/
def rest : Block :=
  match Cluster.add_point.body with
  | .cons _ (.cons _ (.cons _ b)) => b
  | _ => .nil

open Classical in
/-- The model from there on. -/
noncomputable def mrest (x : Vec) (i : Option ℤ) (boxed : Bool) (box : Option Vec) : Py V0.Cluster Unit := do
  (if boxed then do
    let mx ← Py.lift (Vec.amax x)
    (if XR.lt mx (.fin 1) ∨ mx = .fin 1 then pure () else Py.raise .assertionError)
    let mn ← Py.lift (Vec.amin x)
    (if XR.lt (.fin 0) mn ∨ mn = .fin 0 then pure () else Py.raise .assertionError)
    let cc := x ++ x.map fun y => .fin 1 - y
    match box with
      | some _ => Py.raise .valueError
      | Option.none => Py.modify fun s => { s with box := some cc }
  else pure ())
  Py.modify fun s => { s with points := s.points ++ [x] }
  (match i with
    | some i => Py.modify fun s => { s with indices := s.indices ++ [i] }
    | Option.none => pure ())
  Py.modify fun s => { s with len := s.len + 1 }

/-- The statements from the assertion on. -/
def rest0 : Block :=
  match Cluster.add_point.body with
  | .cons _ b => b
  | _ => .nil

theorem rest0_eq : rest0 = .cons (.assert (.cmp .eq (.self .dim) (.call .py_len (.cons (.name .x) .nil) .nil)))
    (.cons (.ite (.self .radial)
      [old| .assign (.var .new_center) (.bin .div (.bin .add (.bin .mul (.self .center) (.self .len)) (.name .x)) (.bin .add (.self .len) (.int 1)));
        .assign (.self .center) (.name .new_center) ] .nil) rest) := rfl

theorem add_text : Cluster.add_point = ⟨[(.x, Option.none), (.i, some .none)], .cons (.ite (.not (.self .points))
    [old| .assign (.self .dim) (.call .py_len (.cons (.name .x) .nil) .nil) ] .nil) rest0⟩ := rfl

/-- The model from there on. -/
noncomputable def mrest0 (x : Vec) (i : Option ℤ) (s : V0.Cluster) : Py V0.Cluster Unit := do
  (if s.dim = x.length then pure () else Py.raise .assertionError)
  (if s.radial then do
    let t ← Py.lift (scaleAdd s.len s.center x)
    Py.modify fun s => { s with center := some (vdiv t (.fin ((s.len + 1 : ℕ) : ℝ))) }
  else pure ())
  mrest x i s.boxed s.box

theorem model_eq (x : Vec) (i : Option ℤ) (o : V0.Cluster) : V0.Cluster.addPoint x i o =
    if o.points = [] then mrest0 x i { o with dim := x.length } { o with dim := x.length } else mrest0 x i o o := by
  by_cases h : o.points = []
  · simp only [V0.Cluster.addPoint, mrest0, mrest, oldrun, h]
    rfl
  · simp only [V0.Cluster.addPoint, mrest0, mrest, oldrun, h]
    rfl

/-- `add_point` is what the model says, also in the object it leaves behind when it raises. -/
theorem add_eq (x : Vec) (i : Option ℤ) (o : V0.Cluster) (h : Good o) :
    runAdd x i o = (V0.Cluster.addPoint x i o).bind fun _ s => .ok .none s := by
  obtain ⟨radial, boxed, len, center, box, points, indices, dim⟩ := o
  have hc : ((len : ℤ) + 1 : ℤ) = ((len + 1 : ℕ) : ℤ) := by push_cast; rfl
  have hz : ∀ y : XR, XR.fin (((0 * (len : ℤ) : ℤ)) : ℝ) + y = y := by
    intro y
    rw [zero_mul, Int.cast_zero]
    exact zero_add y
  have hz' : (x.map fun y => XR.fin (((0 * (len : ℤ) : ℤ)) : ℝ) + y) = x := by simp only [hz, List.map_id']
  have hb : ∀ b, box = some b → truth (.vec b) = .error .valueError := by
    intro b hb
    have := h b hb
    match b, this with
    | _ :: _ :: _, _ => rfl
  clear h
  have hcast : ((((len + 1 : ℕ) : ℤ)) : ℝ) = ((len + 1 : ℕ) : ℝ) := by push_cast; rfl
  -- from the bounding box on
  have key : ∀ (L : Locals) (s : V0.Cluster), L.get .x = .ok (.vec x) → L.get .i = .ok (indexV i) → s.boxed = boxed → s.box = box → s.len = len →
      ((execBlock host rest L s).bind fun r s' => match r.2 with | .ret v => .ok v s' | .next => .ok .none s') =
        (mrest x i boxed box s).bind fun _ s => .ok .none s := by
    rintro L ⟨radial, boxed, len, center, box, points, indices, dim⟩ hx hi rfl rfl rfl
    cases boxed with
    | false =>
      cases i <;> simp -implicitDefEqProofs only [rest, Cluster.add_point, mrest, oldrun, hx, hi]
    | true =>
      simp -implicitDefEqProofs only [rest, Cluster.add_point, mrest, oldrun, hx, hi]
      cases Vec.amax x with
      | error e => simp -implicitDefEqProofs only [oldrun]
      | ok mx =>
        simp -implicitDefEqProofs only [oldrun, le_one]
        by_cases h1 : XR.lt mx (.fin 1) ∨ mx = .fin 1
        · simp -implicitDefEqProofs only [oldrun, h1, decide_true, hx, hi]
          cases Vec.amin x with
          | error e => simp -implicitDefEqProofs only [oldrun]
          | ok mn =>
            simp -implicitDefEqProofs only [oldrun, ge_zero]
            by_cases h2 : XR.lt (.fin 0) mn ∨ mn = .fin 0
            · cases box with
              | none =>
                cases i <;> simp -implicitDefEqProofs only [oldrun, h2, decide_true, hx, hi, List.isEmpty_nil, Int.cast_one]
              | some b =>
                simp -implicitDefEqProofs only [oldrun, h2, decide_true, hx, hi, hb b rfl]
            · simp -implicitDefEqProofs only [oldrun, h2, decide_false]
        · simp -implicitDefEqProofs only [oldrun, h1, decide_false]
  -- from the assertion on the dimension on
  have key2 : ∀ (s : V0.Cluster), s.boxed = boxed → s.box = box → s.len = len →
      ((execBlock host rest0 ((Locals.empty.put .i (indexV i)).put .x (.vec x)) s).bind fun r s' => match r.2 with | .ret v => .ok v s' | .next => .ok .none s') =
        (mrest0 x i s s).bind fun _ s => .ok .none s := by
    rintro ⟨radial, boxed, len, center, box, points, indices, dim⟩ rfl rfl rfl
    by_cases hd : dim = x.length
    · have hd' : (dim : ℤ) = (x.length : ℤ) := by rw [hd]
      cases radial with
      | false =>
        simp -implicitDefEqProofs only [rest0_eq, mrest0, oldrun, hd, hd', decide_true]
        exact key _ _ (by simp only [oldrun]) (by simp only [oldrun]) rfl rfl rfl
      | true =>
        cases center with
        | none =>
          simp -implicitDefEqProofs only [rest0_eq, mrest0, oldrun, hd, hd', decide_true, scaleAdd, hz', hc, hcast]
          exact key _ _ (by simp only [oldrun]) (by simp only [oldrun]) rfl rfl rfl
        | some c =>
          simp -implicitDefEqProofs only [rest0_eq, mrest0, oldrun, hd, hd', decide_true, scaleAdd, hc, hcast, Int.cast_natCast]
          cases Vec.add (Vec.smul (.fin (len : ℝ)) c) x with
          | error e => simp -implicitDefEqProofs only [oldrun]
          | ok t =>
            simp -implicitDefEqProofs only [oldrun, hc, hcast]
            exact key _ _ (by simp only [oldrun]) (by simp only [oldrun]) rfl rfl rfl
    · have hd' : ¬ (dim : ℤ) = (x.length : ℤ) := by exact_mod_cast hd
      simp -implicitDefEqProofs only [rest0_eq, mrest0, oldrun, hd, hd', decide_false]
  rw [model_eq]
  unfold runAdd callMethod
  rw [add_text]
  cases points with
  | nil =>
    simp -implicitDefEqProofs only [oldrun, List.map_nil, List.isEmpty_nil]
    exact key2 _ rfl rfl rfl
  | cons p points =>
    simp -implicitDefEqProofs only [oldrun, List.map_cons, List.isEmpty_cons]
    exact key2 _ rfl rfl rfl

theorem mrest_good (x : Vec) (i : Option ℤ) (s : V0.Cluster) (h : Good s) : Good (mrest x i s.boxed s.box s).state := by
  obtain ⟨radial, boxed, len, center, box, points, indices, dim⟩ := s
  cases boxed with
  | false =>
    cases i <;> (simp -implicitDefEqProofs only [mrest, oldrun]; exact h)
  | true =>
    simp -implicitDefEqProofs only [mrest, oldrun]
    cases hx : Vec.amax x with
    | error e => exact h
    | ok mx =>
      have hx' : x ≠ [] := by
        rintro rfl
        cases hx
      simp -implicitDefEqProofs only [oldrun]
      by_cases h1 : XR.lt mx (.fin 1) ∨ mx = .fin 1
      · simp -implicitDefEqProofs only [oldrun, h1]
        cases Vec.amin x with
        | error e => exact h
        | ok mn =>
          simp -implicitDefEqProofs only [oldrun]
          by_cases h2 : XR.lt (.fin 0) mn ∨ mn = .fin 0
          · cases box with
            | none =>
              have hn : ∀ b, some (x ++ x.map fun y => XR.fin 1 - y) = some b → 2 ≤ b.length := by
                rintro b hb
                cases hb
                have := List.length_pos_iff.2 hx'
                simp only [List.length_append, List.length_map]
                omega
              cases i <;> (simp -implicitDefEqProofs only [oldrun, h2]; exact hn)
            | some b => simp -implicitDefEqProofs only [oldrun, h2]; exact h
          · simp -implicitDefEqProofs only [oldrun, h2]; exact h
      · simp -implicitDefEqProofs only [oldrun, h1]; exact h

theorem mrest0_good (x : Vec) (i : Option ℤ) (s : V0.Cluster) (h : Good s) : Good (mrest0 x i s s).state := by
  by_cases hd : s.dim = x.length
  · cases hr : s.radial with
    | false =>
      simp -implicitDefEqProofs only [mrest0, oldrun, hd, hr]
      exact mrest_good x i s h
    | true =>
      simp -implicitDefEqProofs only [mrest0, oldrun, hd, hr]
      cases scaleAdd s.len s.center x with
      | error e => exact h
      | ok t =>
        simp -implicitDefEqProofs only [oldrun]
        exact mrest_good x i { s with radial := true, dim := x.length, center := some (vdiv t (.fin ((s.len + 1 : ℕ) : ℝ))) } h
  · simp -implicitDefEqProofs only [mrest0, oldrun, hd]; exact h

/-- Bounding boxes keep at least two entries. -/
theorem add_good (x : Vec) (i : Option ℤ) (o : V0.Cluster) (h : Good o) : Good (V0.Cluster.addPoint x i o).state := by
  rw [model_eq]
  split_ifs with h1
  · exact mrest0_good x i { o with dim := x.length } h
  · exact mrest0_good x i o h

theorem foldE_all {ι α β : Type} (g : ι → Except PyErr α) (h : β → α → β) (l : List ι) (b : β) :
    foldE (fun j b => g j >>= fun y => .ok (h b y)) l b = mapE g l >>= fun ys => .ok (ys.foldl h b) := by
  have := foldE_filter (fun _ => true) g h l b
  simpa using this

/-- `min_distance` -/
theorem min_eq (x : Vec) (o : V0.Cluster) : (callMethod host Cluster.min_distance [.vec x] [] o).val =
    (V0.Cluster.minDistance o x).map fun y => .num (.flt (!o.points.isEmpty) y) := by
  simp -implicitDefEqProofs only [callMethod, Cluster.min_distance, oldrun, V0.Cluster.minDistance]
  generalize hR : runLoop _ _ _ _ _ = R
  have hd := loop_run hR (f := fun (y : Vec) (b : Nm) => (do let e ← Vec.sub x y; pure (V0.norm 2 e) : Except PyErr XR) >>= fun e => .ok (.flt true (XR.min b.val e)))
    (Inv := fun L s b => L.get .x = .ok (.vec x) ∧ L.get .norm_ord = .ok (.int 2) ∧ L.get .min_d = .ok (.num b) ∧ ∃ c y, b = .flt c y)
    (b := .flt false .pinf) ⟨by simp only [oldrun], by simp only [oldrun], by simp only [oldrun], _, _, rfl⟩ (by
      rintro L s b y - ⟨h1, h2, h3, c, z, rfl⟩
      simp -implicitDefEqProofs only [oldrun, h1, h2, h3]
      cases Vec.sub x y with
      | error e => exact ⟨_, rfl⟩
      | ok e =>
        simp -implicitDefEqProofs only [oldrun, h1, h2, h3]
        exact ⟨_, _, rfl, by simp only [oldrun, h1], by simp only [oldrun, h2], by simp only [oldrun], _, _, rfl⟩)
  rw [foldE_all _ fun (b : Nm) e => Nm.flt true (XR.min b.val e)] at hd
  have hfold : ∀ (l : List XR) (c : Bool) (z : XR), l.foldl (fun (b : Nm) e => Nm.flt true (XR.min b.val e)) (.flt c z) =
      .flt (if l = [] then c else true) (l.foldl XR.min z) := by
    intro l
    induction l with
    | nil => intro c z; rfl
    | cons a l ih => intro c z; simp only [List.foldl_cons, ih, Nm.val_flt]; simp
  cases hm : mapE (fun y => (do let e ← Vec.sub x y; pure (V0.norm 2 e) : Except PyErr XR)) o.points with
  | error e =>
    rw [hm] at hd
    obtain ⟨s', rfl⟩ := hd
    simp -implicitDefEqProofs only [oldrun] at hm
    rw [hm]
    rfl
  | ok ds =>
    rw [hm] at hd
    obtain ⟨L', s', rfl, -, -, h3, -⟩ := hd
    simp -implicitDefEqProofs only [oldrun] at hm
    rw [hm]
    simp -implicitDefEqProofs only [oldrun, h3, hfold]
    have hl : ds = [] ↔ o.points = [] := by
      have := (mapE_inv hm).1
      rw [← List.length_eq_zero_iff, this, List.length_eq_zero_iff]
    by_cases he : o.points = []
    · simp [Res.val, Except.map, hl.2 he, he]
    · have hp : o.points.isEmpty = false := by simpa using he
      simp [Res.val, Except.map, mt hl.1 he, hp]

/-- `avg_distance` -/
theorem avg_eq (x : Vec) (o : V0.Cluster) : (callMethod host Cluster.avg_distance [.vec x] [] o).val =
    (V0.Cluster.avgDistance o x).map fun y => .num (.flt (!o.points.isEmpty) y) := by
  simp -implicitDefEqProofs only [callMethod, Cluster.avg_distance, oldrun, V0.Cluster.avgDistance]
  generalize hR : runLoop _ _ _ _ _ = R
  have hd := loop_run hR (f := fun (y : Vec) (b : Nm) => (do let e ← Vec.sub x y; pure (V0.norm 2 e) : Except PyErr XR) >>= fun e => .ok (b.add (.flt true e)))
    (Inv := fun L s b => L.get .x = .ok (.vec x) ∧ L.get .norm_ord = .ok (.int 2) ∧ L.get .avg_d = .ok (.num b) ∧ s = o)
    (b := .int false 0) ⟨by simp only [oldrun], by simp only [oldrun], by simp only [oldrun], rfl⟩ (by
      rintro L s b y - ⟨h1, h2, h3, rfl⟩
      simp -implicitDefEqProofs only [oldrun, h1, h2, h3]
      cases Vec.sub x y with
      | error e => exact ⟨_, rfl⟩
      | ok e =>
        simp -implicitDefEqProofs only [oldrun, h1, h2, h3]
        exact ⟨_, _, rfl, by simp only [oldrun, h1], by simp only [oldrun, h2], by simp only [oldrun], rfl⟩)
  rw [foldE_all _ fun (b : Nm) e => b.add (.flt true e)] at hd
  cases hm : mapE (fun y => (do let e ← Vec.sub x y; pure (V0.norm 2 e) : Except PyErr XR)) o.points with
  | error e =>
    rw [hm] at hd
    obtain ⟨s', rfl⟩ := hd
    simp -implicitDefEqProofs only [oldrun] at hm
    rw [hm]
    rfl
  | ok ds =>
    rw [hm] at hd
    obtain ⟨L', s', rfl, -, -, h3, rfl⟩ := hd
    simp -implicitDefEqProofs only [oldrun] at hm
    rw [hm]
    simp -implicitDefEqProofs only [oldrun, h3]
    have hl : ds = [] ↔ s'.points = [] := by
      have := (mapE_inv hm).1
      rw [← List.length_eq_zero_iff, this, List.length_eq_zero_iff]
    cases ds with
    | nil =>
      have he := hl.1 rfl
      by_cases h0 : s'.len = 0
      · simp [Nm.div, Nm.val, Nm.np, h0, andThen, Res.val, Except.map]
      · simp [Nm.div, Nm.val, Nm.np, h0, andThen, Res.val, Except.map, he]
        rfl
    | cons a ds =>
      have hp : s'.points.isEmpty = false := by
        have : ¬ s'.points = [] := fun h => by simpa using hl.2 h
        simpa using this
      have hf : ∀ (l : List XR) (z : XR), l.foldl (fun (b : Nm) e => b.add (.flt true e)) (.flt true z) = .flt true (z + l.sum) := by
        intro l
        induction l with
        | nil => intro z; simp
        | cons a l ih =>
          intro z
          have h := ih (z + a)
          rw [add_assoc] at h
          exact h
      have h0 : XR.fin ((0 : ℤ) : ℝ) + a = a := by rw [Int.cast_zero]; exact zero_add a
      have hs : (a :: ds).foldl (fun (b : Nm) e => b.add (.flt true e)) (.int false 0) = .flt true (a + ds.sum) := by
        refine Eq.trans ?_ (hf ds a)
        rw [List.foldl_cons, Nm.add_flt, Nm.val_int, h0]
        rfl
      simp only [Nm.add_flt, Bool.or_true] at hs
      rw [hs]
      simp [Nm.div, Nm.val, Nm.np, andThen, Res.val, Except.map, hp]

/-- `center_distance` -/
theorem center_eq (x : Vec) (o : V0.Cluster) :
    callMethod host Cluster.center_distance [.vec x] [] o = andThen (V0.Cluster.centerDistance o x >>= fun y => .ok (.npf y)) o fun v => .ok v o := by
  obtain ⟨radial, boxed, len, center, box, points, indices, dim⟩ := o
  cases center with
  | none => simp -implicitDefEqProofs only [callMethod, Cluster.center_distance, oldrun, V0.Cluster.centerDistance, Int.cast_zero]
  | some c =>
    simp -implicitDefEqProofs only [callMethod, Cluster.center_distance, oldrun, V0.Cluster.centerDistance]

/-- `within_bounding_box` -/
theorem within_eq (x b : Vec) (o : V0.Cluster) (hb : o.box = some b) :
    callMethod host Cluster.within_bounding_box [.vec x] [] o = andThen (V0.Cluster.withinBox b x >>= fun y => .ok (.bool y)) o fun v => .ok v o := by
  simp -implicitDefEqProofs only [callMethod, Cluster.within_bounding_box, oldrun, V0.Cluster.withinBox, hb, arrayEqual]

end
end Clu
end Verif.Old
