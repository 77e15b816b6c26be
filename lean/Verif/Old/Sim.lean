import Verif.Old.Funcs

/-! # Objects with typed attributes, and loops -/

set_option linter.unusedSectionVars false
set_option linter.constructorNameAsVariable false

namespace Verif.Old
open V0

variable {σ τ α β ι : Type}

/-- The same exception, or related values and objects. -/
def Sim (R : α → σ → β → τ → Prop) : Res σ α → Res τ β → Prop
  | .ok v s, .ok y t => R v s y t
  | .err e _, .err e' _ => e = e'
  | _, _ => False

theorem sim_bind {R : α → σ → β → τ → Prop} {x : Except PyErr ι} {s : σ} {t : τ} {k : ι → Res σ α} {k' : ι → Res τ β}
    (h : ∀ a, x = .ok a → Sim R (k a) (k' a)) : Sim R (andThen x s k) (andThen x t k') := by
  cases x with
  | error e => rfl
  | ok a => exact h a rfl

/-- The same exception and related objects, or related values and objects. -/
def SimS (R : α → σ → β → τ → Prop) (E : σ → τ → Prop) : Res σ α → Res τ β → Prop
  | .ok v s, .ok y t => R v s y t
  | .err e s, .err e' t => e = e' ∧ E s t
  | _, _ => False

theorem simS_bind {R : α → σ → β → τ → Prop} {E : σ → τ → Prop} {x : Except PyErr ι} {s : σ} {t : τ}
    {k : ι → Res σ α} {k' : ι → Res τ β} (he : ∀ e, x = .error e → E s t) (h : ∀ a, x = .ok a → SimS R E (k a) (k' a)) :
    SimS R E (andThen x s k) (andThen x t k') := by
  cases x with
  | error e => exact ⟨rfl, he e rfl⟩
  | ok a => exact h a rfl

theorem simS_mono {R R' : α → σ → β → τ → Prop} {E E' : σ → τ → Prop} (h : ∀ a s b t, R a s b t → R' a s b t)
    (he : ∀ s t, E s t → E' s t) {r : Res σ α} {m : Res τ β} (hs : SimS R E r m) : SimS R' E' r m := by
  cases r <;> cases m
  · exact h _ _ _ _ hs
  · exact hs.elim
  · exact hs.elim
  · exact ⟨hs.1, he _ _ hs.2⟩

/-! ## Lists of values -/

/-- A list of natural numbers, or `none`. -/
def nats : List PV → Option (List ℕ)
  | [] => some []
  | .num (.int false z) :: l => if 0 ≤ z then (nats l).map (z.toNat :: ·) else Option.none
  | _ :: _ => Option.none

/-- A Python int. -/
def natV (n : ℕ) : PV := .int n

theorem nats_append (l : List ℕ) (n : ℕ) : nats (l.map natV ++ [natV n]) = some (l ++ [n]) := by
  induction l with
  | nil => simp [nats, natV]
  | cons a l ih =>
    simp only [natV] at ih
    simp [nats, natV, ih]
theorem nats_map (l : List ℕ) : nats (l.map natV) = some l := by
  induction l with
  | nil => rfl
  | cons a l ih => simp [nats, natV, ← ih]
theorem nums_append (l : List Nm) (n : Nm) : nums (l.map .num ++ [.num n]) = some (l ++ [n]) := by
  rw [← nums_map (l ++ [n])]; simp
theorem vecs_append (l : List Vec) (n : Vec) : vecs (l.map .vec ++ [.vec n]) = some (l ++ [n]) := by
  rw [← vecs_map (l ++ [n])]; simp

/-- A list of numbers is assigned. -/
def setNums (v : PV) (k : List Nm → σ) : Except PyErr σ :=
  match v with
  | .list l => match nums l with
    | some ns => .ok (k ns)
    | Option.none => stuck
  | _ => stuck
/-- A list of arrays is assigned. -/
def setVecs (v : PV) (k : List Vec → σ) : Except PyErr σ :=
  match v with
  | .list l => match vecs l with
    | some ns => .ok (k ns)
    | Option.none => stuck
  | _ => stuck
/-- A list of counts is assigned. -/
def setNats (v : PV) (k : List ℕ → σ) : Except PyErr σ :=
  match v with
  | .list l => match nats l with
    | some ns => .ok (k ns)
    | Option.none => stuck
  | _ => stuck
/-- A number is assigned. -/
def setNum (v : PV) (k : Nm → σ) : Except PyErr σ :=
  match v with
  | .num n => .ok (k n)
  | _ => stuck
/-- A count is assigned. -/
def setNat (v : PV) (k : ℕ → σ) : Except PyErr σ :=
  match v with
  | .num (.int false z) => if 0 ≤ z then .ok (k z.toNat) else stuck
  | _ => stuck
/-- `None` or an array is assigned. -/
def setOpt (v : PV) (k : Option Vec → σ) : Except PyErr σ :=
  match v with
  | .none => .ok (k Option.none)
  | .vec v => .ok (k (some v))
  | _ => stuck
/-- A 2-D array is assigned. -/
def setMat (v : PV) (k : Arr2 → σ) : Except PyErr σ :=
  match v with
  | .mat m => .ok (k m)
  | _ => stuck

section Set
variable (k : List Nm → σ) (kv : List Vec → σ) (kn : List ℕ → σ) (k1 : Nm → σ) (k2 : ℕ → σ) (k3 : Option Vec → σ) (k4 : Arr2 → σ)
@[oldrun] theorem setNums_map (l : List Nm) : setNums (.list (l.map .num)) k = .ok (k l) := by simp only [setNums, nums_map]
@[oldrun] theorem setNums_append (l : List Nm) (n : Nm) : setNums (.list (l.map .num ++ [.num n])) k = .ok (k (l ++ [n])) := by
  simp only [setNums, nums_append]
@[oldrun] theorem setNums_nil : setNums (.list []) k = .ok (k []) := rfl
@[oldrun] theorem setVecs_map (l : List Vec) : setVecs (.list (l.map .vec)) kv = .ok (kv l) := by simp only [setVecs, vecs_map]
@[oldrun] theorem setVecs_append (l : List Vec) (n : Vec) : setVecs (.list (l.map .vec ++ [.vec n])) kv = .ok (kv (l ++ [n])) := by
  simp only [setVecs, vecs_append]
@[oldrun] theorem setVecs_nil : setVecs (.list []) kv = .ok (kv []) := rfl
@[oldrun] theorem setNats_map (l : List ℕ) : setNats (.list (l.map natV)) kn = .ok (kn l) := by simp only [setNats, nats_map]
@[oldrun] theorem setNats_append_one (l : List ℕ) : setNats (.list (l.map natV ++ [.num (.int false 1)])) kn = .ok (kn (l ++ [1])) := by
  have h := nats_append l 1
  simp only [natV, Nat.cast_one] at h
  simp only [setNats, h]
@[oldrun] theorem setNats_nil : setNats (.list []) kn = .ok (kn []) := rfl
@[oldrun] theorem setNum_num (n : Nm) : setNum (.num n) k1 = .ok (k1 n) := rfl
@[oldrun] theorem setNat_succ (n : ℕ) : setNat (.num (.int false ((n : ℤ) + 1))) k2 = .ok (k2 (n + 1)) := rfl
@[oldrun] theorem setNat_zero : setNat (.num (.int false 0)) k2 = .ok (k2 0) := rfl
@[oldrun] theorem setOpt_none : setOpt .none k3 = .ok (k3 Option.none) := rfl
@[oldrun] theorem setOpt_vec (v : Vec) : setOpt (.vec v) k3 = .ok (k3 (some v)) := rfl
@[oldrun] theorem setMat_mat (m : Arr2) : setMat (.mat m) k4 = .ok (k4 m) := rfl
end Set

theorem getAt_map (f : α → β) (l : List α) (c : ℤ) : getAt (l.map f) c = getAt l c >>= fun a => .ok (f a) := by
  unfold getAt
  rw [List.length_map]
  cases h : pyIdx l.length c with
  | none => rfl
  | some i =>
    simp only [List.getElem?_map]
    cases l[i]? <;> rfl
theorem setAt_map (f : α → β) (l : List α) (c : ℤ) (a : α) : setAt (l.map f) c (f a) = setAt l c a >>= fun l' => .ok (l'.map f) := by
  unfold setAt
  rw [List.length_map]
  cases h : pyIdx l.length c with
  | none => rfl
  | some i => simp [List.map_set]

section Items
@[oldrun] theorem get_nums (l : List Nm) (c : ℤ) : getAt (l.map PV.num) c = getAt l c >>= fun a => .ok (PV.num a) := getAt_map _ _ _
@[oldrun] theorem get_vecs (l : List Vec) (c : ℤ) : getAt (l.map PV.vec) c = getAt l c >>= fun a => .ok (PV.vec a) := getAt_map _ _ _
@[oldrun] theorem get_nats (l : List ℕ) (c : ℤ) : getAt (l.map natV) c = getAt l c >>= fun a => .ok (PV.num (.int false a)) := getAt_map _ _ _
@[oldrun] theorem set_nums (l : List Nm) (c : ℤ) (n : Nm) :
    setAt (l.map PV.num) c (PV.num n) = setAt l c n >>= fun a => .ok (a.map PV.num) := setAt_map _ _ _ _
@[oldrun] theorem set_vecs (l : List Vec) (c : ℤ) (n : Vec) :
    setAt (l.map PV.vec) c (PV.vec n) = setAt l c n >>= fun a => .ok (a.map PV.vec) := setAt_map _ _ _ _
@[oldrun] theorem set_nats (l : List ℕ) (c : ℤ) (n : ℕ) :
    setAt (l.map natV) c (PV.num (.int false n)) = setAt l c n >>= fun a => .ok (a.map natV) := setAt_map natV _ _ _
@[oldrun] theorem cpTuple_eq (u : CPUpdate) :
    cpTuple u = .list [.num (.flt true u.cp), .vec u.g, .vec u.v, .num (.int false u.n)] := rfl
attribute [oldrun] List.length_map
end Items

/-! ## Positions -/

theorem getAt_set {l : List α} {c : ℤ} {i : ℕ} (h : pyIdx l.length c = some i) (a : α) : getAt (l.set i a) c = .ok a := by
  have hi := pyIdx_lt h
  unfold getAt
  rw [List.length_set, h]
  simp [hi]
theorem setAt_set {l : List α} {c : ℤ} {i : ℕ} (h : pyIdx l.length c = some i) (a b : α) : setAt (l.set i a) c b = .ok (l.set i b) := by
  unfold setAt
  rw [List.length_set, h]
  simp
theorem getAt_last (l : List α) (a : α) {c : ℤ} (h : c = l.length) : getAt (l ++ [a]) c = .ok a := by
  subst h
  simp [getAt, pyIdx]
theorem setAt_last (l : List α) (a b : α) {c : ℤ} (h : c = l.length) : setAt (l ++ [a]) c b = .ok (l ++ [b]) := by
  subst h
  simp [setAt, pyIdx]
theorem pyIdx_last {n : ℕ} {c : ℤ} (h : c = n) : pyIdx (n + 1) c = some n := by
  subst h
  simp [pyIdx]
theorem getAt_ok {l : List α} {c : ℤ} {i : ℕ} (h : pyIdx l.length c = some i) : ∃ a, getAt l c = .ok a :=
  let ⟨a, _, h⟩ := getAt_isOk h
  ⟨a, h⟩

/-! ## Division, sums, comprehensions -/

theorem div_ok {m n : Nm} (h : n.np = true ∨ n.val ≠ .fin 0) : m.div n = .ok (.flt (m.np || n.np) (m.val / n.val)) := by
  unfold Nm.div
  rw [if_neg]
  rintro ⟨h1, h2⟩
  rcases h with h | h
  · rw [h, Bool.or_true] at h1; cases h1
  · exact h h2

theorem div_nat {m : Nm} {n : ℕ} (h : n ≠ 0) (b : Bool) : m.div (.int b n) = .ok (.flt (m.np || b) (m.val / .fin (n : ℝ))) := by
  rw [div_ok (Or.inr (by simp [Nm.val, h]))]
  simp [Nm.val, Nm.np]

theorem div_np (m : Nm) (y : XR) : m.div (.flt true y) = .ok (.flt true (m.val / y)) := by
  rw [div_ok (Or.inl rfl)]
  simp [Nm.val, Nm.np]

theorem foldl_add_val (l : List Nm) (a : Nm) : (l.foldl Nm.add a).val = a.val + (l.map Nm.val).sum := by
  induction l generalizing a with
  | nil => simp
  | cons b l ih => simp [ih, Nm.val_add, add_assoc]

theorem pySum_val (l : List Nm) : (pySum l).val = (l.map Nm.val).sum := by
  have h0 : (Nm.int false 0).val = (0 : XR) := by simp [Nm.val]; rfl
  rw [pySum, foldl_add_val, h0, zero_add]

theorem npSum_val (l : List Nm) : (npSum l).val = (l.map Nm.val).sum := by
  rw [← pySum_val]
  unfold npSum
  cases pySum l <;> rfl

@[oldrun] theorem mapE_map {α β γ : Type} (f : β → Except PyErr γ) (e : α → β) (l : List α) : mapE f (l.map e) = mapE (fun a => f (e a)) l := by
  induction l with
  | nil => rfl
  | cons a l ih => simp only [List.map_cons, mapE, ih]

@[oldrun] theorem mapE_pure {α β : Type} (g : α → β) (l : List α) : mapE (fun a => .ok (g a)) l = .ok (l.map g) := by
  induction l with
  | nil => rfl
  | cons a l ih => simp only [List.map_cons, mapE, ih]; rfl

theorem mapE_post {α β γ : Type} {f : α → Except PyErr γ} {g : α → Except PyErr β} {e : β → γ} (l : List α)
    (h : ∀ a, f a = g a >>= fun y => .ok (e y)) : mapE f l = mapE g l >>= fun ys => .ok (ys.map e) := by
  induction l with
  | nil => rfl
  | cons a l ih =>
    simp only [mapE, ih, h]
    cases g a with
    | error e => rfl
    | ok y =>
      simp only [except_bind_ok]
      cases mapE g l <;> rfl

theorem mapE_inv {α β : Type} {f : α → Except PyErr β} {l : List α} {es : List β} (h : mapE f l = .ok es) :
    es.length = l.length ∧ ∀ e ∈ es, ∃ a ∈ l, f a = .ok e := by
  induction l generalizing es with
  | nil => cases h; simp
  | cons a l ih =>
    simp only [mapE] at h
    cases h1 : f a with
    | error e => rw [h1] at h; cases h
    | ok b =>
      rw [h1, except_bind_ok] at h
      cases h2 : mapE f l with
      | error e => rw [h2] at h; cases h
      | ok bs =>
        rw [h2] at h
        cases h
        obtain ⟨h3, h4⟩ := ih h2
        refine ⟨by simp [h3], ?_⟩
        intro e he
        rcases List.mem_cons.1 he with rfl | he
        · exact ⟨a, List.mem_cons_self, h1⟩
        · obtain ⟨a', ha', h5⟩ := h4 e he
          exact ⟨a', List.mem_cons_of_mem _ ha', h5⟩

theorem mapE_all {α β : Type} {f : α → Except PyErr β} {l : List α} (h : ∀ a ∈ l, ∃ y, f a = .ok y) : ∃ ys, mapE f l = .ok ys := by
  induction l with
  | nil => exact ⟨[], rfl⟩
  | cons a l ih =>
    obtain ⟨y, hy⟩ := h a List.mem_cons_self
    obtain ⟨ys, hys⟩ := ih fun b hb => h b (List.mem_cons_of_mem _ hb)
    exact ⟨y :: ys, by simp only [mapE, hy, hys, except_bind_ok, except_pure]⟩

theorem filterE_map {α : Type} {p : PV → Except PyErr Bool} {q : α → Bool} (e : α → PV) (l : List α) (h : ∀ a, p (e a) = .ok (q a)) :
    filterE p (l.map e) = .ok ((l.filter q).map e) := by
  induction l with
  | nil => rfl
  | cons a l ih =>
    simp only [List.map_cons, filterE, h, ih, except_bind_ok]
    cases hq : q a <;> simp [hq]

theorem sum_vecs {l : List Vec} (h : l ≠ []) : builtin .np_sum [.list (l.map .vec)] = sumAll l >>= fun y => .ok (.npf y) := by
  cases l with
  | nil => exact absurd rfl h
  | cons a l =>
    have h1 : nums (.vec a :: l.map .vec) = Option.none := rfl
    have h2 := vecs_map (a :: l)
    simp only [List.map_cons] at h2 ⊢
    simp only [builtin, h1, h2]

@[oldrun] theorem sum_nums (l : List Nm) : builtin .np_sum [.list (l.map .num)] = .ok (.num (npSum l)) := by
  simp only [builtin, nums_map]

@[oldrun] theorem gen_nums (l : List Nm) : builtin .np_sum_generator [.list (l.map .num)] = .ok (.num (pySum l)) := by
  simp only [builtin, nums_map]

@[oldrun] theorem gen_flts {α : Type} (f : α → XR) (l : List α) : builtin .np_sum_generator [.list (l.map fun a => .num (.flt true (f a)))] =
    .ok (.num (pySum (l.map fun a => .flt true (f a)))) := by
  rw [← gen_nums, List.map_map]; rfl

theorem min_flts (l : List XR) : builtin .np_min [.list (l.map PV.npf)] = Vec.amin l >>= fun y => .ok (.npf y) := by
  have h : mapE asFlt (l.map PV.npf) = .ok l := by
    rw [mapE_map]
    exact (mapE_pure (fun y => y) l).trans (by rw [List.map_id'])
  simp only [builtin, h, except_bind_ok]

/-! ## Loops -/

/-- Fold a function that may raise. -/
def foldE (f : ι → β → Except PyErr β) : List ι → β → Except PyErr β
  | [], b => .ok b
  | j :: l, b => f j b >>= foldE f l

theorem foldE_filter (p : ι → Bool) (g : ι → Except PyErr α) (h : β → α → β) (l : List ι) (b : β) :
    foldE (fun j b => bif p j then g j >>= fun y => .ok (h b y) else .ok b) l b =
      mapE g (l.filter p) >>= fun ys => .ok (ys.foldl h b) := by
  induction l generalizing b with
  | nil => rfl
  | cons j l ih =>
    cases hp : p j with
    | false =>
      have h1 : ¬ p j = true := by simp [hp]
      simp only [foldE, hp, cond_false, except_bind_ok, ih, List.filter_cons_of_neg (p := p) h1]
    | true =>
      simp only [foldE, hp, cond_true, List.filter_cons_of_pos (p := p) hp, mapE]
      cases g j with
      | error e => rfl
      | ok y =>
        simp only [except_bind_ok, ih]
        cases mapE g (l.filter p) <;> rfl

/-- What a computation does, given what a function that may raise returns. -/
def Does (r : Res σ (Locals × Flow)) (Inv : Locals → σ → β → Prop) : Except PyErr β → Prop
  | .ok b => ∃ L s, r = .ok (L, .next) s ∧ Inv L s b
  | .error e => ∃ s, r = .err e s

theorem loop_does {y : Var} {body : Locals → σ → Res σ (Locals × Flow)} (enc : ι → PV) {Inv : Locals → σ → β → Prop}
    {f : ι → β → Except PyErr β} (l : List ι)
    (step : ∀ L s b j, j ∈ l → Inv L s b → Does (body (L.put y (enc j)) s) Inv (f j b)) :
    ∀ L s b, Inv L s b → Does (runLoop y body (l.map enc) L s) Inv (foldE f l b) := by
  induction l with
  | nil => exact fun L s b h => ⟨L, s, rfl, h⟩
  | cons j l ih =>
    intro L s b h
    have h1 := step L s b j List.mem_cons_self h
    simp only [foldE, List.map_cons, runLoop]
    cases hf : f j b with
    | error e =>
      rw [hf] at h1
      obtain ⟨s', h1⟩ := h1
      exact ⟨s', by rw [h1]; rfl⟩
    | ok b' =>
      rw [hf] at h1
      obtain ⟨L', s', h1, h2⟩ := h1
      rw [h1]
      exact ih (fun L s b j hj => step L s b j (List.mem_cons_of_mem _ hj)) L' s' b' h2

theorem loop_run {y : Var} {body : Locals → σ → Res σ (Locals × Flow)} {enc : ι → PV} {l : List ι} {L : Locals} {s : σ}
    {r : Res σ (Locals × Flow)} (hr : runLoop y body (l.map enc) L s = r) {f : ι → β → Except PyErr β}
    {Inv : Locals → σ → β → Prop} {b : β} (h0 : Inv L s b)
    (step : ∀ L s b j, j ∈ l → Inv L s b → Does (body (L.put y (enc j)) s) Inv (f j b)) : Does r Inv (foldE f l b) :=
  hr ▸ loop_does enc l step L s b h0

end Verif.Old
