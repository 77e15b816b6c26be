import Verif.Source.Fold

/-! # Batch mode: loops that change the object, comprehensions, broadcasting -/

set_option linter.unusedSectionVars false
set_option linter.constructorNameAsVariable false
set_option linter.unusedSimpArgs false

namespace Verif.Source

variable {F : Type} [Arith F] {σ : Type}

/-! ## Loops whose model is a loop -/

/-- `r` ends as the model `q` does; if it goes on, then in a situation that satisfies `P`. -/
def Follows {τ : Type} (P : τ → Locals F → σ → Prop) (q : Res τ Unit) (r : Res σ (Locals F × Flow F)) : Prop :=
  match q with
  | .err e _ => ∃ s', r = .err e s'
  | .ok _ t => ∃ L' fl s', r = .ok (L', fl) s' ∧ goesOn fl ∧ P t L' s'

section Follows
variable {τ : Type} {P : τ → Locals F → σ → Prop}

theorem Follows.andThen {β : Type} {x : Except PyErr β} {t : τ} {s : σ} {f : β → Res τ Unit} {k : β → Res σ (Locals F × Flow F)}
    (h : ∀ a, x = .ok a → Follows P (f a) (k a)) : Follows P (Source.andThen x t f) (Source.andThen x s k) := by
  cases x with
  | error e => exact ⟨s, rfl⟩
  | ok a => exact h a rfl

theorem Follows.skip {β : Type} {x : Except PyErr β} {b : β} {q : Res τ Unit} {s : σ} {k : β → Res σ (Locals F × Flow F)}
    (hx : x = .ok b) (h : Follows P q (k b)) : Follows P q (Source.andThen x s k) := by
  subst hx; exact h

theorem Follows.ok {t : τ} {L : Locals F} {s : σ} {fl : Flow F} (hg : goesOn fl) (h : P t L s) :
    Follows P (.ok () t) (.ok (L, fl) s) := ⟨L, fl, s, rfl, hg, h⟩

theorem loop_each_aux {y : Var} {body : Locals F → σ → Res σ (Locals F × Flow F)} {step : ℕ → Py τ Unit}
    {P : List ℕ → τ → Locals F → σ → Prop} {l0 : List ℕ}
    (hstep : ∀ d j r, l0 = d ++ j :: r → ∀ t L s, P d t L s → Follows (P (d ++ [j])) (step j t) (body (L.put y (.int false (j : ℕ))) s))
    (l : List ℕ) : ∀ (d : List ℕ) {t : τ} {L : Locals F} {s : σ} {r : Res σ (Locals F × Flow F)} {q : Res τ Unit}, l0 = d ++ l →
    runLoop y body l L s = r → Py.forEach l step t = q → P d t L s →
    (∃ e t' s', q = .err e t' ∧ r = .err e s') ∨ ∃ t' L' s', q = .ok () t' ∧ r = .ok (L', .next) s' ∧ P l0 t' L' s' := by
  induction l with
  | nil =>
    rintro d t L s r q hl rfl rfl h0
    simp only [List.append_nil] at hl
    subst hl
    exact .inr ⟨t, L, s, rfl, rfl, h0⟩
  | cons j l ih =>
    rintro d t L s r q hl hr hq h0
    have hs := hstep d j l hl t L s h0
    simp only [Py.forEach, Py.bind_apply] at hq
    cases hq' : step j t with
    | err e t' =>
      simp only [hq', Follows] at hs
      obtain ⟨s', hs⟩ := hs
      simp only [hq', Res.bind_err] at hq
      simp only [runLoop, hs, Res.bind_err] at hr
      exact .inl ⟨e, t', s', hq.symm, hr.symm⟩
    | ok u t' =>
      simp only [hq', Follows] at hs
      obtain ⟨L', fl, s', hb, hgo, hP'⟩ := hs
      simp only [hq', Res.bind_ok] at hq
      rw [runLoop_cons hb hgo] at hr
      exact ih (d ++ [j]) (by simp [hl]) hr hq hP'

/-- A loop follows the model's loop if each iteration does; `P` may mention the indices that are done. -/
theorem loop_each' {y : Var} {body : Locals F → σ → Res σ (Locals F × Flow F)} {step : ℕ → Py τ Unit}
    (P : List ℕ → τ → Locals F → σ → Prop) {l : List ℕ} {t : τ} {L : Locals F} {s : σ} {r : Res σ (Locals F × Flow F)} {q : Res τ Unit}
    (hr : runLoop y body l L s = r) (hq : Py.forEach l step t = q) (h0 : P [] t L s)
    (hstep : ∀ d j r, l = d ++ j :: r → ∀ t L s, P d t L s → Follows (P (d ++ [j])) (step j t) (body (L.put y (.int false (j : ℕ))) s)) :
    (∃ e t' s', q = .err e t' ∧ r = .err e s') ∨ ∃ t' L' s', q = .ok () t' ∧ r = .ok (L', .next) s' ∧ P l t' L' s' :=
  loop_each_aux hstep l [] rfl hr hq h0

theorem loop_each {y : Var} {body : Locals F → σ → Res σ (Locals F × Flow F)} {step : ℕ → Py τ Unit}
    {l : List ℕ} {t : τ} {L : Locals F} {s : σ} {r : Res σ (Locals F × Flow F)} {q : Res τ Unit}
    (hr : runLoop y body l L s = r) (hq : Py.forEach l step t = q) (h0 : P t L s)
    (hstep : ∀ j ∈ l, ∀ t L s, P t L s → Follows P (step j t) (body (L.put y (.int false (j : ℕ))) s)) :
    (∃ e t' s', q = .err e t' ∧ r = .err e s') ∨ ∃ t' L' s', q = .ok () t' ∧ r = .ok (L', .next) s' ∧ P t' L' s' :=
  loop_each' (fun _ => P) hr hq h0 fun _ j _ hl => hstep j (hl ▸ by simp)
end Follows

/-! ## Comprehensions -/

theorem mapE_const {α β : Type} (b : β) (l : List α) : mapE (fun _ => (.ok b : Except PyErr β)) l = .ok (List.replicate l.length b) := by
  induction l with
  | nil => rfl
  | cons a l ih => simp only [mapE, ih, except_bind_ok, except_pure, List.length_cons, List.replicate_succ]

theorem mapE_pure {α β : Type} (f : α → β) (l : List α) : mapE (fun a => (.ok (f a) : Except PyErr β)) l = .ok (l.map f) := by
  induction l with
  | nil => rfl
  | cons a l ih => simp only [mapE, ih, except_bind_ok, except_pure, List.map]

/-- A list of integers as the interpreter builds it: the empty list does not say what it is a list of. -/
def natList (l : List ℕ) : Val F :=
  match l with
  | [] => .fs ⟨false, []⟩
  | a :: l => .ns ⟨false, a :: l⟩

theorem mapE_asNat (l : List ℕ) : mapE asNat (l.map fun j => (.int false (j : ℕ) : Val F)) = .ok l := by
  induction l with
  | nil => rfl
  | cons a l ih => simp only [List.map, mapE, ih, asNat_cast, except_bind_ok, except_pure]

theorem mkSeq_nats (l : List ℕ) : mkSeq (l.map fun j => (.int false (j : ℕ) : Val F)) = .ok (natList l) := by
  cases l with
  | nil => rfl
  | cons a l => simp only [List.map, mkSeq, mapE_asNat, asNat_cast, except_bind_ok, natList]

@[pyrun] theorem mkSeq_zeros (k : ℕ) : mkSeq (List.replicate (List.range k).length (.int false 0 : Val F)) = .ok (natList (List.replicate k 0)) := by
  have := mkSeq_nats (F := F) (List.replicate k 0)
  simpa using this

@[pyrun] theorem mkSeq_zerosF (k : ℕ) : mkSeq (List.replicate (List.range k).length (.flt 0 : Val F)) = .ok (.fs ⟨false, List.replicate k 0⟩) := by
  have := mkSeq_flts (F := F) (List.replicate k 0)
  simpa using this

attribute [pyrun] mapE_const

@[pyrun] theorem set_n_list (l : List ℕ) (m : LabelMap) (s : Core F) :
    setAttr ._n (natList l) (⟨m, s⟩ : Obj F) = .ok ⟨m, { s with n := ⟨false, l⟩ }⟩ := by
  cases l <;> rfl
@[pyrun] theorem set_CP_list (l : List ℕ) (m : LabelMap) (s : Core F) :
    setAttr ._CP (natList l) (⟨m, s⟩ : Obj F) = .ok ⟨m, { s with CP := some ⟨false, l.map Arith.ofNat⟩ }⟩ := by
  cases l <;> rfl
@[pyrun] theorem set_S_list (l : List ℕ) (m : LabelMap) (s : Core F) :
    setAttr ._S (natList l) (⟨m, s⟩ : Obj F) = .ok ⟨m, { s with Sv := ⟨false, l.map Arith.ofNat⟩ }⟩ := by
  cases l <;> rfl
@[pyrun] theorem i_take_list (a : Arr2 F) (l : List ℕ) : itemFn (.mat a) [natList l, .colon] = a.take l >>= fun y => .ok (.mat y) := by
  cases l <;> rfl
@[pyrun] theorem i_gather_list (a : Arr2 F) (b : Bool) (i : ℕ) (l : List ℕ) : itemFn (.mat a) [.int b (i : ℕ), natList l] = gather a i l := by
  cases l <;> rfl

theorem filterE_pure (p : ℕ → Bool) (l : List ℕ) : filterE (fun j => .ok (p j)) l = .ok (l.filter p) := by
  induction l with
  | nil => rfl
  | cons a l ih =>
    simp only [filterE, ih, except_bind_ok]
    cases h : p a <;> simp [h]

theorem filterE_congr {p q : ℕ → Except PyErr Bool} {l : List ℕ} (h : ∀ j ∈ l, p j = q j) : filterE p l = filterE q l := by
  induction l with
  | nil => rfl
  | cons a l ih => simp only [filterE, h a (by simp), ih fun j hj => h j (by simp [hj])]

theorem compIf_eq (K : Lits F) (g : Attr → Except PyErr (Val F)) (L : Locals F) (e : Expr) (y : Var) (it c : Expr) {q : Seq ℕ}
    (h : eval K g L it = .ok (.ns q)) : eval K g L (.compIf e y it c) =
      filterE (fun j => eval K g (L.put y (.int false (j : ℕ))) c >>= fun b => truth b) q.items >>= fun l =>
      mapE (fun j => eval K g (L.put y (.int false (j : ℕ))) e) l >>= fun vs => mkSeq vs := by
  rw [eval, h]; rfl

/-- `[x for x in range(len(labels)) if labels[x] == i]` -/
theorem subset_eval (K : Lits F) (g : Attr → Except PyErr (Val F)) {L : Locals F} {y : Var} {labels : List ℤ} {i : ℕ}
    (hl : L.get .labels = .ok (.zs labels)) (hy : L.get y = .ok (.int false (i : ℕ))) (hne : y ≠ .x) :
    eval K g L (.compIf (.name .x) .x (.call .py_range (.cons (.call .py_len (.cons (.name .labels) .nil)) .nil))
      (.cmp .eq (.item (.name .labels) (.cons (.name .x) .nil)) (.name y))) = .ok (natList (subsetIndices labels i)) := by
  have hp : ∀ j ∈ List.range labels.length, (eval K g (L.put .x (.int false (j : ℕ)))
      (.cmp .eq (.item (.name .labels) (.cons (.name .x) .nil)) (.name y)) >>= fun b => truth b) =
        .ok (decide (labels[j]? = some (i : ℤ))) := by
    intro j hj
    have hj : j < labels.length := List.mem_range.mp hj
    have h1 : (L.put .x (.int false (j : ℕ))).get .labels = .ok (.zs labels) := by rw [get_ne _ _ (by decide), hl]
    have h2 : (L.put .x (.int false (j : ℕ))).get y = .ok (.int false (i : ℕ)) := by rw [get_ne _ _ hne, hy]
    simp only [eval, evalArgs, h1, h2, get_same, except_bind_ok, itemFn, asNat_cast, List.getElem?_eq_getElem hj, cmpFn, truth,
      Option.some.injEq]
  rw [compIf_eq (q := ⟨false, List.range labels.length⟩) _ _ _ _ _ _ _
    (by simp only [eval, evalArgs, hl, except_bind_ok, callFn, asNat_cast]), filterE_congr hp, filterE_pure]
  simp only [eval, get_same, mapE_pure, except_bind_ok, mkSeq_nats, subsetIndices]

/-! ## Reading back what was written -/

theorem get_of_set {α : Type} {q q' : Seq α} {i : ℕ} {a : α} (h : q.set i a = .ok q') : q'.get i = .ok a := by
  simp only [Seq.set] at h
  split at h
  · cases h; simp [Seq.get, *]
  · cases h

theorem row_of_setRow {a a' : Arr2 F} {i : ℕ} {v : Vec F} (h : a.setRow i v = .ok a') (hv : v.length = a.cols) :
    a'.row i = .ok v ∧ a'.cols = a.cols := by
  simp only [Arr2.setRow, Vec.broadcastTo, hv] at h
  split at h
  · simp only [if_true, except_bind_ok, except_pure] at h
    cases h
    simp [Arr2.row, *]
  · cases h

theorem row_of_setRow_ne {a a' : Arr2 F} {i j : ℕ} {v : Vec F} (h : a.setRow i v = .ok a') (hne : i ≠ j) : a'.row j = a.row j := by
  simp only [Arr2.setRow] at h
  split at h
  · cases hb : v.broadcastTo a.cols with
    | error e => rw [hb] at h; cases h
    | ok w =>
      rw [hb] at h
      cases h
      simp [Arr2.row, List.getElem?_set_ne hne]
  · cases h

theorem get_of_set_ne {α : Type} {q q' : Seq α} {i j : ℕ} {a : α} (h : q.set i a = .ok q') (hne : i ≠ j) : q'.get j = q.get j := by
  simp only [Seq.set] at h
  split at h
  · cases h; simp [Seq.get, List.getElem?_set_ne hne]
  · cases h

theorem take_wf {a b : Arr2 F} {l : List ℕ} (h : a.take l = .ok b) (hw : ∀ r ∈ a.rows, r.length = a.cols) :
    b.cols = a.cols ∧ b.rows.length = l.length ∧ ∀ r ∈ b.rows, r.length = a.cols := by
  simp only [Arr2.take] at h
  cases hm : mapE (fun i => a.row i) l with
  | error e => rw [hm] at h; cases h
  | ok rs =>
    rw [hm] at h
    simp only [except_bind_ok, except_pure] at h
    cases h
    refine ⟨rfl, ?_, ?_⟩
    · clear hw
      induction l generalizing rs with
      | nil => cases hm; rfl
      | cons j l ih =>
        simp only [mapE] at hm
        cases h1 : a.row j with
        | error e => rw [h1] at hm; cases hm
        | ok r =>
          rw [h1] at hm
          cases h2 : mapE (fun i => a.row i) l with
          | error e => rw [h2] at hm; cases hm
          | ok rs' => rw [h2] at hm; cases hm; simp [ih rs' h2]
    · induction l generalizing rs with
      | nil => cases hm; simp
      | cons j l ih =>
        simp only [mapE] at hm
        cases h1 : a.row j with
        | error e => rw [h1] at hm; cases hm
        | ok r =>
          rw [h1] at hm
          cases h2 : mapE (fun i => a.row i) l with
          | error e => rw [h2] at hm; cases hm
          | ok rs' =>
            rw [h2] at hm; cases hm
            have hr : r ∈ a.rows := by
              simp only [Arr2.row] at h1
              split at h1
              · rename_i h3; cases h1; exact List.mem_of_getElem? h3
              · cases h1
            simpa [hw r hr] using ih rs' h2

theorem take_lt {a b : Arr2 F} {l : List ℕ} (h : a.take l = .ok b) : ∀ t ∈ l, t < a.rows.length := by
  simp only [Arr2.take] at h
  cases hm : mapE (fun i => a.row i) l with
  | error e => rw [hm] at h; cases h
  | ok rs =>
    clear h
    induction l generalizing rs with
    | nil => simp
    | cons j l ih =>
      simp only [mapE] at hm
      cases h1 : a.row j with
      | error e => rw [h1] at hm; cases hm
      | ok r =>
        rw [h1] at hm
        cases h2 : mapE (fun i => a.row i) l with
        | error e => rw [h2] at hm; cases hm
        | ok rs' =>
          have hj : j < a.rows.length := by
            by_contra hj
            simp [Arr2.row, List.getElem?_eq_none (not_lt.mp hj)] at h1
          simpa [hj] using ih rs' h2

theorem mean0_length (a : Arr2 F) : (Gen.Arr2.mean0 a).length = a.cols := by simp [Gen.Arr2.mean0]

/-! ## `subset - v * np.ones((n, 1))` -/

theorem zipWith_replicate_one (v : Vec F) : ∀ n, v.length = n → List.zipWith (· * ·) v (List.replicate n (Arith.one : F)) = v.map (· * Arith.one) := by
  induction v with
  | nil => simp
  | cons a v ih => rintro n rfl; simp [List.replicate_succ, ih v.length rfl]

/-- `v * np.ones((n, 1))` -/
theorem mul_ones (v : Vec F) (n : ℕ) :
    Arr2.bin (· * ·) ⟨v.length, [v]⟩ ⟨1, List.replicate n (List.replicate 1 (Arith.one : F))⟩ =
      .ok ⟨v.length, List.replicate n (v.map (· * Arith.one))⟩ := by
  have hc : (if v.length = 1 then 1 else v.length) = v.length := by split <;> simp_all
  have h1 : (Arr2.broadcastTo n v.length (⟨v.length, [v]⟩ : Arr2 F)) = .ok ⟨v.length, List.replicate n v⟩ := by
    simp only [Arr2.broadcastTo, List.length_singleton]
    by_cases hn : 1 = n
    · subst hn; simp
    · simp [hn]
  have h2 : (Arr2.broadcastTo n v.length (⟨1, List.replicate n (List.replicate 1 (Arith.one : F))⟩ : Arr2 F)) =
      .ok ⟨v.length, List.replicate n (List.replicate v.length Arith.one)⟩ := by
    simp only [Arr2.broadcastTo, List.length_replicate, if_true, except_bind_ok]
    by_cases hv : 1 = v.length
    · simp [← hv]
    · simp [hv, List.replicate]
  simp only [Arr2.bin, List.length_singleton, List.length_replicate, if_true, hc, h1, h2, except_bind_ok, except_pure]
  congr 2
  clear h1 h2
  induction n with
  | zero => rfl
  | succ n ih => simp only [List.replicate_succ, List.zipWith_cons_cons, zipWith_replicate_one v _ rfl, ih]

theorem broadcastTo_self (a : Arr2 F) : a.broadcastTo a.rows.length a.cols = .ok a := by
  simp [Arr2.broadcastTo]

/-- `subset - w` for a matrix with equal rows -/
theorem sub_rows (a : Arr2 F) (w : Vec F) :
    Gen.Arr2.sub a ⟨a.cols, List.replicate a.rows.length w⟩ = .ok ⟨a.cols, a.rows.map fun r => List.zipWith (· - ·) r w⟩ := by
  have h2 := broadcastTo_self (⟨a.cols, List.replicate a.rows.length w⟩ : Arr2 F)
  simp only [List.length_replicate] at h2
  simp only [Gen.Arr2.sub, Arr2.bin, List.length_replicate, ite_self, broadcastTo_self, h2, except_bind_ok, except_pure]
  congr 2
  generalize a.rows = l
  induction l with
  | nil => rfl
  | cons r l ih => simp [List.replicate_succ, ih]

theorem scatter_rows {a : Arr2 F} {d : ℕ} {w : Vec F} (hw : ∀ r ∈ a.rows, r.length = d) (hv : w.length = d) :
    mapE (fun r => do let d ← Gen.Vec.sub r w; pure (d.map Arith.sq)) a.rows =
      .ok (a.rows.map fun r => (List.zipWith (· - ·) r w).map Arith.sq) := by
  refine mapE_ok fun r hr => ?_
  simp only [Gen.Vec.sub, Vec.bin, hw r hr, hv, if_true, except_bind_ok, except_pure]

/-- `diff_x_v` -/
theorem diff_eq {a : Arr2 F} {v : Vec F} (hv : v.length = a.cols) :
    Gen.Arr2.sub a ⟨v.length, List.replicate a.rows.length (v.map (· * Arith.one))⟩ =
      .ok ⟨a.cols, a.rows.map fun r => List.zipWith (· - ·) r (v.map (· * Arith.one))⟩ := by
  rw [hv]; exact sub_rows a _

theorem scatter_eq {a : Arr2 F} {v : Vec F} (hw : ∀ r ∈ a.rows, r.length = a.cols) (hv : v.length = a.cols) :
    Gen.batchScatter a v =
      .ok (Arith.sum2 ((a.rows.map fun r => List.zipWith (· - ·) r (v.map (· * Arith.one))).map fun r => r.map Arith.sq)) := by
  simp only [Gen.batchScatter]
  rw [scatter_rows hw (by simpa using hv)]
  simp only [except_bind_ok, except_pure, List.map_map, Function.comp_def]

/-- `np.unique(labels).size` -/
theorem unique_size (labels : List ℤ) : ((labels.dedup.insertionSort (· ≤ ·)).length : ℤ) = (uniqueSize labels : ℕ) := by
  simp [uniqueSize, List.length_insertionSort]

/-! ## The double loop that fills `_D` -/

attribute [local congr] andThen_head bind_head ebind_head mapState_head cond_head in
/-- `for ix in range(k - 1): for jx in range(ix + 1, k): self._D[ix, jx] = f(ix, jx)` -/
theorem upper_loop (K : Lits F) {I : Index} {c : Meth → List (Val F) → Py (Obj F) (Val F)} {inner : Block} {m : LabelMap} {t : Core F}
    {f : ℕ → ℕ → Except PyErr F} {L : Locals F} {r : Res (Obj F) (Locals F × Flow F)} {q : Except PyErr (Arr2 F)}
    (hr : runLoop .ix (execBlock K (objHost I c)
      (.cons (.loop .jx (.call .py_range (.cons (.bin .add (.name .ix) (.int 1)) (.cons (.self ._n_clusters) .nil))) inner) .nil))
      (List.range (t.nClusters - 1)) L ⟨m, t⟩ = r)
    (hq : Arr2.upperTri t.nClusters f = q) (hD : t.D = Arr2.zeros t.nClusters t.nClusters)
    (step : ∀ i j (h : ℕ → ℕ → F) (L : Locals F), i < t.nClusters → j < t.nClusters → L.get .ix = .ok (.int false (i : ℕ)) →
      Ends (fun h' L' o => L'.get .ix = .ok (.int false (i : ℕ)) ∧ o = ⟨m, { t with D := natMat t.nClusters h' }⟩)
        (f i j >>= fun y => .ok (upd h i j y))
        (execBlock K (objHost I c) inner (L.put .jx (.int false (j : ℕ))) ⟨m, { t with D := natMat t.nClusters h }⟩)) :
    (∃ e s', q = .error e ∧ r = .err e s') ∨ ∃ D L', q = .ok D ∧ r = .ok (L', .next) ⟨m, { t with D := D }⟩ := by
  rw [← foldE_upper] at hq
  generalize hm : foldE _ _ _ = q' at hq
  rcases loop_fold' (fun _ h _ o => o = ⟨m, { t with D := natMat t.nClusters h }⟩) hr hm
    (by rw [natMat_zeros, ← hD]) (by
      rintro d i r h L o hl rfl
      have hi : i < t.nClusters - 1 := List.mem_range.mp (hl ▸ by simp)
      simp -implicitDefEqProofs only [pyrun]
      generalize hr : runLoop Var.jx _ _ _ _ = r
      generalize hm : foldE _ _ _ = q
      rcases loop_fold' (fun _ h L o => L.get .ix = .ok (.int false (i : ℕ)) ∧
          o = ⟨m, { t with D := natMat t.nClusters h }⟩) hr hm
        ⟨by simp -implicitDefEqProofs only [pyrun], rfl⟩ (by
          rintro d j r h L o hl ⟨hL, rfl⟩
          have hj : j ∈ List.range' (i + 1) (t.nClusters - (i + 1)) := hl ▸ by simp
          have hj : j < t.nClusters := by have := List.mem_range'_1.mp hj; omega
          exact step i j h L (by omega) hj hL)
        with ⟨e, s', rfl, rfl⟩ | ⟨h', L', s', rfl, rfl, hL, rfl⟩
      · exact ⟨_, rfl⟩
      · exact .ok trivial rfl)
    with ⟨e, s', rfl, rfl⟩ | ⟨h', L', s', rfl, rfl, rfl⟩
  · exact .inl ⟨e, s', hq.symm, rfl⟩
  · exact .inr ⟨_, L', hq.symm, rfl⟩

end Verif.Source
