import Verif.Source.Loop
import Verif.Proofs.Keys
import Verif.Proofs.Batch

/-! # Loops of the source that change the object -/

set_option linter.unusedSectionVars false
set_option linter.constructorNameAsVariable false

namespace Verif.Source

section Same
variable {σ α β γ : Type}

/-- Two runs agree: the same value and the same object, or the same error (the object after an error may differ). -/
def Same (r m : Res σ α) : Prop :=
  match m with
  | .ok a s => r = .ok a s
  | .err e _ => ∃ s', r = .err e s'

theorem Same.of_eq {r m : Res σ α} (h : r = m) : Same r m := by
  subst h
  cases r with
  | ok a s => rfl
  | err e s => exact ⟨s, rfl⟩

theorem Same.ok {r m : Res σ α} {a : α} {s : σ} (h : Same r m) (hm : m = .ok a s) : r = .ok a s := by
  subst hm; exact h

theorem Same.bind {r m : Res σ α} {f g : α → σ → Res σ β} (h : Same r m) (hf : ∀ a s, m = .ok a s → Same (f a s) (g a s)) :
    Same (r.bind f) (m.bind g) := by
  cases m with
  | ok a s =>
    have h' : r = .ok a s := h
    subst h'
    exact hf a s rfl
  | err e s =>
    obtain ⟨s', rfl⟩ : ∃ s', r = .err e s' := h
    exact ⟨s', rfl⟩

theorem Same.andThen {x : Except PyErr γ} {s s' : σ} {f g : γ → Res σ α} (h : ∀ a, x = .ok a → Same (f a) (g a)) :
    Same (Source.andThen x s f) (Source.andThen x s' g) := by
  cases x with
  | ok a => exact h a rfl
  | error e => exact ⟨s, rfl⟩

theorem Same.skip {x : Except PyErr γ} {a : γ} {s : σ} {f : γ → Res σ α} {m : Res σ α} (hx : x = .ok a) (h : Same (f a) m) :
    Same (Source.andThen x s f) m := by
  subst hx; exact h

theorem Same.skip_right {x : Except PyErr γ} {a : γ} {s : σ} {f : γ → Res σ α} {r : Res σ α} (hx : x = .ok a) (h : Same r (f a)) :
    Same r (Source.andThen x s f) := by
  subst hx; exact h
end Same

/-- A left fold of a computation that may raise. -/
def foldE {A : Type} (g : A → ℕ → Except PyErr A) : A → List ℕ → Except PyErr A
  | a, [] => .ok a
  | a, j :: l => do
    let a' ← g a j
    foldE g a' l

variable {F : Type} [Arith F] {σ : Type}

/-- `r` ends as `x` does; if it goes on, then in a situation that satisfies `P`. -/
def Ends {A : Type} (P : A → Locals F → σ → Prop) (x : Except PyErr A) (r : Res σ (Locals F × Flow F)) : Prop :=
  match x with
  | .error e => ∃ s', r = .err e s'
  | .ok a => ∃ L' fl s', r = .ok (L', fl) s' ∧ goesOn fl ∧ P a L' s'

theorem Ends.bind {A B : Type} {P : A → Locals F → σ → Prop} {x : Except PyErr B} {f : B → Except PyErr A} {s : σ}
    {k : B → Res σ (Locals F × Flow F)} (h : ∀ a, x = .ok a → Ends P (f a) (k a)) : Ends P (x >>= f) (andThen x s k) := by
  cases x with
  | error e => exact ⟨s, rfl⟩
  | ok a => exact h a rfl

theorem Ends.skip {A B : Type} {P : A → Locals F → σ → Prop} {x : Except PyErr B} {b : B} {y : Except PyErr A} {s : σ}
    {k : B → Res σ (Locals F × Flow F)} (hx : x = .ok b) (h : Ends P y (k b)) : Ends P y (andThen x s k) := by
  subst hx; exact h

theorem Ends.ok {A : Type} {P : A → Locals F → σ → Prop} {a : A} {L : Locals F} {s : σ} {fl : Flow F} (hg : goesOn fl) (h : P a L s) :
    Ends P (.ok a) (.ok (L, fl) s) := ⟨L, fl, s, rfl, hg, h⟩

/-- A loop follows a fold if each iteration follows a step of the fold. -/
theorem loop_fold {y : Var} {body : Locals F → σ → Res σ (Locals F × Flow F)} {A : Type} {g : A → ℕ → Except PyErr A}
    {P : List ℕ → A → Locals F → σ → Prop} {l : List ℕ}
    (step : ∀ d j r a L s, l = d ++ j :: r → P d a L s →
      Ends (P (d ++ [j])) (g a j) (body (L.put y (.int false (j : ℕ))) s)) :
    ∀ (r d : List ℕ) (a : A) (L : Locals F) (s : σ), l = d ++ r → P d a L s →
      match foldE g a r with
      | .error e => ∃ s', runLoop y body r L s = .err e s'
      | .ok a' => ∃ L' s', runLoop y body r L s = .ok (L', .next) s' ∧ P l a' L' s' := by
  intro r
  induction r with
  | nil =>
    intro d a L s hl hP
    simp only [List.append_nil] at hl
    subst hl
    exact ⟨L, s, rfl, hP⟩
  | cons j r ih =>
    intro d a L s hl hP
    have hs := step d j r a L s hl hP
    simp only [foldE]
    cases hg : g a j with
    | error e =>
      simp only [hg, Ends] at hs
      obtain ⟨s', hs⟩ := hs
      exact ⟨s', by simp only [runLoop, hs, Res.bind_err]⟩
    | ok a' =>
      simp only [hg, Ends] at hs
      obtain ⟨L', fl, s', hb, hgo, hP'⟩ := hs
      simp only [except_bind_ok, runLoop_cons hb hgo]
      exact ih (d ++ [j]) a' L' s' (by simp [hl]) hP'

theorem loop_fold' {y : Var} {body : Locals F → σ → Res σ (Locals F × Flow F)} {A : Type} {g : A → ℕ → Except PyErr A}
    (P : List ℕ → A → Locals F → σ → Prop) {l : List ℕ} {a : A} {L : Locals F} {s : σ} {q : Except PyErr A}
    {r : Res σ (Locals F × Flow F)} (hr : runLoop y body l L s = r) (hq : foldE g a l = q) (h0 : P [] a L s)
    (step : ∀ d j r a L s, l = d ++ j :: r → P d a L s →
      Ends (P (d ++ [j])) (g a j) (body (L.put y (.int false (j : ℕ))) s)) :
    (∃ e s', q = .error e ∧ r = .err e s') ∨ ∃ a' L' s', q = .ok a' ∧ r = .ok (L', .next) s' ∧ P l a' L' s' := by
  have h := loop_fold step l [] a L s rfl h0
  rw [hq, hr] at h
  cases q with
  | error e => obtain ⟨s', h⟩ := h; exact .inl ⟨e, s', rfl, h⟩
  | ok a' => obtain ⟨L', s', h, hp⟩ := h; exact .inr ⟨a', L', s', rfl, h, hp⟩

/-! ## Agreement up to the kind of error -/

section Agree
variable {α β γ : Type}

/-- Two runs agree: the same value and the same object, or both raise. -/
def Agree (r m : Res σ α) : Prop :=
  match m with
  | .ok a s => r = .ok a s
  | .err _ _ => ∃ e s', r = .err e s'

theorem Same.agree {r m : Res σ α} (h : Same r m) : Agree r m := by
  cases m with
  | ok a s => exact h
  | err e s => obtain ⟨s', h⟩ := h; exact ⟨e, s', h⟩

theorem Agree.of_eq {r m : Res σ α} (h : r = m) : Agree r m := (Same.of_eq h).agree

theorem Agree.ok {r m : Res σ α} {a : α} {s : σ} (h : Agree r m) (hm : m = .ok a s) : r = .ok a s := by
  subst hm; exact h

theorem Agree.bind {r m : Res σ α} {f g : α → σ → Res σ β} (h : Agree r m) (hf : ∀ a s, m = .ok a s → Agree (f a s) (g a s)) :
    Agree (r.bind f) (m.bind g) := by
  cases m with
  | ok a s =>
    have h' : r = .ok a s := h
    subst h'
    exact hf a s rfl
  | err e s =>
    obtain ⟨e', s', rfl⟩ : ∃ e s', r = .err e s' := h
    exact ⟨e', s', rfl⟩

theorem Agree.andThen {x : Except PyErr γ} {s s' : σ} {f g : γ → Res σ α} (h : ∀ a, x = .ok a → Agree (f a) (g a)) :
    Agree (Source.andThen x s f) (Source.andThen x s' g) := by
  cases x with
  | ok a => exact h a rfl
  | error e => exact ⟨e, s, rfl⟩

theorem Agree.skip {x : Except PyErr γ} {a : γ} {s : σ} {f : γ → Res σ α} {m : Res σ α} (hx : x = .ok a) (h : Agree (f a) m) :
    Agree (Source.andThen x s f) m := by
  subst hx; exact h

theorem Agree.skip_right {x : Except PyErr γ} {a : γ} {s : σ} {f : γ → Res σ α} {r : Res σ α} (hx : x = .ok a) (h : Agree r (f a)) :
    Agree r (Source.andThen x s f) := by
  subst hx; exact h
end Agree

/-- Run both sides in step. -/
macro "agreesteps" : tactic => `(tactic| repeat' first
  | (with_reducible refine Agree.of_eq ?_; with_reducible rfl)
  | with_reducible refine Agree.andThen fun _ _ => ?_
  | with_reducible refine Agree.skip (by assumption) ?_
  | with_reducible refine Agree.skip (inner_self _) ?_
  | with_reducible refine Agree.skip_right (by assumption) ?_)

/-- Run an iteration in step with the fold. -/
macro "endsteps" : tactic => `(tactic| repeat' first
  | with_reducible refine Ends.bind fun _ _ => ?_
  | with_reducible refine Ends.skip (by assumption) ?_
  | with_reducible refine Ends.skip (inner_self _) ?_)

/-! ## Folds -/

theorem mapE_congr {α β : Type} {f g : α → Except PyErr β} {l : List α} (h : ∀ a ∈ l, f a = g a) : mapE f l = mapE g l := by
  induction l with
  | nil => rfl
  | cons a l ih => simp only [mapE, h a (by simp), ih fun b hb => h b (by simp [hb])]

theorem foldE_two {f g : ℕ → Except PyErr F} (l : List ℕ) : ∀ a : List F × List F,
    (∃ e, foldE (fun p j => f j >>= fun y => g j >>= fun z => .ok (p.1 ++ [y], p.2 ++ [z])) a l = .error e ∧
      ((∃ e, mapE f l = .error e) ∨ ∃ e, mapE g l = .error e)) ∨
    ∃ ys zs, mapE f l = .ok ys ∧ mapE g l = .ok zs ∧
      foldE (fun p j => f j >>= fun y => g j >>= fun z => .ok (p.1 ++ [y], p.2 ++ [z])) a l = .ok (a.1 ++ ys, a.2 ++ zs) := by
  induction l with
  | nil => intro a; exact .inr ⟨[], [], rfl, rfl, by simp [foldE]⟩
  | cons j l ih =>
    intro a
    simp only [foldE, mapE]
    cases f j with
    | error e => exact .inl ⟨e, rfl, .inl ⟨e, rfl⟩⟩
    | ok y =>
      cases g j with
      | error e => exact .inl ⟨e, rfl, .inr ⟨e, rfl⟩⟩
      | ok z =>
        simp only [except_bind_ok]
        rcases ih (a.1 ++ [y], a.2 ++ [z]) with ⟨e, h, ⟨e', h'⟩ | ⟨e', h'⟩⟩ | ⟨ys, zs, h1, h2, h⟩
        · exact .inl ⟨e, h, .inl ⟨e', by rw [h']; rfl⟩⟩
        · exact .inl ⟨e, h, .inr ⟨e', by rw [h']; rfl⟩⟩
        · exact .inr ⟨y :: ys, z :: zs, by rw [h1]; rfl, by rw [h2]; rfl, by rw [h]; simp⟩

theorem set_at {ys : List F} {k N : ℕ} (hk : ys.length = k) (h : k < N) (v : F) :
    (⟨true, ys ++ List.replicate (N - k) 0⟩ : Seq F).set k v = .ok ⟨true, ys ++ v :: List.replicate (N - k - 1) 0⟩ := by
  subst hk; exact set_next ys h v
theorem keep_at {ys : List F} {k N : ℕ} (hk : ys.length = k) (h : k < N) :
    ys ++ List.replicate (N - k) (0 : F) = ys ++ [0] ++ List.replicate (N - k - 1) 0 := by
  subst hk; rw [keep_next ys h]; simp

/-- A loop over `range(n)` that fills the first `n` places of two zero arrays. -/
theorem loop_two {y c d : Var} {body : Locals F → σ → Res σ (Locals F × Flow F)} {s : σ} {L0 : Locals F} {T : Var → Prop}
    {f g : ℕ → Except PyErr F} {n N : ℕ} {res : Res σ (Locals F × Flow F)} (hr : runLoop y body (List.range n) L0 s = res)
    (hn : n ≤ N) (hc : L0.get c = .ok (.fs ⟨true, List.replicate N 0⟩)) (hd : L0.get d = .ok (.fs ⟨true, List.replicate N 0⟩))
    (step : ∀ (L : Locals F) (ys zs : List F), zs.length = ys.length → ys.length < N → (∀ z, ¬ T z → L.get z = L0.get z) →
      L.get c = .ok (.fs ⟨true, ys ++ List.replicate (N - ys.length) 0⟩) →
      L.get d = .ok (.fs ⟨true, zs ++ List.replicate (N - zs.length) 0⟩) →
      Ends (fun (p : List F × List F) L' s' => s' = s ∧ L'.get c = .ok (.fs ⟨true, p.1 ++ List.replicate (N - ys.length - 1) 0⟩) ∧
          L'.get d = .ok (.fs ⟨true, p.2 ++ List.replicate (N - zs.length - 1) 0⟩) ∧ ∀ z, ¬ T z → L'.get z = L0.get z)
        (f ys.length >>= fun a => g ys.length >>= fun b => .ok (ys ++ [a], zs ++ [b])) (body (L.put y (.int false (ys.length : ℕ))) s)) :
    (∃ e s', res = .err e s' ∧ ((∃ e, mapE f (List.range n) = .error e) ∨ ∃ e, mapE g (List.range n) = .error e)) ∨
    ∃ ys zs L', mapE f (List.range n) = .ok ys ∧ mapE g (List.range n) = .ok zs ∧ res = .ok (L', .next) s ∧
      L'.get c = .ok (.fs ⟨true, ys ++ List.replicate (N - n) 0⟩) ∧ L'.get d = .ok (.fs ⟨true, zs ++ List.replicate (N - n) 0⟩) ∧
      ∀ z, ¬ T z → L'.get z = L0.get z := by
  have hf := foldE_two (f := f) (g := g) (List.range n) ([], [])
  generalize hm : foldE _ _ (List.range n) = q at hf
  rcases loop_fold' (fun e (p : List F × List F) L o => e = List.range p.1.length ∧ p.2.length = p.1.length ∧ o = s ∧
      L.get c = .ok (.fs ⟨true, p.1 ++ List.replicate (N - p.1.length) 0⟩) ∧
      L.get d = .ok (.fs ⟨true, p.2 ++ List.replicate (N - p.2.length) 0⟩) ∧ ∀ z, ¬ T z → L.get z = L0.get z) hr hm
    ⟨rfl, rfl, rfl, by simpa using hc, by simpa using hd, fun _ _ => rfl⟩ (by
      rintro e i r ⟨ys, zs⟩ L o hl ⟨rfl, hlen, rfl, h1, h2, h3⟩
      simp only at hlen hl h1 h2 ⊢
      have hlt : ys.length < n := by
        have := congrArg List.length hl; simp at this; omega
      have hi : i = ys.length := by
        have := congrArg (·[ys.length]?) hl
        simpa [hlt] using this.symm
      subst hi
      have hs := step L ys zs hlen (by omega) h3 h1 h2
      cases hf : f ys.length with
      | error e => rw [hf] at hs; exact hs
      | ok a =>
        cases hg : g ys.length with
        | error e => rw [hf, hg] at hs; exact hs
        | ok b =>
          rw [hf, hg] at hs
          obtain ⟨L', fl, s', hb, hgo, hs, hc, hd, hT⟩ := hs
          refine ⟨L', fl, s', hb, hgo, ?_, ?_, hs, ?_, ?_, hT⟩
          · simp [List.range_succ]
          · simp [hlen]
          · simpa [Nat.sub_sub] using hc
          · simpa [Nat.sub_sub] using hd)
    with ⟨e, s', rfl, rfl⟩ | ⟨⟨ys, zs⟩, L', s', rfl, rfl, hy, hlen, rfl, h1, h2, h3⟩
  · rcases hf with ⟨e', -, h⟩ | ⟨_, _, -, -, h⟩
    · exact .inl ⟨e, s', rfl, h⟩
    · cases h
  · rcases hf with ⟨e', h, -⟩ | ⟨ys', zs', hy', hz', h⟩
    · cases h
    · simp only [List.nil_append, Except.ok.injEq, Prod.mk.injEq] at h
      obtain ⟨rfl, rfl⟩ := h
      simp only at hy hlen h1 h2
      have hl : n = ys.length := by have := congrArg List.length hy; simpa using this
      rw [hlen] at h2
      rw [← hl] at h1 h2
      exact .inr ⟨ys, zs, L', hy', hz', rfl, h1, h2, h3⟩

theorem broadcast_rows {D b : Arr2 F} {r c : ℕ} (hb : D.broadcastTo r c = .ok b) : b.rows.length = r := by
  simp only [Arr2.broadcastTo] at hb
  split at hb
  · rename_i h1
    simp only [except_bind_ok] at hb
    split at hb
    · cases hb; exact h1
    · split at hb
      · cases hb; simpa using h1
      · cases hb
  · split at hb
    · simp only [except_bind_ok] at hb
      split at hb
      · cases hb; simp
      · split at hb
        · cases hb; simp
        · cases hb
    · cases hb

theorem enlarge_rows {D E : Arr2 F} {k : ℕ} (h : enlarge k D = .ok E) : E.rows.length = k + 1 := by
  simp only [enlarge] at h
  cases hb : D.broadcastTo k k with
  | error e => rw [hb] at h; cases h
  | ok b => rw [hb] at h; cases h; simp [broadcast_rows hb]

theorem setRow_out {E : Arr2 F} {i : ℕ} (h : ¬ i < E.rows.length) (v : Vec F) : E.setRow i v = .error .indexError := by
  simp only [Arr2.setRow]; rw [if_neg h]

theorem set_out {q : Seq F} {i : ℕ} (h : ¬ i < q.items.length) (v : F) : q.set i v = .error .indexError := by
  simp only [Seq.set]; rw [if_neg h]

theorem set_in {ys : List F} {i : ℕ} (h : i < ys.length) (v : F) : (⟨true, ys⟩ : Seq F).set i v = .ok ⟨true, ys.set i v⟩ := by
  simp only [Seq.set]; rw [if_pos h]

theorem get_set {ys : List F} {i : ℕ} (h : i < ys.length) (v : F) : (⟨true, ys.set i v⟩ : Seq F).get i = .ok v := by
  simp [Seq.get, h]

theorem set_last {ys : List F} {k : ℕ} (hk : ys.length = k) (y v : F) :
    (⟨true, ys ++ [y]⟩ : Seq F).set k v = .ok ⟨true, ys ++ [v]⟩ := by
  subst hk; simp [Seq.set]

theorem get_last {ys : List F} {k : ℕ} (hk : ys.length = k) (y : F) : (⟨true, ys ++ [y]⟩ : Seq F).get k = .ok y := by
  subst hk; simp [Seq.get]

theorem range_length {f : ℕ → Except PyErr F} {k : ℕ} {ys : List F} (h : mapE f (List.range k) = .ok ys) : ys.length = k := by
  have : ∀ (l : List ℕ) (ys : List F), mapE f l = .ok ys → ys.length = l.length := by
    intro l
    induction l with
    | nil => intro ys h; cases h; rfl
    | cons a l ih =>
      intro ys h
      simp only [mapE] at h
      cases hf : f a with
      | error e => rw [hf] at h; cases h
      | ok y =>
        cases hm : mapE f l with
        | error e => rw [hf, hm] at h; cases h
        | ok zs => rw [hf, hm] at h; cases h; simp [ih zs hm]
  simpa using this _ _ h

/-- Two independent steps in either order. -/
theorem Agree.swap {α A B : Type} {x : Except PyErr A} {y : Except PyErr B} {s1 s2 s3 s4 : σ} {k k' : A → B → Res σ α}
    (h : ∀ a b, x = .ok a → y = .ok b → Agree (k a b) (k' a b)) :
    Agree (Source.andThen x s1 fun a => Source.andThen y s2 fun b => k a b)
      (Source.andThen y s3 fun b => Source.andThen x s4 fun a => k' a b) := by
  cases x with
  | error e => cases y <;> exact ⟨e, s1, rfl⟩
  | ok a =>
    cases y with
    | error e => exact ⟨e, s2, rfl⟩
    | ok b => exact h a b rfl rfl

/-- The same value, or an exception in both. -/
def Similar {A : Type} (x y : Except PyErr A) : Prop := x = y ∨ (∃ e, x = .error e) ∧ ∃ e, y = .error e

theorem Similar.refl {A : Type} (x : Except PyErr A) : Similar x x := .inl rfl

theorem Similar.bind {A B : Type} {x y : Except PyErr A} {f g : A → Except PyErr B} (h : Similar x y) (hf : ∀ a, Similar (f a) (g a)) :
    Similar (x >>= f) (y >>= g) := by
  rcases h with rfl | ⟨⟨e, rfl⟩, e', rfl⟩
  · cases x with
    | error e => exact .inl rfl
    | ok a => exact hf a
  · exact .inr ⟨⟨e, rfl⟩, e', rfl⟩

theorem Similar.swap {A B C : Type} {x : Except PyErr A} {y : Except PyErr B} {f : A → B → Except PyErr C} :
    Similar (x >>= fun a => y >>= fun b => f a b) (y >>= fun b => x >>= fun a => f a b) := by
  cases x with
  | error e =>
    cases y with
    | error e' => exact .inr ⟨⟨e, rfl⟩, e', rfl⟩
    | ok b => exact .inl rfl
  | ok a => cases y <;> exact .inl rfl

theorem Similar.mapE {A B : Type} {f g : A → Except PyErr B} (h : ∀ a, Similar (f a) (g a)) :
    ∀ l, Similar (Verif.mapE f l) (Verif.mapE g l)
  | [] => .inl rfl
  | a :: l => (h a).bind fun _ => (Similar.mapE h l).bind fun _ => .inl rfl

theorem Agree.similar {α A : Type} {x y : Except PyErr A} {s : σ} {k : A → Res σ α} {r : Res σ α} (h : Similar x y)
    (hr : Agree r (Source.andThen y s k)) : Agree r (Source.andThen x s k) := by
  rcases h with rfl | ⟨⟨e, rfl⟩, e', rfl⟩
  · exact hr
  · exact hr

/-- Either of two computations raises. -/
theorem Agree.either {α A B : Type} {x : Except PyErr A} {y : Except PyErr B} {s s' s1 : σ} {e : PyErr} {k : A → B → Res σ α}
    (h : (∃ e, x = .error e) ∨ ∃ e, y = .error e) :
    Agree (.err e s1) (Source.andThen x s fun a => Source.andThen y s' fun b => k a b) := by
  rcases h with ⟨e', rfl⟩ | ⟨e', rfl⟩
  · exact ⟨e, s1, rfl⟩
  · cases x <;> exact ⟨e, s1, rfl⟩

/-- Writing the place that the loop skipped. -/
theorem mapE_skip {f : ℕ → Except PyErr F} {i : ℕ} (u : F) (m : ℕ) : ∀ a ≤ i,
    mapE (fun j => if j = i then .ok u else f j) (List.range' a m) =
      mapE (fun j => if j = i then .ok 0 else f j) (List.range' a m) >>= fun ys => .ok (ys.set (i - a) u) := by
  induction m with
  | zero => intro a _; simp [mapE]
  | succ m ih =>
    intro a ha
    simp only [List.range'_succ, mapE]
    by_cases h : a = i
    · subst h
      simp only [if_true, except_bind_ok, Nat.sub_self]
      rw [mapE_congr (g := fun j => if j = a then .ok 0 else f j) (l := List.range' (a + 1) m)]
      · cases mapE (fun j => if j = a then .ok 0 else f j) (List.range' (a + 1) m) <;> rfl
      · intro j hj
        have : j ≠ a := by have := (List.mem_range'_1.mp hj).1; omega
        simp [this]
    · simp only [if_neg h, ih (a + 1) (by omega)]
      cases f a with
      | error e => rfl
      | ok y =>
        simp only [except_bind_ok]
        cases mapE (fun j => if j = i then .ok 0 else f j) (List.range' (a + 1) m) with
        | error e => rfl
        | ok ys =>
          simp only [except_bind_ok, except_pure]
          obtain ⟨t, rfl⟩ : ∃ t, i = a + 1 + t := ⟨i - (a + 1), by omega⟩
          rw [show a + 1 + t - (a + 1) = t by omega, show a + 1 + t - a = t + 1 by omega]
          rfl

theorem foldE_snoc {f : ℕ → Except PyErr F} (l : List ℕ) : ∀ a : List F,
    foldE (fun ys j => f j >>= fun y => .ok (ys ++ [y])) a l = mapE f l >>= fun zs => .ok (a ++ zs) := by
  induction l with
  | nil => intro a; simp [foldE, mapE]
  | cons j l ih =>
    intro a
    simp only [foldE, mapE]
    cases f j with
    | error e => rfl
    | ok y =>
      simp only [except_bind_ok, ih]
      cases mapE f l <;> simp

theorem foldE_add {f : ℕ → Except PyErr F} (l : List ℕ) : ∀ a : F,
    foldE (fun b j => f j >>= fun y => .ok (b + y)) a l = mapE f l >>= fun zs => .ok (zs.foldl (· + ·) a) := by
  induction l with
  | nil => intro a; simp [foldE, mapE]
  | cons j l ih =>
    intro a
    simp only [foldE, mapE]
    cases f j with
    | error e => rfl
    | ok y =>
      simp only [except_bind_ok, ih]
      cases mapE f l <;> simp

/-- Write one entry. -/
def upd (h : ℕ → ℕ → F) (i j : ℕ) (y : F) : ℕ → ℕ → F := fun a b => if a = i ∧ b = j then y else h a b

/-- The value of a computation that does not raise. -/
def val : Except PyErr F → F
  | .ok y => y
  | .error _ => 0

theorem setEntry_natMat {n : ℕ} (h : ℕ → ℕ → F) {i j : ℕ} (hi : i < n) (hj : j < n) (y : F) :
    setEntry (natMat n h) i j y = .ok (natMat n (upd h i j y)) := by
  simp only [setEntry, natMat, List.length_map, List.length_range, hi, hj, and_self, if_true]
  congr 2
  apply List.ext_getElem?
  intro a
  by_cases ha : a < n
  · simp only [List.getElem?_modify, List.getElem?_map, List.getElem?_range ha, Option.map_some]
    by_cases hai : i = a
    · subst hai
      simp only [if_true, Option.map_eq_map, Option.map_some, Option.some.injEq]
      apply List.ext_getElem?
      intro b
      by_cases hb : b < n
      · simp only [List.getElem?_set, List.length_map, List.length_range, hj, List.getElem?_map, List.getElem?_range hb, Option.map_some, upd, true_and]
        by_cases hbj : j = b
        · subst hbj; simp
        · simp [hbj, Ne.symm hbj]
      · simp [Nat.not_lt.mp hb]
    · simp [hai, upd, Ne.symm hai]
  · simp [Nat.not_lt.mp ha]

theorem natMat_zeros (n : ℕ) : (natMat n fun _ _ => (0 : F)) = Arr2.zeros n n := by
  simp [natMat, Arr2.zeros, Vec.zeros]

/-- The inner loop. -/
theorem foldE_row {f : ℕ → ℕ → Except PyErr F} (i : ℕ) (l : List ℕ) : ∀ h : ℕ → ℕ → F,
    foldE (fun h j => f i j >>= fun y => .ok (upd h i j y)) h l =
      mapE (f i) l >>= fun _ => .ok fun a b => if a = i ∧ b ∈ l then val (f i b) else h a b := by
  induction l with
  | nil => intro h; simp [foldE, mapE]
  | cons j l ih =>
    intro h
    simp only [foldE, mapE]
    cases hy : f i j with
    | error e => rfl
    | ok y =>
      simp only [except_bind_ok, ih]
      cases mapE (f i) l with
      | error e => rfl
      | ok ys =>
        simp only [except_bind_ok, except_pure]
        congr 1
        funext a b
        by_cases ha : a = i
        · by_cases hb : b = j
          · subst ha hb; simp [upd, hy, val]
          · simp [ha, hb, upd]
        · simp [ha, upd]

/-- Both loops. -/
theorem foldE_rows {f : ℕ → ℕ → Except PyErr F} {cols : ℕ → List ℕ} (l : List ℕ) : ∀ h : ℕ → ℕ → F,
    foldE (fun h i => foldE (fun h j => f i j >>= fun y => .ok (upd h i j y)) h (cols i)) h l =
      mapE (fun i => mapE (f i) (cols i)) l >>= fun _ => .ok fun a b => if a ∈ l ∧ b ∈ cols a then val (f a b) else h a b := by
  induction l with
  | nil => intro h; simp [foldE, mapE]
  | cons i l ih =>
    intro h
    simp only [foldE, mapE]
    rw [foldE_row]
    cases hy : mapE (f i) (cols i) with
    | error e => rfl
    | ok y =>
      simp only [except_bind_ok, ih]
      cases mapE (fun i => mapE (f i) (cols i)) l with
      | error e => rfl
      | ok ys =>
        simp only [except_bind_ok, except_pure]
        congr 1
        funext a b
        by_cases ha : a ∈ l ∧ b ∈ cols a
        · simp [ha]
        · by_cases hai : a = i
          · subst hai
            by_cases hb : b ∈ cols a
            · have : a ∉ l := fun h => ha ⟨h, hb⟩
              simp [this, hb]
            · simp [hb]
          · simp [hai]

theorem mapE_bind_map {α β γ : Type} {f : α → Except PyErr β} {g : α → β → γ} (l : List α)
    {k : α → γ} (h : ∀ a ∈ l, ∀ b, f a = .ok b → g a b = k a) :
    mapE (fun a => f a >>= fun b => .ok (g a b)) l = mapE f l >>= fun _ => .ok (l.map k) := by
  induction l with
  | nil => rfl
  | cons a l ih =>
    simp only [mapE, ih fun b hb => h b (by simp [hb])]
    cases hf : f a with
    | error e => rfl
    | ok b =>
      simp only [except_bind_ok, h a (by simp) b hf]
      cases mapE f l <;> rfl

/-- The double loop that fills an upper triangle. -/
theorem foldE_upper {f : ℕ → ℕ → Except PyErr F} (n : ℕ) :
    (foldE (fun h i => foldE (fun h j => f i j >>= fun y => .ok (upd h i j y)) h (List.range' (i + 1) (n - (i + 1))))
      (fun _ _ => 0) (List.range (n - 1)) >>= fun h => .ok (natMat n h)) = Arr2.upperTri n f := by
  have hrow : ∀ i ∈ List.range n, mapE (fun j => if i < j then f i j else .ok 0) (List.range n) =
      mapE (f i) (List.range' (i + 1) (n - (i + 1))) >>= fun _ =>
        .ok ((List.range n).map fun j => if i < j then val (f i j) else 0) := by
    intro i hi
    have hi : i < n := List.mem_range.mp hi
    have hsplit : List.range n = List.range (i + 1) ++ List.range' (i + 1) (n - (i + 1)) := by
      rw [List.range_eq_range', List.range_eq_range']
      have := List.range'_append_1 (s := 0) (m := i + 1) (n := n - (i + 1))
      rw [Nat.zero_add] at this
      rw [this]
      congr 1
      omega
    have h1 : mapE (fun j => if i < j then f i j else .ok 0) (List.range (i + 1)) =
        .ok ((List.range (i + 1)).map fun j => if i < j then val (f i j) else 0) := by
      refine mapE_ok fun j hj => ?_
      have : ¬ i < j := by have := List.mem_range.mp hj; omega
      simp [this]
    have h2 : mapE (fun j => if i < j then f i j else .ok 0) (List.range' (i + 1) (n - (i + 1))) =
        mapE (f i) (List.range' (i + 1) (n - (i + 1))) := by
      refine mapE_congr fun j hj => ?_
      have : i < j := by have := (List.mem_range'_1.mp hj).1; omega
      simp [this]
    rw [hsplit, mapE_append, h1, h2, except_bind_ok, List.map_append]
    cases hm : mapE (f i) (List.range' (i + 1) (n - (i + 1))) with
    | error e => rfl
    | ok ys =>
      simp only [except_bind_ok, except_pure]
      congr 2
      have hk : mapE (fun j => f i j >>= fun b => .ok b) (List.range' (i + 1) (n - (i + 1))) =
        mapE (f i) (List.range' (i + 1) (n - (i + 1))) >>= fun _ =>
          .ok ((List.range' (i + 1) (n - (i + 1))).map fun j => if i < j then val (f i j) else 0) := by
        refine mapE_bind_map _ fun j hj b hb => ?_
        have : i < j := by have := (List.mem_range'_1.mp hj).1; omega
        simp [this, hb, val]
      have he : (fun j => f i j >>= fun b => .ok b) = f i := by
        funext j; cases f i j <;> rfl
      rw [he, hm, except_bind_ok] at hk
      exact Except.ok.inj hk
  rw [foldE_rows, Arr2.upperTri, mapE_congr hrow]
  rw [mapE_bind_map (k := fun i => (List.range n).map fun j => if i < j then val (f i j) else 0) _ (fun _ _ _ _ => rfl)]
  have hlast : (mapE (fun i => mapE (f i) (List.range' (i + 1) (n - (i + 1)))) (List.range n) >>= fun _ => .ok ()) =
      mapE (fun i => mapE (f i) (List.range' (i + 1) (n - (i + 1)))) (List.range (n - 1)) >>= fun _ => .ok () := by
    cases n with
    | zero => rfl
    | succ n =>
      rw [List.range_succ, mapE_append, Nat.add_sub_cancel]
      simp only [mapE, Nat.sub_self, List.range'_zero, except_bind_ok, except_pure]
      cases mapE (fun i => mapE (f i) (List.range' (i + 1) (n + 1 - (i + 1)))) (List.range n) <;> rfl
  cases h1 : mapE (fun i => mapE (f i) (List.range' (i + 1) (n - (i + 1)))) (List.range (n - 1)) with
  | error e =>
    rw [h1] at hlast
    cases h2 : mapE (fun i => mapE (f i) (List.range' (i + 1) (n - (i + 1)))) (List.range n) with
    | error e' => rw [h2] at hlast; cases hlast; rfl
    | ok _ => rw [h2] at hlast; cases hlast
  | ok ys =>
    rw [h1] at hlast
    cases h2 : mapE (fun i => mapE (f i) (List.range' (i + 1) (n - (i + 1)))) (List.range n) with
    | error e' => rw [h2] at hlast; cases hlast
    | ok _ =>
      simp only [except_bind_ok, except_pure]
      congr 1
      simp only [natMat]
      congr 1
      refine List.map_congr_left fun a ha => List.map_congr_left fun b hb => ?_
      have ha := List.mem_range.mp ha
      have hb := List.mem_range.mp hb
      simp only [List.mem_range, List.mem_range'_1]
      by_cases hab : a < b
      · rw [if_pos hab, if_pos ⟨by omega, by omega, by omega⟩]
      · rw [if_neg hab, if_neg (by omega)]

end Verif.Source
