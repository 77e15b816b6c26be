import Verif.Source.Laws

/-! # Loops of the source that fill an array -/

set_option linter.unusedSectionVars false
set_option linter.constructorNameAsVariable false

namespace Verif.Source

variable {F : Type} [Arith F] {σ β : Type}

/-- `r` raises what `x` raises; otherwise it returns, without changing the object, something related to the value of `x`. -/
def Tracks {α : Type} (s : σ) (Q : α → β → Prop) (x : Except PyErr α) (r : Res σ β) : Prop :=
  match x with
  | .error e => r = .err e s
  | .ok v => ∃ b, r = .ok b s ∧ Q v b

theorem tracks_bind {α γ : Type} {s : σ} {Q : α → β → Prop} {x : Except PyErr γ} {f : γ → Except PyErr α}
    {k : γ → Res σ β} (h : ∀ a, x = .ok a → Tracks s Q (f a) (k a)) : Tracks s Q (x >>= f) (andThen x s k) := by
  cases x with
  | error e => rfl
  | ok a => exact h a rfl

theorem tracks_skip {α γ : Type} {s : σ} {Q : α → β → Prop} {x : Except PyErr γ} {a : γ} (h : x = .ok a)
    {k : γ → Res σ β} {y : Except PyErr α} (hk : Tracks s Q y (k a)) : Tracks s Q y (andThen x s k) := by
  subst h; exact hk

theorem tracks_ok {α : Type} {s : σ} {Q : α → β → Prop} {v : α} {b : β} (h : Q v b) : Tracks s Q (.ok v) (.ok b s) :=
  ⟨b, rfl, h⟩

/-- How an iteration ended lets the loop go on. -/
def goesOn : Flow F → Prop
  | .ret _ => False
  | _ => True

theorem runLoop_cons {y : Var} {body : Locals F → σ → Res σ (Locals F × Flow F)} {j : ℕ} {l : List ℕ} {L L' : Locals F}
    {fl : Flow F} {s s' : σ} (h : body (L.put y (.int false (j : ℕ))) s = .ok (L', fl) s') (hg : goesOn fl) :
    runLoop y body (j :: l) L s = runLoop y body l L' s' := by
  simp only [runLoop, h, Res.bind_ok]
  cases fl with
  | ret v => exact absurd hg id
  | next => rfl
  | cont => rfl

/-- The state of a loop that has filled the array `d` with `xs`: the variables outside `T` are as before. -/
def Filled (T : Var → Prop) (L0 : Locals F) (d : Var) (xs : List F) (r : Locals F × Flow F) : Prop :=
  goesOn r.2 ∧ r.1.get d = .ok (.fs ⟨true, xs⟩) ∧ ∀ z, ¬ T z → r.1.get z = L0.get z

theorem tracks_filled {s : σ} {T : Var → Prop} {L0 L : Locals F} {d : Var} {xs zs : List F} {v : F} {fl : Flow F} (hg : goesOn fl)
    (hd : L.get d = .ok (.fs ⟨true, xs ++ v :: zs⟩)) (hL : ∀ z, ¬ T z → L.get z = L0.get z) :
    Tracks s (fun v => Filled T L0 d (xs ++ v :: zs)) (.ok v) (.ok (L, fl) s) :=
  tracks_ok ⟨hg, hd, hL⟩

theorem set_append (ys zs : List F) (y v : F) : (ys ++ y :: zs).set ys.length v = ys ++ v :: zs := by
  simp

theorem fill_aux {y d : Var} {body : Locals F → σ → Res σ (Locals F × Flow F)} {s : σ} {L0 : Locals F}
    {T : Var → Prop} {g : ℕ → Except PyErr F} (N : ℕ)
    (step : ∀ (L : Locals F) (ys : List F), ys.length < N → (∀ z, ¬ T z → L.get z = L0.get z) →
      L.get d = .ok (.fs ⟨true, ys ++ List.replicate (N - ys.length) 0⟩) →
      Tracks s (fun v => Filled T L0 d (ys ++ v :: List.replicate (N - ys.length - 1) 0)) (g ys.length)
        (body (L.put y (.int false (ys.length : ℕ))) s))
    (m : ℕ) : ∀ (L : Locals F) (ys : List F), ys.length + m ≤ N → (∀ z, ¬ T z → L.get z = L0.get z) →
      L.get d = .ok (.fs ⟨true, ys ++ List.replicate (N - ys.length) 0⟩) →
      Tracks s (fun zs r => Filled T L0 d (ys ++ zs ++ List.replicate (N - ys.length - m) 0) r ∧ r.2 = .next)
        (mapE g (List.range' ys.length m)) (runLoop y body (List.range' ys.length m) L s) := by
  induction m with
  | zero =>
    intro L ys h hL hd
    exact tracks_ok ⟨⟨trivial, by simpa using hd, hL⟩, rfl⟩
  | succ m ih =>
    intro L ys h hL hd
    have hs := step L ys (by omega) hL hd
    simp only [List.range'_succ, mapE]
    cases hg : g ys.length with
    | error e =>
      simp only [hg, Tracks] at hs
      simp only [runLoop, hs, except_bind_error, Res.bind_err, Tracks]
    | ok v =>
      simp only [hg, Tracks] at hs
      obtain ⟨r, hr, hgo, hrd, hrL⟩ := hs
      obtain ⟨L', fl⟩ := r
      have hi := ih L' (ys ++ [v]) (by simp; omega) hrL (by
        rw [hrd]; simp [List.append_assoc, Nat.sub_add_eq])
      simp only [List.length_append, List.length_singleton] at hi
      simp only [runLoop_cons hr hgo, except_bind_ok]
      cases hm : mapE g (List.range' (ys.length + 1) m) with
      | error e =>
        simp only [hm, Tracks] at hi
        simp only [hi, except_bind_error, Tracks]
      | ok zs =>
        simp only [hm, Tracks] at hi
        obtain ⟨b, hb, hQ, hn⟩ := hi
        refine ⟨b, hb, ?_, hn⟩
        have he : N - (ys.length + 1) - m = N - ys.length - (m + 1) := by omega
        rw [he] at hQ
        simpa [List.append_assoc] using hQ

/-- A loop over `range(n)` that fills the first `n` places of a zero array. -/
theorem loop_fill {y d : Var} {body : Locals F → σ → Res σ (Locals F × Flow F)} {s : σ} {L0 : Locals F}
    {T : Var → Prop} {g : ℕ → Except PyErr F} {n N : ℕ} {r : Res σ (Locals F × Flow F)} {q : Except PyErr (List F)}
    (hr : runLoop y body (List.range n) L0 s = r) (hq : mapE g (List.range n) = q) (hn : n ≤ N)
    (hd : L0.get d = .ok (.fs ⟨true, List.replicate N 0⟩))
    (step : ∀ (L : Locals F) (ys : List F), ys.length < N → (∀ z, ¬ T z → L.get z = L0.get z) →
      L.get d = .ok (.fs ⟨true, ys ++ List.replicate (N - ys.length) 0⟩) →
      Tracks s (fun v => Filled T L0 d (ys ++ v :: List.replicate (N - ys.length - 1) 0)) (g ys.length)
        (body (L.put y (.int false (ys.length : ℕ))) s)) :
    (∃ e, q = .error e ∧ r = .err e s) ∨
    ∃ zs L', q = .ok zs ∧ r = .ok (L', .next) s ∧ L'.get d = .ok (.fs ⟨true, zs ++ List.replicate (N - n) 0⟩) ∧
      ∀ z, ¬ T z → L'.get z = L0.get z := by
  have h := fill_aux N step n L0 [] (by simpa using hn) (fun _ _ => rfl) (by simpa using hd)
  simp only [List.length_nil, ← List.range_eq_range', hq, hr, Nat.sub_zero, List.nil_append] at h
  cases q with
  | error e => exact .inl ⟨e, rfl, h⟩
  | ok zs =>
    obtain ⟨⟨L', fl⟩, hb, hF, rfl⟩ := h
    exact .inr ⟨zs, L', rfl, hb, hF.2.1, hF.2.2⟩

/-- Writing the next place. -/
theorem set_next (ys : List F) {N : ℕ} (h : ys.length < N) (v : F) :
    (⟨true, ys ++ List.replicate (N - ys.length) 0⟩ : Seq F).set ys.length v =
      .ok ⟨true, ys ++ v :: List.replicate (N - ys.length - 1) 0⟩ := by
  obtain ⟨m, rfl⟩ : ∃ m, N = ys.length + (m + 1) := ⟨N - ys.length - 1, by omega⟩
  have h1 : ys.length + (m + 1) - ys.length = m + 1 := by omega
  simp [Seq.set, h1, List.replicate_succ]

/-- Leaving the next place. -/
theorem keep_next (ys : List F) {N : ℕ} (h : ys.length < N) :
    ys ++ List.replicate (N - ys.length) 0 = ys ++ (0 : F) :: List.replicate (N - ys.length - 1) 0 := by
  obtain ⟨m, rfl⟩ : ∃ m, N = ys.length + (m + 1) := ⟨N - ys.length - 1, by omega⟩
  have h1 : ys.length + (m + 1) - ys.length = m + 1 := by omega
  simp [h1, List.replicate_succ]

/-- `D_new = np.zeros((k+1, k+1)); D_new[0:k, 0:k] = D` -/
theorem setBlock_zeros (k : ℕ) (D : Arr2 F) : setBlock (Arr2.zeros (k + 1) (k + 1)) k k D = enlarge k D := by
  have hz : (Arr2.zeros (k + 1) (k + 1) : Arr2 F).rows = List.replicate (k + 1) (Vec.zeros (k + 1)) := rfl
  have hc : (Arr2.zeros (k + 1) (k + 1) : Arr2 F).cols = k + 1 := rfl
  simp only [setBlock, enlarge, hz, hc, List.length_replicate]
  rw [if_pos ⟨by omega, by omega⟩]
  cases hb : D.broadcastTo k k with
  | error e => rfl
  | ok b =>
    simp only [except_bind_ok, except_pure]
    have hl : b.rows.length = k := by
      simp only [Arr2.broadcastTo] at hb
      split at hb
      · rename_i h1
        simp only [except_bind_ok] at hb
        split at hb
        · cases hb; exact h1
        · split at hb
          · cases hb; simpa using h1
          · cases hb
      · split at hb
        · simp only [except_bind_ok] at hb
          split at hb
          · cases hb; simp
          · split at hb
            · cases hb; simp
            · cases hb
        · cases hb
    congr 2
    · have : ∀ (l : List (Vec F)) (k : ℕ) (w : Vec F), l.length ≤ k →
          List.zipWith (fun old new => new ++ List.drop w.length old) (List.replicate k (w ++ [0])) l =
            l.map (· ++ [0]) := by
        intro l
        induction l with
        | nil => intro k w _; simp
        | cons a l ih =>
          intro k w h
          obtain ⟨k', rfl⟩ : ∃ k', k = k' + 1 := ⟨k - 1, by simp at h; omega⟩
          simp only [List.replicate_succ, List.zipWith_cons_cons, List.map_cons]
          rw [ih k' w (by simpa using h)]
          simp
      have h2 := this b.rows (k + 1) (Vec.zeros k) (by omega)
      simp only [Vec.zeros, List.length_replicate, ← List.replicate_succ'] at h2
      simpa [Vec.zeros] using h2

end Verif.Source
