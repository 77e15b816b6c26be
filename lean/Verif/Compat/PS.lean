import Verif.Compat.Basic

/-! # `iPS` -/

namespace Verif.V0
open Spec Py

variable {d : ℕ}

/-- Outcome of a `lift`. -/
theorem lift_cases {σ α : Type} (x : Except PyErr α) (s : σ) :
    (∃ a, x = .ok a ∧ lift x s = .ok a s) ∨ (∃ e, x = .error e ∧ lift x s = .err e s) := by
  cases x with
  | ok a => exact .inl ⟨a, rfl, rfl⟩
  | error e => exact .inr ⟨e, rfl, rfl⟩

/-- What every update preserves. -/
structure PS.Ok (s : PS) : Prop where
  sizes : s.sizes.length = s.centers.length
  PSi : s.PSi.length = s.centers.length
  output : s.output = 0

theorem setAt_length {α : Type} {l l' : List α} {c : ℤ} {a : α} (h : setAt l c a = .ok l') : l'.length = l.length := by
  unfold setAt at h
  split at h
  · simp at h
  · simp only [Except.ok.injEq] at h; subst h; simp

theorem mapE_length {α β : Type} {f : α → Except PyErr β} {l : List α} {r : List β} (h : mapE f l = .ok r) : r.length = l.length := by
  induction l generalizing r with
  | nil => simp only [mapE, Except.ok.injEq] at h; subst h; rfl
  | cons a l ih =>
    simp only [mapE] at h
    cases ha : f a with
    | error e => simp [ha] at h
    | ok b =>
      cases hl : mapE f l with
      | error e => simp [ha, hl] at h
      | ok bs =>
        simp only [ha, hl, except_bind_ok, except_pure, Except.ok.injEq] at h
        subst h
        simp [ih hl]

/-- With no other cluster, there is exactly one, numbered 0. -/
theorem sepList_nil {cs : List Vec} {c : ℤ} (h : sepList cs c = .ok []) (hcs : cs ≠ []) : cs.length = 1 ∧ c = 0 := by
  have hl := mapE_length h
  have hf : (List.range cs.length).filter (fun j : ℕ => decide ((j : ℤ) ≠ c)) = [] := List.eq_nil_of_length_eq_zero hl.symm
  rw [List.filter_eq_nil_iff] at hf
  have hpos := List.length_pos_iff.mpr hcs
  have h0 : (0 : ℤ) = c := by
    have := hf 0 (List.mem_range.mpr hpos)
    simpa using this
  refine ⟨?_, h0.symm⟩
  by_contra hne
  have := hf 1 (List.mem_range.mpr (by omega))
  simp [← h0] at this

/-- The second half of `PS.update`: everything after the centroid and the size. -/
noncomputable def PS.finish (c : ℤ) : Py PS XR := do
  let s ← get
  let n ← lift (getAt s.sizes c)
  modify fun s => { s with maxSize := max s.maxSize n }
  let s ← get
  let bs ← lift (sepList s.centers c)
  (if bs ≠ [] then do
    let b ← lift (Vec.amin bs)
    let t ← lift (sumAll s.centers)
    let k : XR := .fin s.centers.length
    let m := t / k
    modify fun s => { s with meanCenter := some m }
    let bt := (s.centers.map fun cc => norm22 (cc.map fun y => y - m)).sum / k
    let ps ← lift (setAt s.PSi c (.fin ((n : ℝ) / (s.maxSize : ℝ)) - XR.exp (-b / bt)))
    modify fun s => { s with PSi := ps }
  else do
    let ps ← lift (setAt s.PSi c 0)
    modify fun s => { s with PSi := ps }
    modify fun s => { s with output := s.PSi.sum })
  let s ← get
  pure s.output

theorem PS.finish_ok {c : ℤ} {s : PS} (h : s.Ok) :
    (PS.finish c s).state.Ok ∧ ∀ r s', PS.finish c s = .ok r s' → r = 0 := by
  obtain ⟨h1, h2, h3⟩ := h
  simp only [PS.finish, bind_apply, get_apply, modify_apply, Res.bind_ok]
  rcases lift_cases (getAt s.sizes c) s with ⟨n, hn, e⟩ | ⟨_, -, e⟩
  · rw [e]
    simp only [Res.bind_ok]
    have hne : s.centers ≠ [] := by
      rintro h0
      have : s.sizes = [] := List.eq_nil_of_length_eq_zero (by rw [h1, h0]; rfl)
      rw [this] at hn
      simp at hn
    rcases lift_cases (sepList s.centers c) ({ s with maxSize := max s.maxSize n } : PS) with ⟨bs, hb, e⟩ | ⟨_, -, e⟩
    · rw [e]
      simp only [Res.bind_ok, ite_app]
      split_ifs with hbs
      · simp only [bind_apply, modify_apply, Res.bind_ok]
        rcases lift_cases (Vec.amin bs) ({ s with maxSize := max s.maxSize n } : PS) with ⟨b, -, e⟩ | ⟨_, -, e⟩
        · rw [e]
          simp only [Res.bind_ok]
          rcases lift_cases (sumAll s.centers) ({ s with maxSize := max s.maxSize n } : PS) with ⟨t, -, e⟩ | ⟨_, -, e⟩
          · rw [e]
            simp only [Res.bind_ok]
            generalize hy : (XR.fin ((n : ℝ) / ((max s.maxSize n : ℕ) : ℝ)) - _ : XR) = y
            cases hs : setAt s.PSi c y with
            | ok ps =>
              simp only [lift_ok, Res.bind_ok, pure_apply, Res.state, Res.ok.injEq]
              exact ⟨⟨h1, (setAt_length hs).trans h2, h3⟩, by rintro r s' ⟨rfl, -⟩; exact h3⟩
            | error er =>
              simp only [lift_error, Res.bind_err, Res.state]
              exact ⟨⟨h1, h2, h3⟩, by simp⟩
          · rw [e]
            exact ⟨⟨h1, h2, h3⟩, by simp⟩
        · rw [e]
          exact ⟨⟨h1, h2, h3⟩, by simp⟩
      · simp only [ne_eq, not_not] at hbs
        subst hbs
        obtain ⟨hl, rfl⟩ := sepList_nil hb hne
        rw [hl] at h2
        obtain ⟨a, ha⟩ := List.length_eq_one_iff.mp h2
        have hs : setAt s.PSi 0 (0 : XR) = .ok [0] := by
          rw [ha]
          simp [setAt, pyIdx]
        simp only [bind_apply, modify_apply, Res.bind_ok, hs, lift_ok, pure_apply, Res.state, Res.ok.injEq]
        exact ⟨⟨h1, by simp [hl], by simp⟩, by rintro r s' ⟨rfl, -⟩; simp⟩
    · rw [e]
      exact ⟨⟨h1, h2, h3⟩, by simp⟩
  · rw [e]
    exact ⟨⟨h1, h2, h3⟩, by simp⟩

theorem PS.update_ok {x : Vec} {c : ℤ} {s : PS} (h : s.Ok) :
    (PS.update x c s).state.Ok ∧ ∀ r s', PS.update x c s = .ok r s' → r = 0 := by
  have h' := h
  obtain ⟨h1, h2, h3⟩ := h'
  have hu : PS.update x c = (do
    let s ← get
    (if c ≥ s.centers.length then
      modify fun s => { s with centers := s.centers ++ [x], sizes := s.sizes ++ [1], PSi := s.PSi ++ [0] }
    else do
      let v ← lift (getAt s.centers c)
      let n ← lift (getAt s.sizes c)
      let u ← lift (centerUpdate x v n)
      let cs ← lift (setAt s.centers c u.1)
      modify fun s => { s with centers := cs }
      let ns ← lift (setAt s.sizes c u.2)
      modify fun s => { s with sizes := ns })
    PS.finish c) := rfl
  rw [hu]
  simp only [bind_apply, get_apply, Res.bind_ok, ite_app]
  split_ifs with hc
  · simp only [modify_apply, Res.bind_ok]
    exact PS.finish_ok ⟨by simp [h1], by simp [h2], h3⟩
  · simp only [modify_apply]
    cases hv : getAt s.centers c with
    | error e => exact ⟨h, by simp⟩
    | ok v =>
    simp only [lift_ok, Res.bind_ok]
    cases hn : getAt s.sizes c with
    | error e => exact ⟨h, by simp⟩
    | ok n =>
    simp only [lift_ok, Res.bind_ok]
    cases hu : centerUpdate x v n with
    | error e => exact ⟨h, by simp⟩
    | ok u =>
    simp only [lift_ok, Res.bind_ok]
    cases hcs : setAt s.centers c u.1 with
    | error e => exact ⟨h, by simp⟩
    | ok cs =>
    simp only [lift_ok, Res.bind_ok]
    have l1 := setAt_length hcs
    cases hns : setAt s.sizes c u.2 with
    | error e => exact ⟨⟨h1.trans l1.symm, h2.trans l1.symm, h3⟩, by simp⟩
    | ok ns =>
    simp only [lift_ok, Res.bind_ok]
    exact PS.finish_ok ⟨(setAt_length hns).trans (h1.trans l1.symm), h2.trans l1.symm, h3⟩

theorem PS.init_ok : PS.init.Ok := ⟨rfl, rfl, rfl⟩

theorem PS.afterAll_ok (l : List (Vec × ℤ)) {s : PS} (h : s.Ok) : (afterAll PS.update l s).Ok := by
  induction l generalizing s with
  | nil => exact h
  | cons p l ih => exact ih (PS.update_ok h).1

/-! ## Streams in order are accepted -/

/-- The state after the stream `S`. -/
structure PS.Rep (S : Stream d) (s : PS) : Prop where
  sizes : s.sizes = tab (numClusters S) (size S)
  centers : s.centers = tab (numClusters S) fun a => enc (centroid S a)
  PSi : s.PSi.length = numClusters S

theorem sumAll_tab (k : ℕ) (f : ℤ → Pt d) : ∃ t, sumAll (tab k fun a => enc (f a)) = .ok t := by
  unfold sumAll
  split
  · exact ⟨_, rfl⟩
  · rename_i a l h
    have hall : ∀ b ∈ a :: l, b.length = d := by
      rw [← h]
      intro b hb
      obtain ⟨c, -, rfl⟩ := List.mem_map.mp hb
      simp
    have ha := hall a (by simp)
    rw [if_pos]
    · exact ⟨_, rfl⟩
    · simp only [List.all_eq_true, decide_eq_true_eq]
      intro b hb
      rw [ha, hall b (by simp [hb])]

theorem PS.finish_rep {S : Stream d} {s : PS} {c : ℤ} (h : PS.Rep S s) (h0 : 0 ≤ c) (h1 : c < numClusters S) :
    ∃ r s', PS.finish c s = .ok r s' ∧ PS.Rep S s' := by
  obtain ⟨e1, e2, e3⟩ := h
  have hi : pyIdx s.PSi.length c = some c.toNat := pyIdx_mem h0 (by rw [e3]; exact h1)
  obtain ⟨t, ht⟩ := sumAll_tab (numClusters S) (centroid S)
  simp only [PS.finish, bind_apply, get_apply, modify_apply, Res.bind_ok, e1, e2, getAt_tab _ h0 h1, lift_ok, sepList_tab h0 h1, ite_app]
  generalize hbs : (List.map (fun j : ℕ => XR.fin (dist2 (centroid S c) (centroid S j))) _) = bs
  cases bs with
  | nil =>
    simp only [ne_eq, not_true_eq_false, if_false, setAt_isOk _ hi, lift_ok, Res.bind_ok, pure_apply]
    exact ⟨_, _, rfl, ⟨rfl, rfl, by simpa using e3⟩⟩
  | cons b bs =>
    simp only [ne_eq, reduceCtorEq, not_false_eq_true, if_true, Vec.amin, lift_ok, Res.bind_ok, ht, setAt_isOk _ hi, pure_apply]
    exact ⟨_, _, rfl, ⟨rfl, rfl, by simpa using e3⟩⟩

theorem PS.step {S : Stream d} {s : PS} {x : Pt d} {c : ℤ} (hS : InOrder (S ++ [(x, c)])) (h : PS.Rep S s) :
    ∃ r s', PS.update (enc x) c s = .ok r s' ∧ PS.Rep (S ++ [(x, c)]) s' := by
  obtain ⟨e1, e2, e3⟩ := h
  have hu : PS.update (enc x) c = (do
    let s ← get
    (if c ≥ s.centers.length then
      modify fun s => { s with centers := s.centers ++ [enc x], sizes := s.sizes ++ [1], PSi := s.PSi ++ [0] }
    else do
      let v ← lift (getAt s.centers c)
      let n ← lift (getAt s.sizes c)
      let u ← lift (centerUpdate (enc x) v n)
      let cs ← lift (setAt s.centers c u.1)
      modify fun s => { s with centers := cs }
      let ns ← lift (setAt s.sizes c u.2)
      modify fun s => { s with sizes := ns })
    PS.finish c) := rfl
  rw [hu]
  simp only [bind_apply, get_apply, modify_apply, Res.bind_ok, ite_app, e1, e2, tab_length]
  rcases hS.cases with ⟨hc, h0, h1⟩ | ⟨hc, hk⟩
  · have hnum : numClusters (S ++ [(x, c)]) = numClusters S := numClusters_old hc
    have s2 : setAt (tab (numClusters S) fun a => enc (centroid S a)) c
          (enc fun i => centroid S c i + (x i - centroid S c i) / ((size S c + 1 : ℕ) : ℝ))
        = .ok (tab (numClusters S) fun a => enc (centroid (S ++ [(x, c)]) a)) :=
      setAt_tab h0 h1 (enc_congr fun i => by rw [mean_step, centroid_append_self])
        fun b _ _ hb => by simp [centroid_append_ne S x hb]
    have s3 : setAt (tab (numClusters S) (size S)) c (size S c + 1) = .ok (tab (numClusters S) (size (S ++ [(x, c)]))) :=
      setAt_tab h0 h1 (size_append_self S x c) fun b _ _ hb => size_append_ne S x hb
    rw [if_neg (by omega)]
    simp only [getAt_tab _ h0 h1, lift_ok, Res.bind_ok, centerUpdate_enc, s2, s3]
    exact PS.finish_rep ⟨by rw [hnum], by rw [hnum], by rw [hnum]; exact e3⟩ h0 (by rw [hnum]; exact h1)
  · subst hk
    have hnum : numClusters (S ++ [(x, (numClusters S : ℤ))]) = numClusters S + 1 := numClusters_new hc
    have hold : ∀ b : ℤ, b < (numClusters S : ℤ) → b ≠ (numClusters S : ℤ) := fun b hb => by omega
    rw [if_pos le_rfl]
    simp only [Res.bind_ok]
    refine PS.finish_rep ⟨?_, ?_, by rw [hnum]; simp [e3]⟩ (by omega) (by rw [hnum]; push_cast; omega)
    · rw [hnum]
      exact tab_append (size_append_new S x hc) fun b _ hb => size_append_ne S x (hold b hb)
    · rw [hnum]
      exact tab_append (by simp [centroid_append_new S x hc]) fun b _ hb => by simp [centroid_append_ne S x (hold b hb)]

theorem PS.run {S : Stream d} (hS : InOrder S) :
    ∃ s, feed PS.update (encS S) PS.init = .ok (List.replicate S.length 0) s ∧ PS.Rep S s ∧ s.Ok := by
  induction S using List.reverseRecOn with
  | nil =>
    refine ⟨PS.init, rfl, ?_, PS.init_ok⟩
    constructor <;> simp [PS.init, numClusters, labels, tab, rangeKeys]
  | append_singleton S p ih =>
    obtain ⟨x, c⟩ := p
    obtain ⟨s, hf, hr, ho⟩ := ih hS.prefix
    obtain ⟨r, s', hu, hr'⟩ := PS.step hS hr
    have hok := PS.update_ok (x := enc x) (c := c) ho
    rw [hu] at hok
    obtain rfl : r = 0 := hok.2 r s' rfl
    refine ⟨s', ?_, hr', hok.1⟩
    have := feed_append PS.update (encS S) (enc x, c) hf hu
    rw [show encS (S ++ [(x, c)]) = encS S ++ [(enc x, c)] by simp [encS], this]
    simp [List.replicate_succ']

end Verif.V0
