import Verif.Compat.PS

/-! # `iCH`, `iGD43`, `iGD53`, `iDB` -/

namespace Verif.V0
open Spec Py

variable {d : ℕ}

theorem feed_err_append {σ β : Type} (update : Vec → ℤ → Py σ β) (l m : List (Vec × ℤ)) {s s' : σ} {e : PyErr}
    (h : feed update l s = .err e s') : feed update (l ++ m) s = .err e s' := by
  induction l generalizing s with
  | nil => simp [feed] at h
  | cons q l ih =>
    simp only [feed, List.cons_append, bind_apply] at h ⊢
    cases hq : update q.1 q.2 s with
    | err e t => simp only [hq, Res.bind_err, Res.err.injEq] at h ⊢; exact h
    | ok b t =>
      simp only [hq, Res.bind_ok] at h ⊢
      cases hf : feed update l t with
      | ok bs t' => simp [hf] at h
      | err e t' =>
        simp only [hf, Res.bind_err, Res.err.injEq] at h
        obtain ⟨rfl, rfl⟩ := h
        rw [ih hf]
        rfl

/-! ## iCH -/

/-- The state after `n` samples of dimension `d`, all with cluster number 0: each one has made a cluster of its own. -/
structure CH.Rep (d n : ℕ) (s : CH) : Prop where
  clusters : s.clusters = []
  N : s.N = n
  centers : ∃ l : List (Pt d), s.centers = l.map enc ∧ l.length = n
  sizes : s.sizes.length = n
  WGSSi : s.WGSSi.length = n
  BGSSi : s.BGSSi.length = n
  dc : s.dataCenter = none ∨ ∃ y : Pt d, s.dataCenter = some (enc y)

theorem pyIdx_head (n : ℕ) : pyIdx (n + 1) 0 = some 0 := pyIdx_mem le_rfl (by push_cast; omega)

theorem CH.step_zero {n : ℕ} {s : CH} (h : CH.Rep d n s) (x : Pt d) :
    ∃ s', CH.update (enc x) 0 s = .ok 0 s' ∧ CH.Rep d (n + 1) s' := by
  obtain ⟨hcl, hN, ⟨l, hcen, hl⟩, hsz, hW, hB, hdc⟩ := h
  have hn : ((s.N + 1 : ℕ) : ℝ) ≠ 0 := by positivity
  obtain ⟨y, hy⟩ : ∃ y : Pt d, scaleAdd (((s.N + 1 : ℕ) : ℝ) - 1) s.dataCenter (enc x) = .ok (enc y) := by
    rcases hdc with h | ⟨z, h⟩ <;> rw [h, scaleAdd]
    · exact ⟨x, rfl⟩
    · exact ⟨_, by rw [smul_enc, add_enc]⟩
  obtain ⟨b, -, hb⟩ := getAt_isOk (l := s.BGSSi ++ [(0 : XR)]) (c := 0) (i := 0) (by simp [pyIdx_head])
  obtain ⟨m, -, hm⟩ := getAt_isOk (l := s.sizes ++ [1]) (c := 0) (i := 0) (by simp [pyIdx_head])
  obtain ⟨v, hv', hv⟩ := getAt_isOk (l := s.centers ++ [enc x]) (c := 0) (i := 0) (by simp [pyIdx_head])
  obtain ⟨w, rfl⟩ : ∃ w : Pt d, v = enc w := by
    have : v ∈ s.centers ++ [enc x] := List.mem_of_getElem? hv'
    rw [hcen, ← List.map_singleton (f := enc), ← List.map_append] at this
    obtain ⟨w, -, hw⟩ := List.mem_map.mp this
    exact ⟨w, hw.symm⟩
  have hset : ∀ z, setAt (s.BGSSi ++ [(0 : XR)]) 0 z = .ok ((s.BGSSi ++ [(0 : XR)]).set 0 z) :=
    fun z => setAt_isOk z (by simp [pyIdx_head])
  have hif : ¬ (s.centers.length + 1 > 1 ∧ ((s.N + 1 : ℕ) : ℤ) - ((s.centers.length + 1 : ℕ) : ℤ) > 0) := by
    have : s.centers.length = n := by rw [hcen, List.length_map, hl]
    rw [hN, this]
    push_cast
    omega
  simp only [CH.update, bind_apply, get_apply, modify_apply, Res.bind_ok, hy, lift_ok, vdiv_enc _ hn, ite_app, hcl, List.length_nil,
    Nat.cast_zero, if_true, hb, hm, hv, sub_enc, hset, List.length_append, List.length_singleton, if_neg hif, pure_apply]
  refine ⟨_, rfl, ?_⟩
  refine ⟨rfl, ?_, ⟨l ++ [x], ?_, by simp [hl]⟩, by simp [hsz], by simp [hW], by simp [hB], .inr ⟨_, rfl⟩⟩
  · simp [hN]
  · simp [hcen]

theorem CH.run_zero (l : List (Pt d)) :
    ∃ s, feed CH.update (encS (l.map fun x => (x, 0))) CH.init = .ok (List.replicate l.length 0) s ∧ CH.Rep d l.length s := by
  induction l using List.reverseRecOn with
  | nil => exact ⟨CH.init, rfl, ⟨rfl, rfl, ⟨[], rfl, rfl⟩, rfl, rfl, rfl, .inl rfl⟩⟩
  | append_singleton l x ih =>
    obtain ⟨s, hf, hr⟩ := ih
    obtain ⟨s', hu, hr'⟩ := CH.step_zero hr x
    refine ⟨s', ?_, by simpa using hr'⟩
    have := feed_append CH.update (encS (l.map fun x => (x, 0))) (enc x, 0) hf hu
    rw [show encS ((l ++ [x]).map fun x => (x, (0 : ℤ))) = encS (l.map fun x => (x, 0)) ++ [(enc x, 0)] by simp [encS], this]
    simp [List.replicate_succ']

/-! ## iGD43, iGD53 -/

/-- `for i in l: body(i)` when the body always succeeds. -/
theorem forEach_ok {σ ι : Type} {l : List ι} {body : ι → Py σ Unit} (P : σ → Prop)
    (h : ∀ i ∈ l, ∀ s, P s → ∃ s', body i s = .ok () s' ∧ P s') {s : σ} (hs : P s) :
    ∃ s', forEach l body s = .ok () s' ∧ P s' := by
  induction l generalizing s with
  | nil => exact ⟨s, rfl, hs⟩
  | cons i l ih =>
    obtain ⟨s1, h1, hp⟩ := h i (by simp) s hs
    obtain ⟨s2, h2, hp2⟩ := ih (fun j hj => h j (by simp [hj])) hp
    exact ⟨s2, by simp only [forEach, bind_apply, h1, Res.bind_ok, h2], hp2⟩

/-- A square array of the given size. -/
def Square (k : ℕ) (a : Arr2) : Prop := a.rows.length = k ∧ ∀ r ∈ a.rows, r.length = k

theorem setAt2_square {k : ℕ} {a : Arr2} (h : Square k a) {i j : ℤ} (hi0 : 0 ≤ i) (hi : i < k) (hj0 : 0 ≤ j) (hj : j < k) (x : XR) :
    ∃ b, setAt2 a i j x = .ok b ∧ Square k b := by
  obtain ⟨r, hr', hr⟩ := getAt_isOk (l := a.rows) (c := i) (pyIdx_mem hi0 (by rw [h.1]; exact hi))
  have hrm := List.mem_of_getElem? hr'
  have hrl := h.2 r hrm
  have h2 := setAt_isOk (l := r) x (pyIdx_mem hj0 (by rw [hrl]; exact hj))
  have h3 := setAt_isOk (l := a.rows) (r.set j.toNat x) (pyIdx_mem hi0 (by rw [h.1]; exact hi))
  refine ⟨⟨a.cols, a.rows.set i.toNat (r.set j.toNat x)⟩, by simp [setAt2, hr, h2, h3], by simp [h.1], ?_⟩
  intro y hy
  rcases List.mem_or_eq_of_mem_set hy with hy | rfl
  · exact h.2 y hy
  · simpa using hrl

theorem pad_square {k : ℕ} {a : Arr2} (h : Square k a) (hc : a.cols = k) (v : XR) : Square (k + 1) (pad a v) ∧ (pad a v).cols = k + 1 := by
  refine ⟨⟨by simp [pad, h.1], ?_⟩, by simp [pad, hc]⟩
  intro r hr
  simp only [pad, List.mem_append, List.mem_map, List.mem_singleton] at hr
  rcases hr with ⟨r', hr', rfl⟩ | rfl
  · simp [h.2 r' hr']
  · simp [hc]

/-- The state after a stream in order in which every cluster has one sample. -/
structure GD.Rep (S : Stream d) (s : GD) : Prop where
  centers : s.centers = tab (numClusters S) fun a => enc (centroid S a)
  sizes : s.sizes = tab (numClusters S) fun _ => 1
  CP : s.CP = tab (numClusters S) fun _ => .fin 0
  sq : Square (numClusters S) s.d
  cols : s.d.cols = numClusters S
  g : s.g = none
  output : s.output = 0

theorem GD.step_new {S : Stream d} {s : GD} {x : Pt d} (h : GD.Rep S s) (hc : (numClusters S : ℤ) ∉ labels S) :
    ∃ s', GD.update (enc x) (numClusters S) s = .ok 0 s' ∧ GD.Rep (S ++ [(x, (numClusters S : ℤ))]) s' := by
  obtain ⟨h1, h2, h3, h4, h5, h6, h7⟩ := h
  have hnum : numClusters (S ++ [(x, (numClusters S : ℤ))]) = numClusters S + 1 := numClusters_new hc
  have hold : ∀ b : ℤ, b < (numClusters S : ℤ) → b ≠ (numClusters S : ℤ) := fun b hb => by omega
  simp only [GD.update, bind_apply, get_apply, modify_apply, Res.bind_ok, ite_app, h1, tab_length, if_true, pure_apply, h7]
  refine ⟨_, rfl, ?_⟩
  obtain ⟨p1, p2⟩ := pad_square h4 h5 .pinf
  constructor <;> simp only [hnum]
  · exact tab_append (by simp [centroid_append_new S x hc]) fun b _ hb => by simp [centroid_append_ne S x (hold b hb)]
  · rw [h2, tab_succ]
  · rw [h3, tab_succ]; rfl
  · exact p1
  · exact p2
  · exact h6

theorem GD.entry_ok {k : ℕ} {s : GD} (hcen : ∃ f : ℤ → Pt d, s.centers = tab k fun a => enc (f a))
    (hsz : s.sizes.length = k) (hcp : s.CP.length = k) {c j : ℤ} (h0 : 0 ≤ c) (h1 : c < k) (j0 : 0 ≤ j) (j1 : j < k) :
    ∃ e, s.entry c j = .ok e := by
  obtain ⟨f, hf⟩ := hcen
  unfold GD.entry
  split_ifs
  · rw [hf, getAt_tab _ h0 h1, getAt_tab _ j0 j1]
    simp
  · obtain ⟨a, -, ha⟩ := getAt_isOk (l := s.CP) (pyIdx_mem h0 (by rw [hcp]; exact h1))
    obtain ⟨b, -, hb⟩ := getAt_isOk (l := s.CP) (pyIdx_mem j0 (by rw [hcp]; exact j1))
    obtain ⟨m, -, hm⟩ := getAt_isOk (l := s.sizes) (pyIdx_mem h0 (by rw [hsz]; exact h1))
    obtain ⟨n, -, hn⟩ := getAt_isOk (l := s.sizes) (pyIdx_mem j0 (by rw [hsz]; exact j1))
    simp [ha, hb, hm, hn]

theorem GD.step_old {S : Stream d} {s : GD} {x : Pt d} {c : ℤ} (h : GD.Rep S s) (h0 : 0 ≤ c) (h1 : c < numClusters S) :
    ∃ s', GD.update (enc x) c s = .err .attributeError s' := by
  obtain ⟨e1, e2, e3, e4, e5, e6, e7⟩ := h
  have n1 : ¬ c = (numClusters S : ℤ) := by omega
  have n2 : ¬ c > (numClusters S : ℤ) := by omega
  set w : Pt d := fun i => (1 - 1 / ((1 + 1 : ℕ) : ℝ)) * centroid S c i + 1 / ((1 + 1 : ℕ) : ℝ) * x i with hw
  have hcp := cpUpdate_enc x (centroid S c) 1 (g := s.g) (.inl e6) 0 (w := w) (fun i => rfl) 1 2
  set nc := XR.fin 0 + (norm 2 (enc fun i => x i - w i)).powNat 1 + .fin ((1 : ℕ) : ℝ) * (norm 2 (enc fun i => centroid S c i - w i)).powNat 1
    + (XR.fin 0).powNat 1 with hnc
  have s1 : setAt (tab (numClusters S) fun _ => XR.fin 0) c nc
      = .ok (tab (numClusters S) (Function.update (fun _ => XR.fin 0) c nc)) :=
    setAt_tab h0 h1 (Function.update_self ..) fun b _ _ hb => Function.update_of_ne hb ..
  have s2 : setAt (tab (numClusters S) fun a => enc (centroid S a)) c (enc w)
      = .ok (tab (numClusters S) fun a => enc (Function.update (centroid S) c w a)) :=
    setAt_tab h0 h1 (by rw [Function.update_self]) fun b _ _ hb => by rw [Function.update_of_ne hb]
  have s3 : setAt (tab (numClusters S) fun _ => 1) c (1 + 1)
      = .ok (tab (numClusters S) (Function.update (fun _ => 1) c (1 + 1))) :=
    setAt_tab h0 h1 (Function.update_self ..) fun b _ _ hb => Function.update_of_ne hb ..
  simp only [GD.update, bind_apply, get_apply, modify_apply, Res.bind_ok, ite_app, e1, e2, e3, tab_length, if_neg n1, if_neg n2,
    getAt_tab _ h0 h1, lift_ok, hcp, s1, s2, s3]
  obtain ⟨s', hs', hp⟩ := forEach_ok (l := (List.range (numClusters S)).filter fun j : ℕ => decide (c ≠ (j : ℤ)))
    (body := fun j : ℕ => (do
      let s ← get
      let e ← lift (s.entry c j)
      let d1 ← lift (setAt2 s.d c j e)
      let d2 ← lift (setAt2 d1 j c e)
      modify fun s => { s with d := d2 } : Py GD Unit))
    (fun s => (∃ f : ℤ → Pt d, s.centers = tab (numClusters S) fun a => enc (f a)) ∧ s.sizes.length = numClusters S
      ∧ s.CP.length = numClusters S ∧ Square (numClusters S) s.d)
    (by
      rintro j hj s ⟨p1, p2, p3, p4⟩
      have hj' : j < numClusters S := by simpa using (List.mem_filter.mp hj).1
      have j1 : (j : ℤ) < numClusters S := by exact_mod_cast hj'
      obtain ⟨e, he⟩ := GD.entry_ok p1 p2 p3 h0 h1 (by omega : (0 : ℤ) ≤ j) j1
      obtain ⟨b1, hb1, q1⟩ := setAt2_square p4 h0 h1 (by omega : (0 : ℤ) ≤ j) j1 e
      obtain ⟨b2, hb2, q2⟩ := setAt2_square q1 (by omega : (0 : ℤ) ≤ j) j1 h0 h1 e
      exact ⟨{ s with d := b2 }, by simp [he, hb1, hb2], p1, p2, p3, q2⟩)
    (s := { s with
      centers := tab (numClusters S) fun a => enc (Function.update (centroid S) c w a)
      sizes := tab (numClusters S) (Function.update (fun _ => 1) c (1 + 1))
      CP := tab (numClusters S) (Function.update (fun _ => XR.fin 0) c nc)
      g := some (enc fun _ : Fin d => 0) })
    ⟨⟨_, rfl⟩, by simp, by simp, e4⟩
  obtain ⟨-, p2, p3, -⟩ := hp
  obtain ⟨a, -, ha⟩ := getAt_isOk (l := s'.CP) (pyIdx_mem h0 (by rw [p3]; exact h1))
  obtain ⟨m, -, hm⟩ := getAt_isOk (l := s'.sizes) (pyIdx_mem h0 (by rw [p2]; exact h1))
  rw [hs']
  simp only [Res.bind_ok, ha, hm, lift_ok, raise_apply, Res.bind_err]
  exact ⟨s', rfl⟩

/-- The labels of the stream are all different. -/
def Distinct (S : Stream d) : Prop := (S.map Prod.snd).Nodup

theorem distinct_append {S : Stream d} {x : Pt d} {c : ℤ} : Distinct (S ++ [(x, c)]) ↔ Distinct S ∧ c ∉ labels S := by
  rw [Distinct, List.map_append, List.map_cons, List.map_nil, ← List.concat_eq_append, List.nodup_concat, labels, List.mem_toFinset,
    and_comm]
  rfl

theorem encS_append (S : Stream d) (x : Pt d) (c : ℤ) : encS (S ++ [(x, c)]) = encS S ++ [(enc x, c)] := by simp [encS]

theorem GD.run {t : ℕ} {S : Stream d} (hS : InOrder S) :
    (Distinct S ∧ ∃ s, feed GD.update (encS S) (GD.init t) = .ok (List.replicate S.length 0) s ∧ GD.Rep S s)
    ∨ (¬ Distinct S ∧ ∃ s, feed GD.update (encS S) (GD.init t) = .err .attributeError s) := by
  induction S using List.reverseRecOn with
  | nil =>
    refine .inl ⟨List.nodup_nil, GD.init t, rfl, ?_⟩
    constructor <;> simp [GD.init, numClusters, labels, tab, rangeKeys, Square, Arr2.zeros]
  | append_singleton S p ih =>
    obtain ⟨x, c⟩ := p
    rw [distinct_append, encS_append]
    rcases ih hS.prefix with ⟨hd, s, hf, hr⟩ | ⟨hd, s, hf⟩
    · rcases hS.cases with ⟨hc, h0, h1⟩ | ⟨hc, rfl⟩
      · obtain ⟨s', hs'⟩ := GD.step_old (x := x) hr h0 h1
        exact .inr ⟨fun h => h.2 hc, s', feed_append_err _ _ [] (enc x, c) hf hs'⟩
      · obtain ⟨s', hs', hr'⟩ := GD.step_new (x := x) hr hc
        refine .inl ⟨⟨hd, hc⟩, s', ?_, hr'⟩
        rw [feed_append _ _ (enc x, _) hf hs']
        simp [List.replicate_succ']
    · exact .inr ⟨fun h => hd h.1, s, feed_err_append _ _ _ hf⟩

/-- `output` is never assigned before the exception. -/
theorem GD.update_output {x : Vec} {c : ℤ} {s : GD} :
    (GD.update x c s).state.output = s.output ∧ ∀ r s', GD.update x c s = .ok r s' → r = s.output := by
  simp only [GD.update, bind_apply, get_apply, Res.bind_ok, ite_app]
  split_ifs with h1 h2
  · simp only [modify_apply, Res.bind_ok, pure_apply, Res.state, Res.ok.injEq]
    exact ⟨trivial, by rintro r s' ⟨rfl, -⟩; rfl⟩
  · simp only [raise_apply, Res.bind_err, Res.state]
    exact ⟨trivial, by simp⟩
  · simp only [modify_apply]
    cases getAt s.centers c with
    | error e => exact ⟨rfl, by simp⟩
    | ok v =>
    simp only [lift_ok, Res.bind_ok]
    cases getAt s.sizes c with
    | error e => exact ⟨rfl, by simp⟩
    | ok n =>
    simp only [lift_ok, Res.bind_ok]
    cases getAt s.CP c with
    | error e => exact ⟨rfl, by simp⟩
    | ok cp =>
    simp only [lift_ok, Res.bind_ok]
    cases cpUpdate x v n s.g cp 1 2 with
    | error e => exact ⟨rfl, by simp⟩
    | ok u =>
    simp only [lift_ok, Res.bind_ok]
    cases setAt s.CP c u.cp with
    | error e => exact ⟨rfl, by simp⟩
    | ok cps =>
    simp only [lift_ok, Res.bind_ok]
    cases setAt s.centers c u.v with
    | error e => exact ⟨rfl, by simp⟩
    | ok cs =>
    simp only [lift_ok, Res.bind_ok]
    cases setAt s.sizes c u.n with
    | error e => exact ⟨rfl, by simp⟩
    | ok ns =>
    simp only [lift_ok, Res.bind_ok]
    have hk : ∀ (l : List ℕ) (s0 : GD), (forEach l (fun j : ℕ => (do
        let s ← get
        let e ← lift (s.entry c j)
        let d1 ← lift (setAt2 s.d c j e)
        let d2 ← lift (setAt2 d1 j c e)
        modify fun s => { s with d := d2 } : Py GD Unit)) s0).state.output = s0.output := by
      intro l
      induction l with
      | nil => intro s0; rfl
      | cons j l ih =>
        intro s0
        simp only [forEach, bind_apply, get_apply, Res.bind_ok]
        cases s0.entry c j with
        | error e => rfl
        | ok e =>
        simp only [lift_ok, Res.bind_ok]
        cases setAt2 s0.d c j e with
        | error e => rfl
        | ok d1 =>
        simp only [lift_ok, Res.bind_ok]
        cases setAt2 d1 j c e with
        | error e => rfl
        | ok d2 =>
        simp only [lift_ok, Res.bind_ok, modify_apply]
        exact ih _
    have hk' := hk ((List.range cs.length).filter fun j : ℕ => decide (c ≠ (j : ℤ)))
      { s with CP := cps, g := some u.g, centers := cs, sizes := ns }
    generalize forEach _ _ _ = r at hk' ⊢
    cases r with
    | err e s' => exact ⟨hk', by simp⟩
    | ok a s' =>
      simp only [Res.bind_ok]
      cases getAt s'.CP c with
      | error e => exact ⟨hk', by simp⟩
      | ok v =>
      simp only [lift_ok, Res.bind_ok]
      cases getAt s'.sizes c with
      | error e => exact ⟨hk', by simp⟩
      | ok v =>
      simp only [lift_ok, Res.bind_ok, raise_apply, Res.bind_err]
      exact ⟨hk', by simp⟩

/-! ## iDB -/

/-- What every update preserves. -/
def DB.Ok (s : DB) : Prop := s.CP = [] ∧ s.output = 0

/-- Any update of an object whose `CP` is empty: a new cluster returns 0, everything else raises. -/
theorem DB.update_ok {x : Vec} {c : ℤ} {s : DB} (h : s.Ok) :
    (DB.update x c s).state.Ok ∧ (DB.update x c s).state.N = s.N + 1 ∧
      ((c = s.centers.length ∧ ∃ s', DB.update x c s = .ok (some 0) s')
        ∨ (c ≠ s.centers.length ∧ ∃ e s', DB.update x c s = .err e s' ∧ s' = { s with N := s.N + 1 })) := by
  obtain ⟨h1, h2⟩ := h
  simp only [DB.update, bind_apply, get_apply, modify_apply, Res.bind_ok, ite_app]
  split_ifs with hc hc'
  · simp only [pure_apply, Res.state, h2]
    exact ⟨⟨h1, rfl⟩, trivial, .inl ⟨hc, _, rfl⟩⟩
  · simp only [raise_apply, Res.state]
    exact ⟨⟨h1, h2⟩, trivial, .inr ⟨hc, _, _, rfl, rfl⟩⟩
  · cases getAt s.centers c with
    | error e => exact ⟨⟨h1, h2⟩, rfl, .inr ⟨hc, _, _, rfl, rfl⟩⟩
    | ok v =>
    simp only [lift_ok, Res.bind_ok]
    cases getAt s.sizes c with
    | error e => exact ⟨⟨h1, h2⟩, rfl, .inr ⟨hc, _, _, rfl, rfl⟩⟩
    | ok n =>
    simp only [lift_ok, Res.bind_ok, h1, getAt_nil, lift_error, Res.bind_err]
    exact ⟨⟨rfl, h2⟩, rfl, .inr ⟨hc, _, _, rfl, rfl⟩⟩

theorem DB.afterAll_ok (l : List (Vec × ℤ)) {s : DB} (h : s.Ok) :
    (afterAll DB.update l s).Ok ∧ (afterAll DB.update l s).N = s.N + l.length := by
  induction l generalizing s with
  | nil => exact ⟨h, rfl⟩
  | cons p l ih =>
    obtain ⟨h1, h2, -⟩ := DB.update_ok (x := p.1) (c := p.2) h
    obtain ⟨i1, i2⟩ := ih h1
    exact ⟨i1, by rw [afterAll, i2, h2, List.length_cons]; omega⟩

theorem DB.init_ok : DB.init.Ok := ⟨rfl, rfl⟩

/-- The state after a stream in order in which every cluster has one sample. -/
structure DB.Rep (S : Stream d) (s : DB) : Prop where
  ok : s.Ok
  centers : s.centers.length = numClusters S
  sizes : s.sizes.length = numClusters S

theorem DB.step_new {S : Stream d} {s : DB} {x : Pt d} (h : DB.Rep S s) (hc : (numClusters S : ℤ) ∉ labels S) :
    ∃ s', DB.update (enc x) (numClusters S) s = .ok (some 0) s' ∧ DB.Rep (S ++ [(x, (numClusters S : ℤ))]) s' := by
  obtain ⟨⟨h1, h2⟩, h3, h4⟩ := h
  have hnum : numClusters (S ++ [(x, (numClusters S : ℤ))]) = numClusters S + 1 := numClusters_new hc
  simp only [DB.update, bind_apply, get_apply, modify_apply, Res.bind_ok, ite_app, h3, if_true, pure_apply, h2]
  exact ⟨_, rfl, ⟨⟨h1, rfl⟩, by simp [hnum, h3], by simp [hnum, h4]⟩⟩

theorem DB.step_old {S : Stream d} {s : DB} {x : Pt d} {c : ℤ} (h : DB.Rep S s) (h0 : 0 ≤ c) (h1 : c < numClusters S) :
    ∃ s', DB.update (enc x) c s = .err .indexError s' := by
  obtain ⟨⟨e1, e2⟩, e3, e4⟩ := h
  obtain ⟨v, -, hv⟩ := getAt_isOk (l := s.centers) (pyIdx_mem h0 (by rw [e3]; exact h1))
  obtain ⟨n, -, hn⟩ := getAt_isOk (l := s.sizes) (pyIdx_mem h0 (by rw [e4]; exact h1))
  have n1 : ¬ c = (numClusters S : ℤ) := by omega
  have n2 : ¬ c > (numClusters S : ℤ) := by omega
  simp only [DB.update, bind_apply, get_apply, modify_apply, Res.bind_ok, ite_app, e3, e4, if_neg n1, if_neg n2, hv, hn, lift_ok, e1,
    getAt_nil, lift_error, Res.bind_err]
  exact ⟨_, rfl⟩

theorem DB.run {S : Stream d} (hS : InOrder S) :
    (Distinct S ∧ ∃ s, feed DB.update (encS S) DB.init = .ok (List.replicate S.length (some 0)) s ∧ DB.Rep S s)
    ∨ (¬ Distinct S ∧ ∃ s, feed DB.update (encS S) DB.init = .err .indexError s) := by
  induction S using List.reverseRecOn with
  | nil =>
    refine .inl ⟨List.nodup_nil, DB.init, rfl, ?_⟩
    exact ⟨DB.init_ok, by simp [DB.init, numClusters, labels], by simp [DB.init, numClusters, labels]⟩
  | append_singleton S p ih =>
    obtain ⟨x, c⟩ := p
    rw [distinct_append, encS_append]
    rcases ih hS.prefix with ⟨hd, s, hf, hr⟩ | ⟨hd, s, hf⟩
    · rcases hS.cases with ⟨hc, h0, h1⟩ | ⟨hc, rfl⟩
      · obtain ⟨s', hs'⟩ := DB.step_old (x := x) hr h0 h1
        exact .inr ⟨fun h => h.2 hc, s', feed_append_err _ _ [] (enc x, c) hf hs'⟩
      · obtain ⟨s', hs', hr'⟩ := DB.step_new (x := x) hr hc
        refine .inl ⟨⟨hd, hc⟩, s', ?_, hr'⟩
        rw [feed_append _ _ (enc x, _) hf hs']
        simp [List.replicate_succ']
    · exact .inr ⟨fun h => hd h.1, s, feed_err_append _ _ _ hf⟩

end Verif.V0
