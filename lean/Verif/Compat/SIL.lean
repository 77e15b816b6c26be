import Verif.Compat.CHGDDB

/-! # `iSIL` -/

namespace Verif.V0
open Spec Py

variable {d : ℕ}

/-- The consistent states of `iSIL` with `k` clusters of dimension `d`. -/
structure SIL.Rep (d k : ℕ) (s : SIL) : Prop where
  centers : ∃ f : ℤ → Pt d, s.centers = tab k fun a => enc (f a)
  sizes : s.sizes.length = k
  CP : s.CP.length = k
  g : s.g.length = k
  heap : ∀ a ∈ s.g, ∃ y : Pt d, s.heap a = enc y
  b : Square k s.b
  bcols : s.b.cols = k
  sij : Square (k + 1) s.sij ∨ (k = 0)

theorem getAt_nat {α : Type} {l : List α} {i k : ℕ} (hl : l.length = k) (h : i < k) : ∃ a, l[i]? = some a ∧ getAt l (i : ℤ) = .ok a := by
  obtain ⟨a, ha, h'⟩ := getAt_isOk (l := l) (c := (i : ℤ)) (pyIdx_mem (by omega) (by rw [hl]; exact_mod_cast h))
  exact ⟨a, by simpa using ha, h'⟩

theorem getAt2_square {k : ℕ} {a : Arr2} (h : Square k a) {i j : ℤ} (hi0 : 0 ≤ i) (hi : i < k) (hj0 : 0 ≤ j) (hj : j < k) :
    ∃ x, getAt2 a i j = .ok x := by
  obtain ⟨r, hr', hr⟩ := getAt_isOk (l := a.rows) (c := i) (pyIdx_mem hi0 (by rw [h.1]; exact hi))
  have hrl := h.2 r (List.mem_of_getElem? hr')
  obtain ⟨x, -, hx⟩ := getAt_isOk (l := r) (pyIdx_mem hj0 (by rw [hrl]; exact hj))
  exact ⟨x, by simp [getAt2, hr, hx]⟩

theorem mapE_isOk {α β : Type} {f : α → Except PyErr β} {l : List α} (h : ∀ a ∈ l, ∃ b, f a = .ok b) :
    ∃ r, mapE f l = .ok r ∧ r.length = l.length := by
  induction l with
  | nil => exact ⟨[], rfl, rfl⟩
  | cons a l ih =>
    obtain ⟨b, hb⟩ := h a (by simp)
    obtain ⟨r, hr, hl⟩ := ih fun x hx => h x (by simp [hx])
    exact ⟨b :: r, by simp [mapE, hb, hr], by simp [hl]⟩

theorem mapE_all {α β : Type} {f : α → Except PyErr β} {l : List α} {P : β → Prop} (h : ∀ a ∈ l, ∃ b, f a = .ok b ∧ P b) :
    ∃ r, mapE f l = .ok r ∧ r.length = l.length ∧ ∀ b ∈ r, P b := by
  induction l with
  | nil => exact ⟨[], rfl, rfl, by simp⟩
  | cons a l ih =>
    obtain ⟨b, hb, hp⟩ := h a (by simp)
    obtain ⟨r, hr, hl, hall⟩ := ih fun x hx => h x (by simp [hx])
    refine ⟨b :: r, by simp [mapE, hb, hr], by simp [hl], ?_⟩
    intro y hy
    rcases List.mem_cons.mp hy with rfl | hy
    · exact hp
    · exact hall y hy

theorem SIL.sijNew_ok (x vj vi gj : Pt d) (i j : ℕ) (J : ℤ) (n : ℕ) (cp old : XR) :
    ∃ r, SIL.sijNew (enc x) i j J n cp (enc vj) (enc vi) (enc gj) old = .ok r := by
  simp only [SIL.sijNew, sub_enc, except_bind_ok]
  split_ifs <;> simp

/-- The double loop keeps the shape of `sij`. -/
theorem SIL.loop_ok {k : ℕ} {s : SIL} (h : SIL.Rep d k s) (hk : 0 < k) (x : Pt d) (c : ℤ) :
    ∃ m, s.loop (enc x) c = .ok m ∧ Square (k + 1) m := by
  obtain ⟨⟨f, hf⟩, h2, h3, h4, h5, -, -, h8⟩ := h
  have h8' : Square (k + 1) s.sij := h8.resolve_right (by omega)
  have key : ∀ i ∈ List.range k, ∃ e, mapE (fun j => s.loopEntry (enc x) c i j) (List.range k) = .ok e ∧ e.length = k := by
    intro i hi
    have hi' := List.mem_range.mp hi
    obtain ⟨r, hr, hl⟩ := mapE_isOk (f := fun j => s.loopEntry (enc x) c i j) (l := List.range k) (by
      intro j hj
      have hj' := List.mem_range.mp hj
      obtain ⟨n, -, hn⟩ := getAt_nat h2 hj'
      obtain ⟨cp, -, hcp⟩ := getAt_nat h3 hj'
      obtain ⟨gj, hgm, hg⟩ := getAt_nat h4 hj'
      obtain ⟨y, hy⟩ := h5 gj (List.mem_of_getElem? hgm)
      obtain ⟨old, hold⟩ := getAt2_square h8' (by omega : (0 : ℤ) ≤ i) (by push_cast; omega) (by omega : (0 : ℤ) ≤ j) (by push_cast; omega)
      obtain ⟨r, hr⟩ := SIL.sijNew_ok x (f j) (f i) y i j c n cp old
      refine ⟨r, ?_⟩
      simp only [SIL.loopEntry, hn, hcp, hg, hold, hf, getAt_tab _ (by omega : (0 : ℤ) ≤ j) (by exact_mod_cast hj'),
        getAt_tab _ (by omega : (0 : ℤ) ≤ i) (by exact_mod_cast hi'), except_bind_ok, hy, hr])
    exact ⟨r, hr, by simpa using hl⟩
  obtain ⟨es, hes, hel, hea⟩ := mapE_all (P := fun e : List XR => e.length = k) key
  refine ⟨_, by simp only [SIL.loop, h2, hes, except_bind_ok]; rfl, ?_, ?_⟩
  · simp [hel, h8'.1]
  · intro r hr
    simp only [List.mem_append] at hr
    rcases hr with hr | hr
    · obtain ⟨i, hi, rfl⟩ := List.mem_iff_getElem.mp hr
      rw [List.getElem_zipWith]
      rw [List.length_append, List.length_drop, hea _ (List.getElem_mem _), h8'.2 _ (List.mem_of_mem_take (List.getElem_mem _))]
      omega
    · exact h8'.2 r (List.mem_of_mem_drop hr)

theorem listMin_ok {l : List XR} (h : l ≠ []) : ∃ a, listMin l = .ok a := by
  cases l with
  | nil => exact absurd rfl h
  | cons a l => exact ⟨_, rfl⟩

theorem listMax_ok {l : List XR} (h : l ≠ []) : ∃ a, listMax l = .ok a := by
  cases l with
  | nil => exact absurd rfl h
  | cons a l => exact ⟨_, rfl⟩

/-- With at least two clusters the coefficients can be computed. -/
theorem SIL.sci_ok {k : ℕ} {s : SIL} (hc : s.centers.length = k) (hs : Square (k + 1) s.sij) (hk : 2 ≤ k) {c : ℤ}
    (h0 : 0 ≤ c) (h1 : c < k) : ∀ i ∈ List.range k, ∃ e, s.sci c i = .ok e := by
  intro i hi
  have hi' := List.mem_range.mp hi
  obtain ⟨l, hl, hll⟩ := mapE_isOk (f := fun j : ℕ => getAt2 s.sij i j) (l := (List.range k).filter fun j : ℕ => decide ((j : ℤ) ≠ c)) (by
    intro j hj
    have hj' : j < k := by simpa using (List.mem_filter.mp hj).1
    exact getAt2_square hs (by omega) (by push_cast; omega) (by omega) (by push_cast; omega))
  have hne : l ≠ [] := by
    rintro rfl
    have hf := List.eq_nil_of_length_eq_zero hll.symm
    rw [List.filter_eq_nil_iff] at hf
    have a0 := hf 0 (List.mem_range.mpr (by omega))
    have a1 := hf 1 (List.mem_range.mpr (by omega))
    simp only [decide_eq_true_eq, ne_eq, not_not] at a0 a1
    omega
  have ho : s.others i c = .ok l := by rw [SIL.others, hc, hl]
  obtain ⟨a, ha⟩ := getAt2_square hs (by omega : (0 : ℤ) ≤ i) (by push_cast; omega : (i : ℤ) < ((k + 1 : ℕ) : ℤ)) h0 (by push_cast; omega)
  obtain ⟨mn, hmn⟩ := listMin_ok hne
  obtain ⟨mx, hmx⟩ := listMax_ok hne
  exact ⟨_, by simp only [SIL.sci, ho, ha, hmn, hmx, except_bind_ok]; rfl⟩

/-- The part of `SIL.update` after the new cluster has been made. -/
noncomputable def SIL.rest (x : Vec) (c : ℤ) : Py SIL XR := do
  modify fun s => { s with N := s.N + 1 }
  let s ← get
  let v ← lift (getAt s.centers c)
  let n ← lift (getAt s.sizes c)
  let u ← lift (centerUpdate x v n)
  let cs ← lift (setAt s.centers c u.1)
  modify fun s => { s with centers := cs }
  let ns ← lift (setAt s.sizes c u.2)
  modify fun s => { s with sizes := ns }
  let s ← get
  let m ← lift (s.loop x c)
  modify fun s => { s with sij := m }
  let cp ← lift (getAt s.CP c)
  let cps ← lift (setAt s.CP c (cp + norm22 x))
  modify fun s => { s with CP := cps }
  let gc ← lift (getAt s.g c)
  let gn ← lift (addInPlace (s.heap gc) x)
  modify fun s => { s with heap := Function.update s.heap gc gn }
  let s ← get
  let es ← lift (mapE (s.sci c) (List.range s.centers.length))
  modify fun s => { s with output := .fin (1 / (s.centers.length : ℝ)) * es.sum }
  let s ← get
  pure s.output

theorem SIL.update_eq (b : ℕ) (c : ℤ) : SIL.update b c = (do
  let s ← get
  let x := s.heap b
  (if c = s.sizes.length then
    modify fun s => { s with
      centers := s.centers ++ [x], sizes := s.sizes ++ [1], sc := s.sc ++ [0]
      b := pad s.b .pinf, sij := pad (pad s.b .pinf) 0
      CP := s.CP ++ [norm22 x], g := s.g ++ [b] }
  else if c > s.sizes.length then raise .valueError
  else pure ())
  SIL.rest x c) := rfl

theorem addInPlace_enc (a x : Pt d) : addInPlace (enc a) (enc x) = .ok (enc fun i => a i + x i) := by
  have := broadcastTo_enc x
  simp only [addInPlace, enc_length, this, except_bind_ok, add_enc]

/-- With one cluster only, `min([])` raises, after the caller's array has been written to. -/
theorem SIL.rest_one {s : SIL} (h : SIL.Rep d 1 s) (x : Pt d) {a : ℕ} (ha : s.g = [a]) {y : Pt d} (hy : s.heap a = enc y) :
    ∃ s', SIL.rest (enc x) 0 s = .err .valueError s' ∧ s'.heap = Function.update s.heap a (enc fun i => y i + x i)
      ∧ SIL.Rep d 1 s' ∧ s'.g = s.g := by
  have h' := h
  obtain ⟨⟨f, hf⟩, h2, h3, h4, h5, h6, h7, h8⟩ := h
  have h8' : Square 2 s.sij := h8.resolve_right (by omega)
  have l0 : (0 : ℤ) ≤ 0 := le_rfl
  have l1 : (0 : ℤ) < ((1 : ℕ) : ℤ) := by decide
  obtain ⟨n, -, hn⟩ := getAt_isOk (l := s.sizes) (pyIdx_mem l0 (by rw [h2]; exact l1))
  obtain ⟨cp, -, hcp⟩ := getAt_isOk (l := s.CP) (pyIdx_mem l0 (by rw [h3]; exact l1))
  have hset := fun z : XR => setAt_isOk (l := s.CP) z (pyIdx_mem l0 (by rw [h3]; exact l1))
  have hsets := fun z : ℕ => setAt_isOk (l := s.sizes) z (pyIdx_mem l0 (by rw [h2]; exact l1))
  set w : Pt d := fun i => f 0 i + (x i - f 0 i) / ((n + 1 : ℕ) : ℝ) with hw
  have s2 : setAt (tab 1 fun a => enc (f a)) 0 (enc w) = .ok (tab 1 fun a => enc (Function.update f 0 w a)) :=
    setAt_tab l0 l1 (by rw [Function.update_self]) fun b _ _ hb => by rw [Function.update_of_ne hb]
  have hga : getAt s.g 0 = .ok a := by rw [ha]; rfl
  set t : SIL := { s with
    N := s.N + 1, centers := tab 1 fun a => enc (Function.update f 0 w a), sizes := s.sizes.set (0 : ℤ).toNat (n + 1) } with ht
  have hrt : SIL.Rep d 1 t := ⟨⟨_, rfl⟩, by simp [ht, h2], h3, h4, h5, h6, h7, h8⟩
  obtain ⟨m, hm, hms⟩ := SIL.loop_ok hrt (by decide) x 0
  have hsci : ∀ (u : SIL), u.centers.length = 1 → mapE (u.sci 0) (List.range 1) = .error .valueError := by
    intro u hu
    simp [List.range_succ, mapE, SIL.sci, SIL.others, hu, listMin]
  simp only [SIL.rest, bind_apply, get_apply, modify_apply, Res.bind_ok, hf, getAt_tab _ l0 l1, hn, lift_ok, centerUpdate_enc, ← hw, s2,
    hsets]
  rw [← ht, hm]
  simp only [lift_ok, Res.bind_ok]
  have e1 : t.CP = s.CP := rfl
  have e2 : t.g = s.g := rfl
  have e3 : t.heap = s.heap := rfl
  rw [e1, hcp]
  simp only [lift_ok, Res.bind_ok, hset, e2, hga, e3, hy, addInPlace_enc]
  rw [show (t.centers).length = 1 by simp [ht], hsci _ (by simp [ht])]
  simp only [lift_error, Res.bind_err]
  refine ⟨_, rfl, rfl, ⟨⟨_, rfl⟩, by simp [ht, h2], by simp [h3], h4, ?_, h6, h7, .inl hms⟩, rfl⟩
  intro b hb
  change b ∈ s.g at hb
  rw [ha, List.mem_singleton] at hb
  subst hb
  exact ⟨_, Function.update_self ..⟩

/-- With at least two clusters the rest of the update succeeds. -/
theorem SIL.rest_ok {k : ℕ} {s : SIL} (h : SIL.Rep d k s) (hk : 2 ≤ k) (x : Pt d) {c : ℤ} (l0 : 0 ≤ c) (l1 : c < k) :
    ∃ r s', SIL.rest (enc x) c s = .ok r s' ∧ SIL.Rep d k s' ∧ ∃ (a : ℕ) (y : Pt d), s'.heap = Function.update s.heap a (enc y) := by
  obtain ⟨⟨f, hf⟩, h2, h3, h4, h5, h6, h7, h8⟩ := h
  have h8' : Square (k + 1) s.sij := h8.resolve_right (by omega)
  obtain ⟨n, -, hn⟩ := getAt_isOk (l := s.sizes) (pyIdx_mem l0 (by rw [h2]; exact l1))
  obtain ⟨cp, -, hcp⟩ := getAt_isOk (l := s.CP) (pyIdx_mem l0 (by rw [h3]; exact l1))
  obtain ⟨a, ham, hga⟩ := getAt_isOk (l := s.g) (pyIdx_mem l0 (by rw [h4]; exact l1))
  obtain ⟨y, hy⟩ := h5 a (List.mem_of_getElem? ham)
  have hset := fun z : XR => setAt_isOk (l := s.CP) z (pyIdx_mem l0 (by rw [h3]; exact l1))
  have hsets := fun z : ℕ => setAt_isOk (l := s.sizes) z (pyIdx_mem l0 (by rw [h2]; exact l1))
  set w : Pt d := fun i => f c i + (x i - f c i) / ((n + 1 : ℕ) : ℝ) with hw
  have s2 : setAt (tab k fun a => enc (f a)) c (enc w) = .ok (tab k fun a => enc (Function.update f c w a)) :=
    setAt_tab l0 l1 (by rw [Function.update_self]) fun b _ _ hb => by rw [Function.update_of_ne hb]
  set t : SIL := { s with
    N := s.N + 1, centers := tab k fun a => enc (Function.update f c w a), sizes := s.sizes.set c.toNat (n + 1) } with ht
  have hrt : SIL.Rep d k t := ⟨⟨_, rfl⟩, by simp [ht, h2], h3, h4, h5, h6, h7, h8⟩
  obtain ⟨m, hm, hms⟩ := SIL.loop_ok hrt (by omega) x c
  simp only [SIL.rest, bind_apply, get_apply, modify_apply, Res.bind_ok, hf, getAt_tab _ l0 l1, hn, lift_ok, centerUpdate_enc, ← hw, s2,
    hsets]
  rw [← ht, hm]
  simp only [lift_ok, Res.bind_ok]
  have e1 : t.CP = s.CP := rfl
  have e2 : t.g = s.g := rfl
  have e3 : t.heap = s.heap := rfl
  rw [e1, hcp]
  simp only [lift_ok, Res.bind_ok, hset, e2, hga, e3, hy, addInPlace_enc]
  obtain ⟨es, hes, -⟩ := mapE_isOk (SIL.sci_ok (s := { t with
      heap := Function.update s.heap a (enc fun i => y i + x i), CP := s.CP.set c.toNat (cp + norm22 (enc x)), sij := m })
    (k := k) (by simp [ht]) hms hk l0 l1)
  rw [show (t.centers).length = k by simp [ht]]
  rw [show t.heap = s.heap from rfl] at *
  rw [hes]
  simp only [lift_ok, Res.bind_ok, pure_apply]
  refine ⟨_, _, rfl, ⟨⟨_, rfl⟩, by simp [ht, h2], by simp [h3], h4, ?_, h6, h7, .inl hms⟩, a, _, rfl⟩
  intro b hb
  by_cases hba : b = a
  · subst hba
    exact ⟨_, Function.update_self ..⟩
  · obtain ⟨z, hz⟩ := h5 b hb
    exact ⟨z, (Function.update_of_ne hba ..).trans hz⟩

/-- All of the caller's arrays are finite and have length `d`. -/
def AllEnc (d : ℕ) (heap : ℕ → Vec) : Prop := ∀ a, ∃ y : Pt d, heap a = enc y

theorem AllEnc.update {heap : ℕ → Vec} (h : AllEnc d heap) (a : ℕ) (y : Pt d) : AllEnc d (Function.update heap a (enc y)) := by
  intro b
  by_cases hb : b = a
  · subst hb; exact ⟨y, Function.update_self ..⟩
  · obtain ⟨z, hz⟩ := h b
    exact ⟨z, by rw [Function.update_of_ne hb, hz]⟩

/-- A new cluster. -/
theorem SIL.grow_rep {k : ℕ} {s : SIL} (h : SIL.Rep d k s) {b : ℕ} {x : Pt d} (hx : s.heap b = enc x) :
    SIL.Rep d (k + 1) { s with
      centers := s.centers ++ [enc x], sizes := s.sizes ++ [1], sc := s.sc ++ [0]
      b := pad s.b .pinf, sij := pad (pad s.b .pinf) 0
      CP := s.CP ++ [norm22 (enc x)], g := s.g ++ [b] } := by
  obtain ⟨⟨f, hf⟩, h2, h3, h4, h5, h6, h7, h8⟩ := h
  obtain ⟨p1, p2⟩ := pad_square h6 h7 .pinf
  obtain ⟨q1, q2⟩ := pad_square p1 p2 0
  refine ⟨⟨fun a => if a = (k : ℤ) then x else f a, ?_⟩, by simp [h2], by simp [h3], by simp [h4], ?_, p1, p2, .inl q1⟩
  · simp only [hf]
    exact tab_append (by simp) fun b _ hb => by rw [if_neg (by omega)]
  · intro a ha
    simp only [List.mem_append, List.mem_singleton] at ha
    rcases ha with ha | rfl
    · exact h5 a ha
    · exact ⟨x, hx⟩

/-- One update of a consistent object with `k` clusters: it returns if there are now at least two clusters, and raises ValueError otherwise. -/
theorem SIL.step {k : ℕ} {s : SIL} (h : SIL.Rep d k s) (ha : AllEnc d s.heap) (b : ℕ) {c : ℤ} (h0 : 0 ≤ c) (h1 : c ≤ k) :
    let k' := if c = k then k + 1 else k
    SIL.Rep d k' (SIL.update b c s).state ∧ AllEnc d (SIL.update b c s).state.heap
      ∧ (if 2 ≤ k' then ∃ r s', SIL.update b c s = .ok r s' else ∃ s', SIL.update b c s = .err .valueError s') := by
  intro k'
  obtain ⟨x, hx⟩ := ha b
  obtain ⟨s1, hs1, hrep, hall⟩ : ∃ s1, SIL.update b c s = SIL.rest (enc x) c s1 ∧ SIL.Rep d k' s1 ∧ AllEnc d s1.heap := by
    rw [SIL.update_eq]
    simp only [bind_apply, get_apply, modify_apply, Res.bind_ok, ite_app, h.sizes, hx]
    by_cases hc : c = k
    · simp only [hc, if_true, k']
      exact ⟨_, rfl, SIL.grow_rep h hx, ha⟩
    · rw [if_neg hc, if_neg (by omega)]
      simp only [hc, if_false, k']
      exact ⟨_, rfl, h, ha⟩
  have hck : c < k' := by
    simp only [k']
    split_ifs <;> push_cast <;> omega
  rw [hs1]
  by_cases hk : 2 ≤ k'
  · obtain ⟨r, s', hr, hp, a, y, hh⟩ := SIL.rest_ok hrep hk x h0 hck
    rw [hr, if_pos hk]
    refine ⟨hp, ?_, r, s', rfl⟩
    simp only [Res.state, hh]
    exact hall.update a y
  · have hk1 : k' = 1 := by omega
    obtain rfl : c = 0 := by omega
    rw [hk1] at hrep ⊢
    obtain ⟨a, hg⟩ := List.length_eq_one_iff.mp hrep.g
    obtain ⟨y, hy⟩ := hall a
    obtain ⟨s', hr, hh, hp, -⟩ := SIL.rest_one hrep x hg hy
    rw [hr, if_neg (by decide)]
    refine ⟨hp, ?_, s', rfl⟩
    simp only [Res.state, hh]
    exact hall.update a _

/-- Present arrays one by one, whatever the outcome. -/
noncomputable def SIL.afterAll : List (ℕ × ℤ) → SIL → SIL
  | [], s => s
  | p :: l, s => SIL.afterAll l (SIL.update p.1 p.2 s).state

theorem SIL.afterAll_append (l : List (ℕ × ℤ)) (p : ℕ × ℤ) (s : SIL) :
    SIL.afterAll (l ++ [p]) s = (SIL.update p.1 p.2 (SIL.afterAll l s)).state := by
  induction l generalizing s with
  | nil => rfl
  | cons q l ih => exact ih _

/-- Only the array kept for the cluster can be written to. -/
theorem SIL.rest_frame (x : Vec) (c : ℤ) (s : SIL) (a : ℕ) (h : getAt s.g c ≠ .ok a) : (SIL.rest x c s).state.heap a = s.heap a := by
  simp only [SIL.rest, bind_apply, get_apply, modify_apply, Res.bind_ok]
  cases getAt s.centers c with
  | error e => rfl
  | ok v =>
  simp only [lift_ok, Res.bind_ok]
  cases getAt s.sizes c with
  | error e => rfl
  | ok n =>
  simp only [lift_ok, Res.bind_ok]
  cases centerUpdate x v n with
  | error e => rfl
  | ok u =>
  simp only [lift_ok, Res.bind_ok]
  cases setAt s.centers c u.1 with
  | error e => rfl
  | ok cs =>
  simp only [lift_ok, Res.bind_ok]
  cases setAt s.sizes c u.2 with
  | error e => rfl
  | ok ns =>
  simp only [lift_ok, Res.bind_ok]
  generalize hl : SIL.loop _ x c = m
  cases m with
  | error e => rfl
  | ok m =>
  simp only [lift_ok, Res.bind_ok]
  cases getAt s.CP c with
  | error e => rfl
  | ok cp =>
  simp only [lift_ok, Res.bind_ok]
  cases setAt s.CP c (cp + norm22 x) with
  | error e => rfl
  | ok cps =>
  simp only [lift_ok, Res.bind_ok]
  cases hg : getAt s.g c with
  | error e => rfl
  | ok gc =>
  simp only [lift_ok, Res.bind_ok]
  cases addInPlace (s.heap gc) x with
  | error e => rfl
  | ok gn =>
  simp only [lift_ok, Res.bind_ok]
  have hne : a ≠ gc := fun e => h (by rw [hg, e])
  generalize mapE _ (List.range cs.length) = es
  cases es with
  | error e => exact Function.update_of_ne hne ..
  | ok es => exact Function.update_of_ne hne ..

theorem SIL.rest_g (x : Vec) (c : ℤ) (s : SIL) : (SIL.rest x c s).state.g = s.g := by
  simp only [SIL.rest, bind_apply, get_apply, modify_apply, Res.bind_ok]
  cases getAt s.centers c with
  | error e => rfl
  | ok v =>
  simp only [lift_ok, Res.bind_ok]
  cases getAt s.sizes c with
  | error e => rfl
  | ok n =>
  simp only [lift_ok, Res.bind_ok]
  cases centerUpdate x v n with
  | error e => rfl
  | ok u =>
  simp only [lift_ok, Res.bind_ok]
  cases setAt s.centers c u.1 with
  | error e => rfl
  | ok cs =>
  simp only [lift_ok, Res.bind_ok]
  cases setAt s.sizes c u.2 with
  | error e => rfl
  | ok ns =>
  simp only [lift_ok, Res.bind_ok]
  generalize hl : SIL.loop _ x c = m
  cases m with
  | error e => rfl
  | ok m =>
  simp only [lift_ok, Res.bind_ok]
  cases getAt s.CP c with
  | error e => rfl
  | ok cp =>
  simp only [lift_ok, Res.bind_ok]
  cases setAt s.CP c (cp + norm22 x) with
  | error e => rfl
  | ok cps =>
  simp only [lift_ok, Res.bind_ok]
  cases getAt s.g c with
  | error e => rfl
  | ok gc =>
  simp only [lift_ok, Res.bind_ok]
  cases addInPlace (s.heap gc) x with
  | error e => rfl
  | ok gn =>
  simp only [lift_ok, Res.bind_ok]
  generalize mapE _ (List.range cs.length) = es
  cases es with
  | error e => rfl
  | ok es => rfl

theorem SIL.init_rep (heap : ℕ → Vec) : SIL.Rep d 0 (SIL.init heap) := by
  refine ⟨⟨fun _ _ => 0, rfl⟩, rfl, rfl, rfl, ?_, ?_, rfl, .inr rfl⟩
  · simp [SIL.init]
  · simp [SIL.init, Square, Arr2.zeros]

end Verif.V0
