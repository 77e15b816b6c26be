import Verif.Compat.CHGDDB
import Verif.Compat.XB
import Verif.Compat.SpecCH

/-! # `iCH` on every stream -/

namespace Verif.V0
open Spec Py

variable {d : ℕ} {α : Type}

/-! ## Negative places in a table -/

theorem pyIdx_place {k : ℕ} {c : ℤ} (h : -(k : ℤ) ≤ c) (h' : c < k) : pyIdx k c = some (place k c).toNat := by
  unfold pyIdx place
  split_ifs <;> first | rfl | omega

theorem place_mem {k : ℕ} {c : ℤ} (h : -(k : ℤ) ≤ c) (h' : c < k) : 0 ≤ place k c ∧ place k c < k := by
  unfold place
  split_ifs <;> omega

theorem pyIdx_of_place {k : ℕ} {c : ℤ} (h : -(k : ℤ) ≤ c) (h' : c < k) : pyIdx k c = pyIdx k (place k c) := by
  obtain ⟨a, b⟩ := place_mem h h'
  rw [pyIdx_place h h', pyIdx_mem a b]

theorem getAt_place {l : List α} {k : ℕ} (hl : l.length = k) {c : ℤ} (h : -(k : ℤ) ≤ c) (h' : c < k) :
    getAt l c = getAt l (place k c) := by
  subst hl
  rw [getAt, pyIdx_of_place h h', getAt]

theorem setAt_place {l : List α} {k : ℕ} (hl : l.length = k) (a : α) {c : ℤ} (h : -(k : ℤ) ≤ c) (h' : c < k) :
    setAt l c a = setAt l (place k c) a := by
  subst hl
  rw [setAt, pyIdx_of_place h h', setAt]

theorem pyIdx_none {k : ℕ} {c : ℤ} (h : ¬ (-(k : ℤ) ≤ c ∧ c < k)) : pyIdx k c = none := by
  unfold pyIdx
  split_ifs <;> first | rfl | omega

/-! ## The clusters that are made -/

@[simp] theorem zeros_nil : zeros ([] : Stream d) = 0 := rfl

theorem zeros_append (S : Stream d) (x : Pt d) (c : ℤ) : zeros (S ++ [(x, c)]) = if c = 0 then zeros S + 1 else zeros S := by
  by_cases h : c = 0 <;> simp [zeros, h]

theorem refileFrom_append (k : ℕ) (S : Stream d) (x : Pt d) (c : ℤ) :
    refileFrom k (S ++ [(x, c)]) = refileFrom k S ++ [(x, filed (k + zeros S) c)] := by
  induction S generalizing k with
  | nil => simp [refileFrom]
  | cons p S ih =>
    obtain ⟨y, a⟩ := p
    simp only [List.cons_append, refileFrom, ih, List.cons.injEq, true_and]
    by_cases h : a = 0
    · simp only [h, if_true, zeros, List.countP_cons, decide_true]
      rw [show k + 1 + S.countP (fun p => decide (p.2 = 0)) = k + (S.countP (fun p => decide (p.2 = 0)) + 1) by omega]
    · simp [h, zeros]

theorem refile_append (S : Stream d) (x : Pt d) (c : ℤ) : refile (S ++ [(x, c)]) = refile S ++ [(x, filed (zeros S) c)] := by
  rw [refile, refileFrom_append, Nat.zero_add, refile]

theorem AllFit.nil : AllFit ([] : Stream d) := by
  intro P p Q h
  simp at h

theorem AllFit.prefix {S : Stream d} {p : Pt d × ℤ} (h : AllFit (S ++ [p])) : AllFit S :=
  fun P q Q hS => h P q (Q ++ [p]) (by rw [hS]; simp)

theorem AllFit.last {S : Stream d} {p : Pt d × ℤ} (h : AllFit (S ++ [p])) : Fits (zeros S) p.2 := h S p [] rfl

theorem refile_labels {S : Stream d} (h : AllFit S) : numClusters (refile S) = zeros S ∧ InOrder (refile S) := by
  induction S using List.reverseRecOn with
  | nil => exact ⟨rfl, InOrder.nil⟩
  | append_singleton S p ih =>
    obtain ⟨x, c⟩ := p
    obtain ⟨hk, ho⟩ := ih h.prefix
    have hcon := ho.consecutive
    rw [refile_append, zeros_append]
    by_cases hc : c = 0
    · subst hc
      have hn : ((zeros S : ℕ) : ℤ) ∉ labels (refile S) := fun hm => by
        have := ((hcon _).mp hm).2
        rw [hk] at this
        omega
      simp only [filed, if_true]
      exact ⟨by rw [numClusters_new hn, hk], ho.append (p := (x, (zeros S : ℤ))) (by simp) (by simp [hk])⟩
    · obtain ⟨h1, h2⟩ := h.last.resolve_left hc
      obtain ⟨a, b⟩ := place_mem h1 h2
      simp only [filed, if_neg hc]
      have hm : place (zeros S) c ∈ labels (refile S) := (hcon _).mpr ⟨a, by rw [hk]; exact b⟩
      exact ⟨by rw [numClusters_old hm, hk], ho.append (p := (x, place (zeros S) c)) a (by rw [hk]; exact b.le)⟩

/-! ## The terms as they were -/

theorem refreshes_append (S : Stream d) (x : Pt d) (c i : ℤ) : Refreshes (S ++ [(x, c)]) i ↔ place (zeros S) c = i := by
  constructor
  · rintro ⟨Q, y, a, e, rfl⟩
    obtain ⟨rfl, e2⟩ := List.append_inj' e rfl
    simp only [List.cons.injEq, Prod.mk.injEq, and_true] at e2
    rw [e2.2]
  · exact fun h => ⟨S, x, c, rfl, h⟩

theorem stale_self (S : Stream d) (x : Pt d) (c : ℤ) :
    stale (S ++ [(x, c)]) (place (zeros S) c) = between (S ++ [(x, c)]) (place (zeros S) c) := by
  classical
  have h : Refreshes (S ++ [(x, c)]) (place (zeros S) c) := (refreshes_append S x c _).mpr rfl
  simp [stale, List.inits_append, h]

theorem stale_ne (S : Stream d) (x : Pt d) {c i : ℤ} (hi : i ≠ place (zeros S) c) : stale (S ++ [(x, c)]) i = stale S i := by
  classical
  have h : ¬ Refreshes (S ++ [(x, c)]) i := fun h => hi ((refreshes_append S x c _).mp h).symm
  simp [stale, List.inits_append, h]

theorem stale_nil (i : ℤ) : stale ([] : Stream d) i = 0 := by
  classical
  have h : ¬ Refreshes ([] : Stream d) i := by rintro ⟨Q, x, c, e, -⟩; simp at e
  simp [stale, h]

theorem stale_high {S : Stream d} (h : AllFit S) {i : ℤ} (hi : (zeros S : ℤ) ≤ i) : stale S i = 0 := by
  induction S using List.reverseRecOn with
  | nil => exact stale_nil i
  | append_singleton S p ih =>
    obtain ⟨x, c⟩ := p
    rw [zeros_append] at hi
    by_cases hc : c = 0
    · subst hc
      simp only [if_true] at hi
      rw [stale_ne S x (by simp [place]; omega), ih h.prefix (by push_cast at hi; omega)]
    · rw [if_neg hc] at hi
      obtain ⟨h1, h2⟩ := h.last.resolve_left hc
      obtain ⟨a, b⟩ := place_mem h1 h2
      rw [stale_ne S x (by simp only at b; omega), ih h.prefix hi]

theorem between_nonneg (S : Stream d) (i : ℤ) : 0 ≤ between S i := mul_nonneg (Nat.cast_nonneg _) (dist2_nonneg _ _)

theorem stale_nonneg (S : Stream d) (i : ℤ) : 0 ≤ stale S i := by
  unfold stale
  split
  · exact between_nonneg _ _
  · exact le_rfl

theorem stale_sum {S : Stream d} (x : Pt d) (c : ℤ) {k : ℕ} (h0 : 0 ≤ place (zeros S) c) (h1 : place (zeros S) c < k) :
    ∑ i ∈ Finset.range k, stale (S ++ [(x, c)]) i
      = ∑ i ∈ Finset.range k, stale S i - stale S (place (zeros S) c) + between (S ++ [(x, c)]) (place (zeros S) c) := by
  have e : (((place (zeros S) c).toNat : ℕ) : ℤ) = place (zeros S) c := by omega
  have hm : (place (zeros S) c).toNat ∈ Finset.range k := Finset.mem_range.mpr (by omega)
  rw [← Finset.add_sum_erase _ _ hm, ← Finset.add_sum_erase _ (fun i : ℕ => stale S i) hm, e, stale_self,
    Finset.sum_congr rfl fun i hi => stale_ne S x (show ((i : ℕ) : ℤ) ≠ _ by
      have := Finset.ne_of_mem_erase hi; omega)]
  ring

/-! ## One update -/

/-- The state of `iCH` after the stream `S`. -/
structure CH.At (S : Stream d) (s : CH) : Prop where
  clusters : s.clusters = []
  N : s.N = S.length
  dc : (S = [] ∧ s.dataCenter = none) ∨ s.dataCenter = some (enc (mean S))
  sizes : s.sizes = tab (zeros S) (size (refile S))
  centers : s.centers = tab (zeros S) fun a => enc (centroid (refile S) a)
  WGSSi : s.WGSSi = tab (zeros S) fun a => .fin (scatter (refile S) a)
  WGSS : s.WGSS = .fin (Spec.WGSS (refile S))
  BGSSi : s.BGSSi = tab (zeros S) fun a => .fin (stale S a)
  BGSS : s.BGSS = .fin (∑ i ∈ Finset.range (zeros S), stale S i)
  g : ZeroG d s.g

theorem CH.value_at (S : Stream d) (h : 1 < zeros S ∧ zeros S < S.length) :
    (XR.fin (∑ i ∈ Finset.range (zeros S), stale S i) / .fin ((zeros S : ℝ) - 1))
      / (.fin (Spec.WGSS (refile S)) / .fin ((S.length : ℝ) - zeros S)) = staleCH S := by
  obtain ⟨h1, h2⟩ := h
  have p1 : (0 : ℝ) < (zeros S : ℝ) - 1 := by
    have : (1 : ℝ) < zeros S := by exact_mod_cast h1
    linarith
  have p2 : (0 : ℝ) < (S.length : ℝ) - zeros S := by
    have : (zeros S : ℝ) < S.length := by exact_mod_cast h2
    linarith
  have hB : 0 ≤ ∑ i ∈ Finset.range (zeros S), stale S i := Finset.sum_nonneg fun i _ => stale_nonneg S i
  rw [staleCH, if_pos ⟨h1, h2⟩, XR.fin_div_of_ne _ p1.ne', XR.fin_div_of_ne _ p2.ne', XR.fin_div, XR.idiv, ratio]
  generalize ∑ i ∈ Finset.range (zeros S), stale S i = B at hB ⊢
  by_cases hW : Spec.WGSS (refile S) = 0
  · simp only [hW, zero_div, zero_mul, ne_eq, not_true, if_false, if_true, XR.infOfSign]
    by_cases hb : B = 0
    · simp [hb]
    · have hpos : 0 < B := lt_of_le_of_ne hB (Ne.symm hb)
      rw [if_pos (div_pos hpos p1), if_pos (mul_ne_zero hb p2.ne')]
  · rw [if_neg (div_ne_zero hW p2.ne'), if_pos (mul_ne_zero hW p1.ne')]
    congr 1
    field_simp

/-- The part of `iCH.update` after the cluster has been updated. -/
noncomputable def CH.rest (c : ℤ) (dc : Vec) : Py CH XR := do
  let s ← get
  let b ← lift (getAt s.BGSSi c)
  modify fun s => { s with BGSS := s.BGSS - b }
  let n ← lift (getAt s.sizes c)
  let v ← lift (getAt s.centers c)
  let e ← lift (Vec.sub v dc)
  let bn := XR.fin n * norm22 e
  let bs ← lift (setAt s.BGSSi c bn)
  modify fun s => { s with BGSSi := bs, BGSS := s.BGSS + bn }
  let s ← get
  (if s.centers.length > 1 ∧ (s.N : ℤ) - s.centers.length > 0 then
    modify fun s => { s with output :=
      (s.BGSS / .fin ((s.centers.length : ℝ) - 1)) / (s.WGSS / .fin ((s.N : ℝ) - s.centers.length)) }
  else modify fun s => { s with output := 0 })
  let s ← get
  pure s.output

theorem CH.rest_ok {S : Stream d} {x : Pt d} {c : ℤ} (hc : -(zeros (S ++ [(x, c)]) : ℤ) ≤ c ∧ c < zeros (S ++ [(x, c)]))
    (hp : place (zeros (S ++ [(x, c)])) c = place (zeros S) c) {s : CH}
    (hcl : s.clusters = []) (hN : s.N = (S ++ [(x, c)]).length) (hdc : s.dataCenter = some (enc (mean (S ++ [(x, c)]))))
    (hsz : s.sizes = tab (zeros (S ++ [(x, c)])) (size (refile (S ++ [(x, c)]))))
    (hcen : s.centers = tab (zeros (S ++ [(x, c)])) fun a => enc (centroid (refile (S ++ [(x, c)])) a))
    (hWi : s.WGSSi = tab (zeros (S ++ [(x, c)])) fun a => .fin (scatter (refile (S ++ [(x, c)])) a))
    (hW : s.WGSS = .fin (Spec.WGSS (refile (S ++ [(x, c)]))))
    (hBi : s.BGSSi = tab (zeros (S ++ [(x, c)])) fun a => .fin (stale S a))
    (hB : s.BGSS = .fin (∑ i ∈ Finset.range (zeros (S ++ [(x, c)])), stale S i))
    (hg : ZeroG d s.g) :
    ∃ s', CH.rest c (enc (mean (S ++ [(x, c)]))) s = .ok (staleCH (S ++ [(x, c)])) s' ∧ CH.At (S ++ [(x, c)]) s' := by
  obtain ⟨cl, W, Wi, B, Bi, out, dc, N, cen, siz, g⟩ := s
  simp only at hcl hN hdc hsz hcen hWi hW hBi hB hg
  subst hcl hN hdc hsz hcen hWi hW hBi hB
  set S' := S ++ [(x, c)] with hS'
  obtain ⟨h0, h1⟩ := place_mem hc.1 hc.2
  have hd : (∑ i, (centroid (refile S') (place (zeros S') c) i - mean S' i) ^ 2)
      = dist2 (centroid (refile S') (place (zeros S') c)) (mean S') := rfl
  have hset : setAt (tab (zeros S') fun a => XR.fin (stale S a)) c (XR.fin (between S' (place (zeros S') c)))
      = .ok (tab (zeros S') fun a => XR.fin (stale S' a)) := by
    rw [setAt_place (tab_length _ _) _ hc.1 hc.2]
    refine setAt_tab h0 h1 ?_ fun b _ _ hb => ?_
    · rw [hp, hS', stale_self]
    · rw [hp] at hb
      rw [hS', stale_ne S x hb]
  have hsum := stale_sum (S := S) x c (k := zeros S') (hp ▸ h0) (hp ▸ h1)
  rw [← hp, ← hS'] at hsum
  have gg : ∀ {β : Type} (f : ℤ → β), getAt (tab (zeros S') f) c = .ok (f (place (zeros S') c)) := fun f => by
    rw [getAt_place (tab_length _ _) hc.1 hc.2, getAt_tab _ h0 h1]
  have hmul : XR.fin ((size (refile S') (place (zeros S') c) : ℕ) : ℝ) * XR.fin (dist2 (centroid (refile S') (place (zeros S') c)) (mean S'))
      = XR.fin (between S' (place (zeros S') c)) := by rw [XR.fin_mul, between]
  have hcond : ((zeros S' > 1 ∧ (S'.length : ℤ) - (zeros S' : ℤ) > 0)) ↔ (1 < zeros S' ∧ zeros S' < S'.length) := by omega
  refine ⟨⟨[], .fin (Spec.WGSS (refile S')), tab (zeros S') fun a => .fin (scatter (refile S') a),
    .fin (∑ i ∈ Finset.range (zeros S'), stale S' i), tab (zeros S') fun a => .fin (stale S' a), staleCH S',
    some (enc (mean S')), S'.length, tab (zeros S') fun a => enc (centroid (refile S') a), tab (zeros S') (size (refile S')), g⟩, ?_,
    ⟨rfl, rfl, .inr rfl, rfl, rfl, rfl, rfl, rfl, rfl, hg⟩⟩
  simp only [CH.rest, bind_apply, get_apply, modify_apply, Res.bind_ok, gg, lift_ok, sub_enc, norm22_enc, hd, hmul, hset, ite_app,
    pure_apply, tab_length, XR.fin_sub, XR.fin_add, ← hsum]
  by_cases hif : 1 < zeros S' ∧ zeros S' < S'.length
  · rw [if_pos (hcond.mpr hif), CH.value_at S' hif]
    rfl
  · rw [if_neg (fun h => hif (hcond.mp h))]
    have : staleCH S' = 0 := by rw [staleCH, if_neg hif, XR.zero_def]
    simp only [this, Res.bind_ok]

theorem CH.mean_ok {S : Stream d} {o : Option Vec} (x : Pt d) (c : ℤ) (h : (S = [] ∧ o = none) ∨ o = some (enc (mean S))) :
    ∃ y : Pt d, scaleAdd (((S.length + 1 : ℕ) : ℝ) - 1) o (enc x) = .ok (enc y)
      ∧ vdiv (enc y) (.fin ((S.length + 1 : ℕ) : ℝ)) = enc (mean (S ++ [(x, c)])) := by
  have hn : ((S.length + 1 : ℕ) : ℝ) ≠ 0 := by positivity
  rcases h with ⟨rfl, rfl⟩ | rfl
  · refine ⟨x, rfl, ?_⟩
    rw [vdiv_enc _ hn]
    congr 1
    funext i
    rw [mean_append]
    simp
  · refine ⟨_, by rw [scaleAdd, smul_enc, add_enc], ?_⟩
    rw [vdiv_enc _ hn]
    congr 1
    funext i
    rw [mean_append]
    field_simp
    try ring

theorem CH.step {S : Stream d} {s : CH} {x : Pt d} {c : ℤ} (hS : AllFit (S ++ [(x, c)])) (h : CH.At S s) :
    ∃ s', CH.update (enc x) c s = .ok (staleCH (S ++ [(x, c)])) s' ∧ CH.At (S ++ [(x, c)]) s' := by
  obtain ⟨cl, W, Wi, B, Bi, out, dc, N, cen, siz, g⟩ := s
  obtain ⟨hcl, hN, hdc, hsz, hcen, hWi, hW, hBi, hB, hg⟩ := h
  simp only at hcl hN hdc hsz hcen hWi hW hBi hB hg
  subst hcl hN hsz hcen hWi hW hBi hB
  obtain ⟨y, hy, hm⟩ := CH.mean_ok x c hdc
  obtain ⟨hk, ho⟩ := refile_labels hS.prefix
  have hcon := ho.consecutive
  by_cases hc : c = 0
  · subst hc
    have hz : zeros (S ++ [(x, 0)]) = zeros S + 1 := by simp [zeros_append]
    have hrf : refile (S ++ [(x, 0)]) = refile S ++ [(x, (zeros S : ℤ))] := by simp [refile_append, filed]
    have hn : ((zeros S : ℕ) : ℤ) ∉ labels (refile S) := fun hm => by
      have := ((hcon _).mp hm).2
      rw [hk] at this
      omega
    have hold : ∀ b : ℤ, b < (zeros S : ℤ) → b ≠ (zeros S : ℤ) := fun b hb => by omega
    have s1 : (tab (zeros S) fun a => XR.fin (scatter (refile S) a)) ++ [(0 : XR)]
        = tab (zeros (S ++ [(x, 0)])) fun a => XR.fin (scatter (refile (S ++ [(x, 0)])) a) := by
      rw [hz, hrf]
      exact tab_append (by simp [scatter_append_new _ x hn, XR.zero_def]) fun b _ hb => by simp [scatter_append_ne _ x (hold b hb)]
    have s2 : (tab (zeros S) fun a => enc (centroid (refile S) a)) ++ [enc x]
        = tab (zeros (S ++ [(x, 0)])) fun a => enc (centroid (refile (S ++ [(x, 0)])) a) := by
      rw [hz, hrf]
      exact tab_append (by simp [centroid_append_new _ x hn]) fun b _ hb => by simp [centroid_append_ne _ x (hold b hb)]
    have s3 : (tab (zeros S) (size (refile S))) ++ [1] = tab (zeros (S ++ [(x, 0)])) (size (refile (S ++ [(x, 0)]))) := by
      rw [hz, hrf]
      exact tab_append (size_append_new _ x hn) fun b _ hb => size_append_ne _ x (hold b hb)
    have hhigh := stale_high hS.prefix (le_refl (zeros S : ℤ))
    have s4 : (tab (zeros S) fun a => XR.fin (stale S a)) ++ [(0 : XR)] = tab (zeros (S ++ [(x, 0)])) fun a => XR.fin (stale S a) := by
      rw [hz]
      exact tab_append (by simp [hhigh, XR.zero_def]) fun b _ _ => rfl
    have s5 : ∑ i ∈ Finset.range (zeros S), stale S i = ∑ i ∈ Finset.range (zeros (S ++ [(x, 0)])), stale S i := by
      rw [hz, Finset.sum_range_succ, hhigh, add_zero]
    have hup : CH.update (enc x) 0 ⟨[], .fin (Spec.WGSS (refile S)), tab (zeros S) fun a => .fin (scatter (refile S) a),
          .fin (∑ i ∈ Finset.range (zeros S), stale S i), tab (zeros S) fun a => .fin (stale S a), out, dc, S.length,
          tab (zeros S) fun a => enc (centroid (refile S) a), tab (zeros S) (size (refile S)), g⟩
        = CH.rest 0 (enc (mean (S ++ [(x, 0)]))) ⟨[], .fin (Spec.WGSS (refile (S ++ [(x, 0)]))),
          tab (zeros (S ++ [(x, 0)])) fun a => .fin (scatter (refile (S ++ [(x, 0)])) a),
          .fin (∑ i ∈ Finset.range (zeros (S ++ [(x, 0)])), stale S i), tab (zeros (S ++ [(x, 0)])) fun a => .fin (stale S a), out,
          some (enc (mean (S ++ [(x, 0)]))), (S ++ [(x, (0 : ℤ))]).length,
          tab (zeros (S ++ [(x, 0)])) fun a => enc (centroid (refile (S ++ [(x, 0)])) a),
          tab (zeros (S ++ [(x, 0)])) (size (refile (S ++ [(x, 0)]))), g⟩ := by
      have hW' : Spec.WGSS (refile (S ++ [(x, 0)])) = Spec.WGSS (refile S) := by rw [hrf, WGSS_new hn]
      have hl : (S ++ [(x, (0 : ℤ))]).length = S.length + 1 := by simp
      rw [hW', ← s1, ← s2, ← s3, ← s4, ← s5, hl]
      simp only [CH.update, CH.rest, bind_apply, get_apply, modify_apply, Res.bind_ok, hy, lift_ok, hm, ite_app, List.length_nil,
        Nat.cast_zero, if_true]
    rw [hup]
    exact CH.rest_ok (by rw [hz]; push_cast; omega) (by simp [place]) rfl rfl rfl rfl rfl rfl rfl rfl rfl hg
  · obtain ⟨h1, h2⟩ := hS.last.resolve_left hc
    simp only at h1 h2
    have hz : zeros (S ++ [(x, c)]) = zeros S := by simp [zeros_append, hc]
    obtain ⟨j, hj⟩ : ∃ j, j = place (zeros S) c := ⟨_, rfl⟩
    have hrf : refile (S ++ [(x, c)]) = refile S ++ [(x, j)] := by simp [refile_append, filed, hc, hj]
    obtain ⟨a0, a1⟩ := place_mem h1 h2
    rw [← hj] at a0 a1
    have hmem : j ∈ labels (refile S) := (hcon _).mpr ⟨a0, by rw [hk]; exact a1⟩
    have e1 : ¬ c = ((([] : List Unit).length : ℕ) : ℤ) := by simpa using hc
    have e2 : ¬ c > (zeros S : ℤ) := by omega
    have hcp := cpUpdate_two x (centroid (refile S) j) (size (refile S) j) hg (scatter (refile S) j)
      (w := centroid (refile (S ++ [(x, c)])) j) fun i => by rw [hrf]; exact centroid_append_self _ x j i
    have hsc : scatter (refile S) j + dist2 x (centroid (refile (S ++ [(x, c)])) j)
        + size (refile S) j * dist2 (centroid (refile S) j) (centroid (refile (S ++ [(x, c)])) j)
        = scatter (refile (S ++ [(x, c)])) j := by
      rw [hrf]
      exact (scatter_append_old _ x hmem).symm
    rw [hsc] at hcp
    have ss : ∀ {β : Type} {f g : ℤ → β} {b : β}, g j = b → (∀ i : ℤ, i ≠ j → g i = f i) →
        setAt (tab (zeros S) f) c b = .ok (tab (zeros S) g) := fun hb hg => by
      rw [setAt_place (tab_length _ _) _ h1 h2, ← hj]
      exact setAt_tab a0 a1 hb fun i _ _ hi => hg i hi
    have gg : ∀ {β : Type} (f : ℤ → β), getAt (tab (zeros S) f) c = .ok (f j) := fun f => by
      rw [getAt_place (tab_length _ _) h1 h2, ← hj, getAt_tab _ a0 a1]
    have s1 : setAt (tab (zeros S) fun a => XR.fin (scatter (refile S) a)) c (.fin (scatter (refile (S ++ [(x, c)])) j))
        = .ok (tab (zeros S) fun a => XR.fin (scatter (refile (S ++ [(x, c)])) a)) :=
      ss rfl fun b hb => by simp [hrf, scatter_append_ne _ x hb]
    have s2 : setAt (tab (zeros S) fun a => enc (centroid (refile S) a)) c (enc (centroid (refile (S ++ [(x, c)])) j))
        = .ok (tab (zeros S) fun a => enc (centroid (refile (S ++ [(x, c)])) a)) :=
      ss rfl fun b hb => by simp [hrf, centroid_append_ne _ x hb]
    have s3 : setAt (tab (zeros S) (size (refile S))) c (size (refile S) j + 1)
        = .ok (tab (zeros S) (size (refile (S ++ [(x, c)])))) :=
      ss (by rw [hrf]; exact size_append_self _ x j) fun b hb => by rw [hrf]; exact size_append_ne _ x hb
    have hup : CH.update (enc x) c ⟨[], .fin (Spec.WGSS (refile S)), tab (zeros S) fun a => .fin (scatter (refile S) a),
          .fin (∑ i ∈ Finset.range (zeros S), stale S i), tab (zeros S) fun a => .fin (stale S a), out, dc, S.length,
          tab (zeros S) fun a => enc (centroid (refile S) a), tab (zeros S) (size (refile S)), g⟩
        = CH.rest c (enc (mean (S ++ [(x, c)]))) ⟨[], .fin (Spec.WGSS (refile (S ++ [(x, c)]))),
          tab (zeros S) fun a => .fin (scatter (refile (S ++ [(x, c)])) a),
          .fin (∑ i ∈ Finset.range (zeros S), stale S i), tab (zeros S) fun a => .fin (stale S a), out,
          some (enc (mean (S ++ [(x, c)]))), (S ++ [(x, c)]).length,
          tab (zeros S) fun a => enc (centroid (refile (S ++ [(x, c)])) a),
          tab (zeros S) (size (refile (S ++ [(x, c)]))), some (enc fun _ : Fin d => 0)⟩ := by
      have hW' : Spec.WGSS (refile (S ++ [(x, c)]))
          = Spec.WGSS (refile S) - scatter (refile S) j + scatter (refile (S ++ [(x, c)])) j := by rw [hrf, WGSS_old hmem]
      have hl : (S ++ [(x, c)]).length = S.length + 1 := by simp
      rw [hW', hl]
      simp only [CH.update, CH.rest, bind_apply, get_apply, modify_apply, Res.bind_ok, hy, lift_ok, hm, ite_app, tab_length,
        if_neg e1, if_neg e2, gg, hcp, s1, s2, s3, XR.fin_sub, XR.fin_add]
    rw [hup]
    refine CH.rest_ok (by rw [hz]; exact ⟨h1, h2⟩) (by rw [hz]) rfl rfl rfl ?_ ?_ ?_ rfl ?_ ?_ (.inr rfl) <;> rw [hz]

/-- Every stream whose labels fit is accepted, and this is what each update returns. -/
theorem CH.run {S : Stream d} (hS : AllFit S) :
    ∃ s, feed CH.update (encS S) CH.init = .ok ((List.range S.length).map fun i => staleCH (S.take (i + 1))) s ∧ CH.At S s := by
  induction S using List.reverseRecOn with
  | nil =>
    refine ⟨CH.init, rfl, ?_⟩
    constructor <;> simp [CH.init, labels, tab, rangeKeys, Spec.WGSS, XR.zero_def, ZeroG, refile, refileFrom]
  | append_singleton S p ih =>
    obtain ⟨x, c⟩ := p
    obtain ⟨s, hf, hr⟩ := ih hS.prefix
    obtain ⟨s', hu, hr'⟩ := CH.step hS hr
    refine ⟨s', ?_, hr'⟩
    have := feed_append CH.update (encS S) (enc x, c) hf hu
    rw [show encS (S ++ [(x, c)]) = encS S ++ [(enc x, c)] by simp [encS], this]
    congr 1
    rw [List.length_append, List.length_singleton, List.range_succ, List.map_append]
    congr 1
    · refine List.map_congr_left fun i hi => ?_
      rw [List.take_append_of_le_length (by have := List.mem_range.mp hi; omega)]
    · simp [List.take_of_length_le]

/-- A label that does not fit is rejected. -/
theorem CH.step_err {S : Stream d} {s : CH} {x : Pt d} {c : ℤ} (hc : ¬ Fits (zeros S) c) (h : CH.At S s) :
    ∃ s', CH.update (enc x) c s = .err (if (zeros S : ℤ) < c then .valueError else .indexError) s' := by
  obtain ⟨cl, W, Wi, B, Bi, out, dc, N, cen, siz, g⟩ := s
  obtain ⟨hcl, hN, hdc, hsz, hcen, hWi, hW, hBi, hB, hg⟩ := h
  simp only at hcl hN hdc hsz hcen hWi hW hBi hB hg
  subst hcl hN hsz hcen hWi hW hBi hB
  obtain ⟨y, hy, hm⟩ := CH.mean_ok x c hdc
  rw [Fits, not_or] at hc
  have e1 : ¬ c = ((([] : List Unit).length : ℕ) : ℤ) := by simpa using hc.1
  have hn : getAt (tab (zeros S) fun a => XR.fin (scatter (refile S) a)) c = .error .indexError :=
    getAt_err (by rw [tab_length]; exact pyIdx_none hc.2)
  by_cases hz : (zeros S : ℤ) < c
  · rw [if_pos hz]
    simp only [CH.update, bind_apply, get_apply, modify_apply, Res.bind_ok, hy, lift_ok, hm, ite_app, tab_length, if_neg e1,
      if_pos (show c > (zeros S : ℤ) from hz), raise_apply, Res.bind_err]
    exact ⟨_, rfl⟩
  · rw [if_neg hz]
    simp only [CH.update, bind_apply, get_apply, modify_apply, Res.bind_ok, hy, lift_ok, hm, ite_app, tab_length, if_neg e1,
      if_neg (show ¬ c > (zeros S : ℤ) from hz), hn, lift_error, Res.bind_err]
    exact ⟨_, rfl⟩

end Verif.V0
