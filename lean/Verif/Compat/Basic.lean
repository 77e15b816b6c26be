import Verif.Compat.Spec
import Verif.Proofs.Batch

/-! # Helper lemmas about the older interface -/

namespace Verif.V0
open Spec Py

variable {d : ℕ} {α : Type}

/-! ## Lists -/

theorem pyIdx_mem {n : ℕ} {c : ℤ} (h0 : 0 ≤ c) (h : c < n) : pyIdx n c = some c.toNat := by
  simp [pyIdx, h0, h]

theorem pyIdx_ge {n : ℕ} {c : ℤ} (h : (n : ℤ) ≤ c) : pyIdx n c = none := by
  have h0 : 0 ≤ c := by omega
  simp [pyIdx, h0, not_lt.mpr h]

theorem pyIdx_lt {n : ℕ} {c : ℤ} {i : ℕ} (h : pyIdx n c = some i) : i < n := by
  unfold pyIdx at h
  split_ifs at h <;> simp at h <;> omega

@[simp] theorem pyIdx_zero (c : ℤ) : pyIdx 0 c = none := by
  unfold pyIdx
  split_ifs <;> first | rfl | (exfalso; omega)

theorem getAt_ge {l : List α} {c : ℤ} (h : (l.length : ℤ) ≤ c) : getAt l c = .error .indexError := by
  simp [getAt, pyIdx_ge h]

@[simp] theorem getAt_nil (c : ℤ) : getAt ([] : List α) c = .error .indexError := by simp [getAt]

theorem setAt_ge {l : List α} {c : ℤ} (a : α) (h : (l.length : ℤ) ≤ c) : setAt l c a = .error .indexError := by
  simp [setAt, pyIdx_ge h]

theorem getAt_isOk {l : List α} {c : ℤ} {i : ℕ} (h : pyIdx l.length c = some i) : ∃ a, l[i]? = some a ∧ getAt l c = .ok a := by
  have hi := pyIdx_lt h
  refine ⟨l[i], by simp [hi], ?_⟩
  simp [getAt, h, hi]

theorem setAt_isOk {l : List α} {c : ℤ} {i : ℕ} (a : α) (h : pyIdx l.length c = some i) : setAt l c a = .ok (l.set i a) := by
  simp [setAt, h]

theorem getAt_err {l : List α} {c : ℤ} (h : pyIdx l.length c = none) : getAt l c = .error .indexError := by simp [getAt, h]

/-- A table with one entry for each of the clusters `0 .. k-1`. -/
def tab (k : ℕ) (f : ℤ → α) : List α := (rangeKeys k).map f

@[simp] theorem tab_length (k : ℕ) (f : ℤ → α) : (tab k f).length = k := by simp [tab]

theorem tab_getElem? {k : ℕ} (f : ℤ → α) {i : ℕ} (h : i < k) : (tab k f)[i]? = some (f i) := by
  simp [tab, rangeKeys, h]

theorem getAt_tab {k : ℕ} (f : ℤ → α) {c : ℤ} (h0 : 0 ≤ c) (h : c < k) : getAt (tab k f) c = .ok (f c) := by
  have h1 : c.toNat < k := by omega
  have h2 : ((c.toNat : ℕ) : ℤ) = c := by omega
  rw [getAt, tab_length, pyIdx_mem h0 h]
  simp [tab_getElem? f h1, h2]

theorem tab_succ (k : ℕ) (f : ℤ → α) : tab (k + 1) f = tab k f ++ [f k] := by
  simp [tab, rangeKeys, List.range_succ]

theorem tab_congr {k : ℕ} {f g : ℤ → α} (h : ∀ c : ℤ, 0 ≤ c → c < k → f c = g c) : tab k f = tab k g := by
  refine List.map_congr_left fun c hc => ?_
  obtain ⟨h0, h1⟩ := mem_rangeKeys.mp hc
  exact h c h0 h1

theorem setAt_tab {k : ℕ} {f g : ℤ → α} {c : ℤ} (h0 : 0 ≤ c) (h : c < k) {a : α} (ha : g c = a)
    (hg : ∀ b : ℤ, 0 ≤ b → b < k → b ≠ c → g b = f b) : setAt (tab k f) c a = .ok (tab k g) := by
  rw [setAt, pyIdx_mem h0 (show c < ((tab k f).length : ℤ) by simpa using h)]
  refine congrArg Except.ok (List.ext_getElem? fun i => ?_)
  by_cases hi : i < k
  · rw [tab_getElem? g hi, List.getElem?_set]
    have h1 : c.toNat < k := by omega
    by_cases hic : c.toNat = i
    · subst hic
      have : ((c.toNat : ℕ) : ℤ) = c := by omega
      simp [h1, this, ha]
    · rw [if_neg hic, tab_getElem? f hi, hg i (by omega) (by omega) (by omega)]
  · rw [List.getElem?_eq_none (by simpa using hi), List.getElem?_eq_none (by simpa using hi)]

/-- Append the entry for cluster `k`. -/
theorem tab_append {k : ℕ} {f g : ℤ → α} {a : α} (ha : g k = a) (hg : ∀ b : ℤ, 0 ≤ b → b < k → g b = f b) :
    tab k f ++ [a] = tab (k + 1) g := by
  rw [tab_succ, ha, tab_congr fun c h0 h1 => (hg c h0 h1).symm]

/-! ## Numbers -/

theorem norm_enc (x : Pt d) : norm 2 (enc x) = .fin (Real.sqrt (∑ i, x i ^ 2)) := by
  rw [norm, if_neg (by decide), sumSq_enc, XR.sqrt_fin_of_nonneg (Finset.sum_nonneg fun i _ => sq_nonneg _)]

@[simp] theorem norm22_enc (x : Pt d) : norm22 (enc x) = .fin (∑ i, x i ^ 2) := by
  rw [norm22, norm_enc, XR.sq_fin, Real.sq_sqrt (Finset.sum_nonneg fun i _ => sq_nonneg _)]

theorem vdiv_enc (x : Pt d) {n : ℝ} (h : n ≠ 0) : vdiv (enc x) (.fin n) = enc fun i => x i / n := by
  simp only [vdiv, enc, List.map_ofFn]
  congr 1
  funext i
  simp [XR.fin_div_of_ne _ h]

/-- `g` is `None` or an array of zeros. -/
def ZeroG (d : ℕ) (g : Option Vec) : Prop := g = none ∨ g = some (enc fun _ : Fin d => (0 : ℝ))

theorem centerUpdate_enc (x v : Pt d) (n : ℕ) :
    centerUpdate (enc x) (enc v) n = .ok (enc (fun i => v i + (x i - v i) / ((n + 1 : ℕ) : ℝ)), n + 1) := by
  have h : ((n + 1 : ℕ) : ℝ) ≠ 0 := by positivity
  simp only [centerUpdate, sub_enc, except_bind_ok, vdiv_enc _ h, add_enc, except_pure]

theorem mean_step (v x : Pt d) (n : ℕ) (i : Fin d) :
    v i + (x i - v i) / ((n + 1 : ℕ) : ℝ) = (1 - 1 / ((n + 1 : ℕ) : ℝ)) * v i + 1 / ((n + 1 : ℕ) : ℝ) * x i := by
  ring

/-- `CP_update` on finite data with `g` zero. -/
theorem cpUpdate_enc (x v : Pt d) (n : ℕ) {g : Option Vec} (hg : ZeroG d g) (cp : ℝ) {w : Pt d}
    (hw : ∀ i, w i = (1 - 1 / ((n + 1 : ℕ) : ℝ)) * v i + 1 / ((n + 1 : ℕ) : ℝ) * x i) (p q : ℕ) :
    cpUpdate (enc x) (enc v) n g (.fin cp) p q = .ok
      ⟨.fin cp + (norm q (enc fun i => x i - w i)).powNat p + .fin n * (norm q (enc fun i => v i - w i)).powNat p
        + (XR.fin 0).powNat p, enc fun _ : Fin d => 0, enc w, n + 1⟩ := by
  have h : ((n + 1 : ℕ) : ℝ) ≠ 0 := by positivity
  have hg' : g.getD (Vec.zeros (enc x).length) = enc fun _ : Fin d => (0 : ℝ) := by
    rcases hg with rfl | rfl
    · simp [zeros_eq_enc]
    · rfl
  have hv : (enc fun i => v i + (x i - v i) / ((n + 1 : ℕ) : ℝ)) = enc w := enc_congr fun i => by rw [mean_step, hw]
  have h0 : (enc fun i => (0 : ℝ) + (x i - w i) + (n : ℝ) * (v i - w i)) = enc fun _ => 0 := enc_congr fun i => by
    rw [hw]
    push_cast at h ⊢
    field_simp
    ring
  simp only [cpUpdate, hg', sub_enc, except_bind_ok, vdiv_enc _ h, add_enc, hv, smul_enc, inner_enc, h0, except_pure, mul_zero,
    Finset.sum_const_zero, XR.fin_mul]
  rw [XR.sqrt_fin_of_nonneg le_rfl, Real.sqrt_zero]

/-- ... with `p = q = 2`. -/
theorem cpUpdate_two (x v : Pt d) (n : ℕ) {g : Option Vec} (hg : ZeroG d g) (cp : ℝ) {w : Pt d}
    (hw : ∀ i, w i = (1 - 1 / ((n + 1 : ℕ) : ℝ)) * v i + 1 / ((n + 1 : ℕ) : ℝ) * x i) :
    cpUpdate (enc x) (enc v) n g (.fin cp) 2 2 = .ok
      ⟨.fin (cp + dist2 x w + n * dist2 v w), enc fun _ : Fin d => 0, enc w, n + 1⟩ := by
  have h2 : ∀ y : XR, y.powNat 2 = y * y := fun y => rfl
  have hn : ∀ y : Pt d, norm 2 (enc y) * norm 2 (enc y) = .fin (∑ i, y i ^ 2) := fun y => by
    simpa [norm22, XR.sq] using norm22_enc y
  rw [cpUpdate_enc x v n hg cp hw 2 2, h2, h2, h2, hn, hn]
  simp [dist2]

/-! ## Sequences of updates -/

theorem feed_append {σ β : Type} (update : Vec → ℤ → Py σ β) (l : List (Vec × ℤ)) (p : Vec × ℤ) {s s' s'' : σ} {rs : List β}
    {r : β} (h : feed update l s = .ok rs s') (h' : update p.1 p.2 s' = .ok r s'') :
    feed update (l ++ [p]) s = .ok (rs ++ [r]) s'' := by
  induction l generalizing s rs with
  | nil =>
    simp only [feed, pure_apply, Res.ok.injEq] at h
    obtain ⟨rfl, rfl⟩ := h
    simp [feed, h']
  | cons q l ih =>
    simp only [feed, List.cons_append, bind_apply] at h ⊢
    cases hq : update q.1 q.2 s with
    | err e t => simp [hq] at h
    | ok b t =>
      simp only [hq, Res.bind_ok] at h ⊢
      cases hf : feed update l t with
      | err e t' => simp [hf] at h
      | ok bs t' =>
        simp only [hf, Res.bind_ok, pure_apply, Res.ok.injEq] at h
        obtain ⟨rfl, rfl⟩ := h
        rw [ih hf]
        rfl

/-- An exception in the last update. -/
theorem feed_append_err {σ β : Type} (update : Vec → ℤ → Py σ β) (l m : List (Vec × ℤ)) (p : Vec × ℤ) {s s' s'' : σ}
    {rs : List β} {e : PyErr} (h : feed update l s = .ok rs s') (h' : update p.1 p.2 s' = .err e s'') :
    feed update (l ++ p :: m) s = .err e s'' := by
  induction l generalizing s rs with
  | nil =>
    simp only [feed, pure_apply, Res.ok.injEq] at h
    obtain ⟨rfl, rfl⟩ := h
    simp [feed, h']
  | cons q l ih =>
    simp only [feed, List.cons_append, bind_apply] at h ⊢
    cases hq : update q.1 q.2 s with
    | err e t => simp [hq] at h
    | ok b t =>
      simp only [hq, Res.bind_ok] at h ⊢
      cases hf : feed update l t with
      | err e t' => simp [hf] at h
      | ok bs t' =>
        simp only [hf, Res.bind_ok, pure_apply, Res.ok.injEq] at h
        obtain ⟨rfl, rfl⟩ := h
        rw [ih hf]
        rfl

/-! ## Streams in order -/

theorem InOrder.prefix {S : Stream d} {p : Pt d × ℤ} (h : InOrder (S ++ [p])) : InOrder S := by
  intro P q Q hS
  exact h P q (Q ++ [p]) (by rw [hS]; simp)

theorem InOrder.last {S : Stream d} {p : Pt d × ℤ} (h : InOrder (S ++ [p])) : 0 ≤ p.2 ∧ p.2 ≤ (numClusters S : ℤ) :=
  h S p [] rfl

theorem numClusters_old {S : Stream d} {x : Pt d} {c : ℤ} (h : c ∈ labels S) : numClusters (S ++ [(x, c)]) = numClusters S := by
  rw [numClusters, labels_append, Finset.insert_eq_of_mem h, numClusters]

theorem numClusters_new {S : Stream d} {x : Pt d} {c : ℤ} (h : c ∉ labels S) :
    numClusters (S ++ [(x, c)]) = numClusters S + 1 := by
  rw [numClusters, labels_append, Finset.card_insert_of_notMem h, numClusters]

/-- The labels of a stream in order are `0 .. k-1`. -/
theorem InOrder.consecutive {S : Stream d} (h : InOrder S) : Consecutive S := by
  induction S using List.reverseRecOn with
  | nil => intro c; simp [labels, numClusters]
  | append_singleton S p ih =>
    obtain ⟨x, c⟩ := p
    have hS := ih h.prefix
    obtain ⟨h0, h1⟩ := h.last
    simp only at h0 h1
    intro a
    rw [labels_append, Finset.mem_insert, hS a]
    by_cases hc : c ∈ labels S
    · rw [numClusters_old hc]
      have := (hS c).mp hc
      constructor
      · rintro (rfl | h)
        · exact this
        · exact h
      · exact fun h => Or.inr h
    · rw [numClusters_new hc]
      have hk : c = numClusters S := by
        by_contra hne
        exact hc ((hS c).mpr ⟨h0, by omega⟩)
      push_cast
      omega

theorem InOrder.nil : InOrder ([] : Stream d) := by
  intro P p Q h
  simp at h

theorem InOrder.append {S : Stream d} {p : Pt d × ℤ} (h : InOrder S) (h0 : 0 ≤ p.2) (h1 : p.2 ≤ (numClusters S : ℤ)) :
    InOrder (S ++ [p]) := by
  intro P q Q hS
  rcases List.eq_nil_or_concat Q with hQ | ⟨Q', a, hQ⟩
  · subst hQ
    obtain ⟨rfl, h2⟩ := List.append_inj' hS rfl
    simp only [List.cons.injEq, and_true] at h2
    subst h2
    exact ⟨h0, h1⟩
  · subst hQ
    rw [List.concat_eq_append, ← List.cons_append, ← List.append_assoc] at hS
    obtain ⟨rfl, -⟩ := List.append_inj' hS rfl
    exact h P q Q' rfl

/-- A cluster number is old or the next one. -/
theorem InOrder.cases {S : Stream d} {x : Pt d} {c : ℤ} (h : InOrder (S ++ [(x, c)])) :
    (c ∈ labels S ∧ 0 ≤ c ∧ c < numClusters S) ∨ (c ∉ labels S ∧ c = numClusters S) := by
  obtain ⟨h0, h1⟩ := h.last
  simp only at h0 h1
  have hS := h.prefix.consecutive
  by_cases hc : c ∈ labels S
  · exact .inl ⟨hc, (hS c).mp hc⟩
  · refine .inr ⟨hc, ?_⟩
    by_contra hne
    exact hc ((hS c).mpr ⟨h0, by omega⟩)

/-! ## Distances of centroids -/

theorem sepList_tab {k : ℕ} {f : ℤ → Pt d} {c : ℤ} (h0 : 0 ≤ c) (h : c < k) :
    sepList (tab k fun a => enc (f a)) c
      = .ok (((List.range k).filter fun j : ℕ => decide ((j : ℤ) ≠ c)).map fun j : ℕ => .fin (dist2 (f c) (f j))) := by
  rw [sepList, tab_length]
  refine mapE_ok fun j hj => ?_
  have hjk : j < k := by simpa using (List.mem_filter.mp hj).1
  rw [getAt_tab _ h0 h, getAt_tab _ (by omega) (by omega)]
  simp [dist2]

end Verif.V0
