import Verif.Proofs.NaNModel
import Verif.Proofs.Atomic
import Verif.Proofs.Keeps
import Verif.Compat.PS

/-! # cSIL respects `⊑` -/

set_option linter.unusedSimpArgs false

namespace Verif
open Py

variable {s t : Core} {x x' : Vec} {A A' : Arr2} {a a' : XR}

/-! ## CSIL -/

theorem CSIL.setup_ref (hx : x ⊑ x') : CSIL.setup x ⊑ CSIL.setup x' := by
  unfold CSIL.setup
  ref_all
macro_rules | `(tactic| ref_one) => `(tactic| (with_reducible apply CSIL.setup_ref))

theorem CSIL.colNew_ref (h : CoreRef s t) (ha : a ⊑ a') (hx : x ⊑ x') (j : ℕ) : CSIL.colNew s a x j ⊑ CSIL.colNew t a' x' j := by
  unfold CSIL.colNew
  try simp only [h.n, h.nClusters, h.dim, h.nSamples]
  ref_all
macro_rules | `(tactic| ref_one) => `(tactic| (with_reducible apply CSIL.colNew_ref))

theorem CSIL.rowEntry_ref (h : CoreRef s t) (hx : x ⊑ x') (j : ℕ) : CSIL.rowEntry s x j ⊑ CSIL.rowEntry t x' j := by
  unfold CSIL.rowEntry
  try simp only [h.n, h.nClusters, h.dim, h.nSamples]
  ref_all
macro_rules | `(tactic| ref_one) => `(tactic| (with_reducible apply CSIL.rowEntry_ref))

theorem CSIL.sNew_ref (h : CoreRef s t) (i : ℕ) (hx : x ⊑ x') (ha : a ⊑ a') : CSIL.sNew s i x a ⊑ CSIL.sNew t i x' a' := by
  unfold CSIL.sNew
  try simp only [h.n, h.nClusters, h.dim, h.nSamples]
  ref_all
macro_rules | `(tactic| ref_one) => `(tactic| (with_reducible apply CSIL.sNew_ref))

theorem CSIL.colOldEntry_ref (n : ℕ) {y y' z z' : Vec} (ha : a ⊑ a') (hx : x ⊑ x') (hy : y ⊑ y') (hz : z ⊑ z') : CSIL.colOldEntry a n x y z ⊑ CSIL.colOldEntry a' n x' y' z' := by
  unfold CSIL.colOldEntry
  ref_all
macro_rules | `(tactic| ref_one) => `(tactic| (with_reducible apply CSIL.colOldEntry_ref))

theorem CSIL.colOld_ref (h : CoreRef s t) (i n : ℕ) {y y' : Vec} {b b' : XR} (ha : a ⊑ a') (hx : x ⊑ x') (hy : y ⊑ y') (hb : b ⊑ b') : CSIL.colOld s i a n x y b ⊑ CSIL.colOld t i a' n x' y' b' := by
  unfold CSIL.colOld
  try simp only [h.n, h.nClusters, h.dim, h.nSamples]
  ref_all
macro_rules | `(tactic| ref_one) => `(tactic| (with_reducible apply CSIL.colOld_ref))

theorem CSIL.rowOld_ref (h : CoreRef s t) (i : ℕ) (hx : x ⊑ x') (ha : a ⊑ a') : CSIL.rowOld s i x a ⊑ CSIL.rowOld t i x' a' := by
  unfold CSIL.rowOld
  try simp only [h.n, h.nClusters, h.dim, h.nSamples]
  ref_all
macro_rules | `(tactic| ref_one) => `(tactic| (with_reducible apply CSIL.rowOld_ref))

theorem CSIL.setS_ref (i : ℕ) {y y' : Vec} (hx : x ⊑ x') (hy : y ⊑ y') : CSIL.setS i x y ⊑ CSIL.setS i x' y' := by
  unfold CSIL.setS
  ref_all
macro_rules | `(tactic| ref_one) => `(tactic| (with_reducible apply CSIL.setS_ref))

theorem CSIL.distRow_ref (h : CoreRef s t) (hA : A ⊑ A') (i : ℕ) : CSIL.distRow A s i ⊑ CSIL.distRow A' t i := by
  unfold CSIL.distRow
  try simp only [h.n, h.nClusters, h.dim, h.nSamples]
  ref_all
macro_rules | `(tactic| ref_one) => `(tactic| (with_reducible apply CSIL.distRow_ref))

theorem CSIL.batchEntry_ref (h : CoreRef s t) (hA : A ⊑ A') (l : List ℤ) (j i : ℕ) : CSIL.batchEntry A l s j i ⊑ CSIL.batchEntry A' l t j i := by
  unfold CSIL.batchEntry
  try simp only [h.n, h.nClusters, h.dim, h.nSamples]
  ref_all
  exact entry_ref (by assumption) _
macro_rules | `(tactic| ref_one) => `(tactic| (with_reducible apply CSIL.batchEntry_ref))

theorem CSIL.coef_ref (hA : A ⊑ A') (i : ℕ) : CSIL.coef A i ⊑ CSIL.coef A' i := by
  unfold CSIL.coef
  ref_all
macro_rules | `(tactic| ref_one) => `(tactic| (with_reducible apply CSIL.coef_ref))

theorem CSIL.incNew_ref (i : ℕ) (hx : x ⊑ x') : CSIL.incNew x i ⊑ CSIL.incNew x' i := by
  unfold CSIL.incNew
  ref_all
macro_rules | `(tactic| ref_one) => `(tactic| (with_reducible apply CSIL.incNew_ref))

theorem CSIL.incOld_ref (i : ℕ) (hx : x ⊑ x') : CSIL.incOld x i ⊑ CSIL.incOld x' i := by
  unfold CSIL.incOld
  ref_all
macro_rules | `(tactic| ref_one) => `(tactic| (with_reducible apply CSIL.incOld_ref))

macro_rules | `(tactic| ref_one) => `(tactic| (with_reducible exact setupIfFirst_ref (fun _ _ h => CSIL.setup_ref h) (by assumption)))

theorem CSIL.incBody_ref (i : ℕ) (hx : x ⊑ x') : CSIL.incBody x i ⊑ CSIL.incBody x' i := by
  unfold CSIL.incBody
  ref_all
macro_rules | `(tactic| ref_one) => `(tactic| (with_reducible apply CSIL.incBody_ref))

theorem CSIL.batchStep_ref (l : List ℤ) (i : ℕ) (hA : A ⊑ A') : CSIL.batchStep A l i ⊑ CSIL.batchStep A' l i := by
  unfold CSIL.batchStep
  rw [rows_length hA]
  ref_all
macro_rules | `(tactic| ref_one) => `(tactic| (with_reducible apply CSIL.batchStep_ref))

theorem CSIL.paramBatch_ref (l : List ℤ) (hA : A ⊑ A') : CSIL.paramBatch A l ⊑ CSIL.paramBatch A' l := by
  unfold CSIL.paramBatch
  ref_all
  exact arr_mk rfl (by assumption)
macro_rules | `(tactic| ref_one) => `(tactic| (with_reducible apply CSIL.paramBatch_ref))
/-- All entries are present: `_S` is a matrix with as many rows and columns as there are clusters. -/
def CSIL.Square (s : Core) : Prop :=
  s.Sm.rows.length = s.nClusters ∧ s.Sm.cols = s.nClusters ∧ ∀ r ∈ s.Sm.rows, r.length = s.nClusters

theorem truthy_ref (h : a ⊑ a') (ha : a.truthy = true) : a'.truthy = true := by
  rcases h with rfl | rfl
  · rfl
  · exact ha

theorem any_list_ref {α : Type} [Ref α] {p : α → Bool} (hp : ∀ a b : α, a ⊑ b → p a = true → p b = true) {l l' : List α}
    (h : l ⊑ l') (hl : l.any p = true) : l'.any p = true := by
  induction h with
  | nil => exact hl
  | cons h _ ih =>
    simp only [List.any_cons, Bool.or_eq_true] at hl ⊢
    exact hl.imp (hp _ _ h) ih

theorem any_ref (h : A ⊑ A') (hA : A.any = true) : A'.any = true :=
  any_list_ref (fun _ _ h => any_list_ref (fun _ _ h => truthy_ref h) h) h.2 hA

/-- Zero or NaN. -/
def ZN (x : XR) : Prop := x = 0 ∨ x = .nan

theorem ZN.min (ha : ZN a) (hb : ZN a') : ZN (XR.min a a') := by
  rcases ha with rfl | rfl
  · rcases hb with rfl | rfl
    · left
      rw [XR.zero_def, XR.min_fin, min_self]
    · exact .inr (XR.min_nan _)
  · exact .inr (XR.nan_min _)

theorem ZN.quot (ha : ZN a) (hb : ZN a') : (a' - a) / XR.max a a' = .nan := by
  rcases ha with rfl | rfl
  · rcases hb with rfl | rfl
    · rw [XR.zero_def, XR.max_fin, max_self, XR.fin_sub, sub_self, XR.fin_div]
      simp [XR.idiv, XR.infOfSign]
    · rw [XR.max_nan, XR.div_nan]
  · rw [XR.nan_max, XR.div_nan]

theorem amin_zn {v : Vec} (hv : v ≠ []) (h : ∀ y ∈ v, ZN y) : ∃ b, Vec.amin v = .ok b ∧ ZN b := by
  cases v with
  | nil => exact absurd rfl hv
  | cons y v =>
    refine ⟨_, rfl, ?_⟩
    have : ∀ (l : Vec) (y : XR), ZN y → (∀ z ∈ l, ZN z) → ZN (l.foldl XR.min y) := by
      intro l
      induction l with
      | nil => exact fun y hy _ => hy
      | cons z l ih => exact fun y hy hl => ih _ (hy.min (hl z (by simp))) fun w hw => hl w (by simp [hw])
    exact this v y (h y (by simp)) fun z hz => h z (by simp [hz])

theorem mapE_exists {α β : Type} {f : α → Except PyErr β} {P : β → Prop} {l : List α} (h : ∀ a ∈ l, ∃ b, f a = .ok b ∧ P b) :
    ∃ r, mapE f l = .ok r ∧ r.length = l.length ∧ ∀ b ∈ r, P b := by
  induction l with
  | nil => exact ⟨[], rfl, rfl, by simp⟩
  | cons a l ih =>
    obtain ⟨b, hb, hp⟩ := h a (by simp)
    obtain ⟨r, hr, hl, hq⟩ := ih fun a ha => h a (by simp [ha])
    refine ⟨b :: r, ?_, by simp [hl], by simpa using ⟨hp, hq⟩⟩
    rw [mapE, hb, except_bind_ok, hr]; rfl

/-- A matrix of zeros and NaN gives NaN throughout. -/
theorem CSIL.coef_nan {k i : ℕ} (hr : A.rows.length = k) (hc : A.cols = k) (hl : ∀ r ∈ A.rows, r.length = k)
    (hz : ∀ r ∈ A.rows, ∀ y ∈ r, ZN y) (hk : 1 < k) (hi : i < k) : CSIL.coef A i = .ok .nan := by
  have hi' : i < A.rows.length := by omega
  have hm : A.rows[i] ∈ A.rows := List.getElem_mem hi'
  have hi2 : i < A.rows[i].length := by rw [hl _ hm]; exact hi
  have e1 : A.get i i = .ok A.rows[i][i] := by
    rw [Arr2.get, List.getElem?_eq_getElem hi']
    simp only [List.getElem?_eq_getElem hi2]
  obtain ⟨c, e2, hcl, hcz⟩ : ∃ c, A.col i = .ok c ∧ c.length = A.rows.length ∧ ∀ b ∈ c, ZN b := by
    rw [Arr2.col, if_pos (by omega)]
    refine mapE_exists fun r hr => ?_
    have : i < r.length := by rw [hl r hr]; exact hi
    exact ⟨r[i], by simp only [List.getElem?_eq_getElem this], hz r hr _ (List.getElem_mem _)⟩
  have e3 : Vec.delete c i = .ok (c.eraseIdx i) := by rw [Vec.delete, if_pos (by omega)]
  obtain ⟨b, e4, hb⟩ : ∃ b, Vec.amin (c.eraseIdx i) = .ok b ∧ ZN b := by
    refine amin_zn ?_ fun y hy => hcz y (List.mem_of_mem_eraseIdx hy)
    have : (c.eraseIdx i).length ≠ 0 := by rw [List.length_eraseIdx_of_lt (by omega)]; omega
    exact fun h => this (by rw [h]; rfl)
  rw [CSIL.coef, e1, except_bind_ok, e2, except_bind_ok, e3, except_bind_ok, e4, except_bind_ok, except_pure,
    ZN.quot (hz _ hm _ (List.getElem_mem _)) hb]

theorem zn_of_ref {l l' : Vec} (h : l ⊑ l') (hl : l.any XR.truthy = false) : ∀ y ∈ l', ZN y := by
  induction h with
  | nil => simp
  | @cons x y _ _ h _ ih =>
    simp only [List.any_cons, Bool.or_eq_false_iff] at hl
    intro z hz
    rcases List.mem_cons.1 hz with rfl | hz
    · rcases h with rfl | rfl
      · exact .inr rfl
      · left
        have := hl.1
        cases z with
        | fin r => simp [XR.truthy] at this; rw [this]; rfl
        | pinf => simp [XR.truthy] at this
        | ninf => simp [XR.truthy] at this
        | nan => simp [XR.truthy] at this
    · exact ih hl.2 z hz

theorem zn_rows {l l' : List Vec} (h : l ⊑ l') (hl : (l.any fun r => r.any XR.truthy) = false) : ∀ r ∈ l', ∀ y ∈ r, ZN y := by
  induction h with
  | nil => simp
  | @cons x y _ _ h _ ih =>
    simp only [List.any_cons, Bool.or_eq_false_iff] at hl
    intro r hr
    rcases List.mem_cons.1 hr with rfl | hr
    · exact zn_of_ref h hl.1
    · exact ih hl.2 r hr

theorem lengths_ref {l l' : List Vec} {k : ℕ} (h : l ⊑ l') (hl : ∀ r ∈ l, r.length = k) : ∀ r ∈ l', r.length = k := by
  induction h with
  | nil => simp
  | @cons x y _ _ h _ ih =>
    intro r hr
    rcases List.mem_cons.1 hr with rfl | hr
    · rw [← length_ref h]; exact hl _ (by simp)
    · exact ih (fun r hr => hl r (by simp [hr])) r hr

theorem ref_nans (k : ℕ) (v : Vec) (h : v.length = k) : v ⊑ List.replicate k XR.nan := by
  subst h
  induction v with
  | nil => exact .nil
  | cons y v ih => exact .cons (.inl rfl) ih

theorem CSIL.evaluate_ref (h : CoreRef s t) {s' : Core} (e : CSIL.evaluate s = .ok () s') (hs : CSIL.Square s') :
    ∃ t', CSIL.evaluate t = .ok () t' ∧ CoreRef s' t' := by
  by_cases hb : (s.nClusters > 1 ∧ s.Sm.any = true) ↔ (t.nClusters > 1 ∧ t.Sm.any = true)
  · -- both objects take the same branch
    have hr : ∀ u : Core, ({ u with silCoefs := Vec.zeros u.nClusters } : Core).nClusters = u.nClusters := fun _ => rfl
    rw [CSIL.evaluate, bind_apply, modify_apply, Res.bind_ok, bind_apply, get_apply, Res.bind_ok] at e ⊢
    have h1 : CoreRef { s with silCoefs := Vec.zeros s.nClusters } { t with silCoefs := Vec.zeros t.nClusters } :=
      { h with silCoefs := by rw [h.nClusters]; exact vec_refl _ }
    refine of_ref (ite_ref hb (fun _ => ?_) fun _ => ?_) h1 e
    · simp only [h.nClusters]
      have := h.Sm
      refine py_bind (py_lift (mapE_same fun i => CSIL.coef_ref this i)) fun c c' hc => ?_
      ref_all
    · ref_all
  · -- all of `_S` is zero, or becomes NaN
    have h1 : ¬ (s.nClusters > 1 ∧ s.Sm.any = true) := fun h1 => hb ⟨fun _ => ⟨h.nClusters ▸ h1.1, any_ref h.Sm h1.2⟩, fun _ => h1⟩
    have h2 : t.nClusters > 1 ∧ t.Sm.any = true := by
      by_contra h2
      exact hb ⟨fun h => absurd h h1, fun h => absurd h h2⟩
    have h3 : s.Sm.any = false := by
      by_contra h3
      exact h1 ⟨h.nClusters ▸ h2.1, by simpa using h3⟩
    rw [CSIL.evaluate, bind_apply, modify_apply, Res.bind_ok, bind_apply, get_apply, Res.bind_ok, if_neg h1, modify_apply] at e
    cases e
    obtain ⟨hs1, hs2, hs3⟩ := hs
    dsimp only at hs1 hs2 hs3
    have hcs : mapE (CSIL.coef t.Sm) (List.range t.nClusters) = .ok (List.replicate t.nClusters .nan) := by
      rw [mapE_ok (g := fun _ => XR.nan)]
      · simp
      · intro i hi
        rw [List.mem_range] at hi
        refine CSIL.coef_nan (k := t.nClusters) ?_ ?_ ?_ (zn_rows h.Sm.2 h3) h2.1 hi
        · rw [← rows_length h.Sm, hs1, h.nClusters]
        · rw [← h.Sm.1, hs2, h.nClusters]
        · exact lengths_ref h.Sm.2 fun r hr => by rw [hs3 r hr, h.nClusters]
    refine ⟨{ t with
      silCoefs := List.replicate t.nClusters .nan
      criterion := (List.replicate t.nClusters XR.nan).sum / .fin (t.nClusters : ℝ) }, ?_, ?_⟩
    · rw [CSIL.evaluate, bind_apply, modify_apply, Res.bind_ok, bind_apply, get_apply, Res.bind_ok, if_pos h2, bind_apply]
      simp only [hcs]
      rw [lift_ok, Res.bind_ok, modify_apply]
    · have h4 : Vec.zeros s.nClusters ⊑ List.replicate t.nClusters XR.nan := ref_nans _ _ (by rw [h.nClusters]; simp [Vec.zeros])
      have h5 : XR.fin 0 ⊑ (List.replicate t.nClusters XR.nan).sum / .fin (t.nClusters : ℝ) := by
        left
        have : (List.replicate t.nClusters XR.nan).sum = .nan := XR.sum_eq_nan (by simp; omega)
        rw [this, XR.nan_div]
      exact { h with silCoefs := h4, criterion := h5 }

theorem CSILmod_ref : ModRef CSILmod CSIL.Square :=
  ⟨fun _ _ i h => CSIL.incBody_ref i h, fun _ _ l h => CSIL.paramBatch_ref l h, fun _ _ h _ e hs => CSIL.evaluate_ref h e hs⟩

theorem mapE_inv {α β : Type} {f : α → Except PyErr β} {l : List α} {r : List β} (h : mapE f l = .ok r) :
    ∀ b ∈ r, ∃ a ∈ l, f a = .ok b := by
  induction l generalizing r with
  | nil => cases h; simp
  | cons a l ih =>
    rw [mapE] at h
    obtain ⟨b, hb, h⟩ := except_bind_inv h
    obtain ⟨bs, hbs, h⟩ := except_bind_inv h
    cases h
    intro c hc
    rcases List.mem_cons.1 hc with rfl | hc
    · exact ⟨a, by simp, hb⟩
    · obtain ⟨a', ha, e⟩ := ih hbs c hc
      exact ⟨a', by simp [ha], e⟩

/-- The evaluation leaves `_S` alone. -/
theorem CSIL.evaluate_square {s s' : Core} (e : CSIL.evaluate s = .ok () s') (h : CSIL.Square s) : CSIL.Square s' := by
  rw [CSIL.evaluate, bind_apply, modify_apply, Res.bind_ok, bind_apply, get_apply, Res.bind_ok] at e
  split at e
  · obtain ⟨_, _, e1, e⟩ := py_bind_inv e
    cases hc : mapE (CSIL.coef s.Sm) (List.range s.nClusters) with
    | error _ => simp only [hc] at e1; cases e1
    | ok _ => simp only [hc] at e1; cases e1; cases e; exact h
  · cases e; exact h

theorem CSIL.paramBatch_square {s s' : Core} {l : List ℤ} (e : CSIL.paramBatch A l s = .ok () s') : CSIL.Square s' := by
  rw [CSIL.paramBatch] at e
  obtain ⟨_, s1, e1, e⟩ := py_bind_inv e
  obtain ⟨_, s2, e2, e⟩ := py_bind_inv e
  obtain ⟨_, s3, e3, e⟩ := py_bind_inv e
  obtain ⟨_, s4, e4, e⟩ := py_bind_inv e
  cases e2
  cases e4
  have hk : s3.nClusters = uniqueSize l := by
    have : Keeps (fun s => s.nClusters = uniqueSize l) (Py.forEach (List.range (uniqueSize l)) (CSIL.batchStep A l)) :=
      keeps_forEach fun _ => by unfold CSIL.batchStep setN setV setCP; keeps_set
    have := this { s1 with
      nClusters := uniqueSize l
      n := ⟨true, List.replicate (uniqueSize l) 0⟩
      v := Arr2.zeros (uniqueSize l) s1.dim
      CP := some ⟨true, Vec.zeros (uniqueSize l)⟩
      Sm := Arr2.zeros (uniqueSize l) (uniqueSize l) } rfl
    rw [e3] at this
    exact this
  obtain ⟨rows, s5, e5, e⟩ := py_bind_inv e
  cases e
  cases hr : mapE (fun jx => mapE (fun ix => CSIL.batchEntry A l s3 jx ix) (List.range (uniqueSize l))) (List.range (uniqueSize l)) with
  | error _ => rw [hr] at e5; cases e5
  | ok rs =>
    rw [hr] at e5
    cases e5
    refine ⟨?_, ?_, ?_⟩
    · dsimp only; rw [V0.mapE_length hr, hk, List.length_range]
    · dsimp only; rw [hk]
    · intro r hr'
      obtain ⟨_, _, e6⟩ := mapE_inv hr r hr'
      dsimp only
      rw [V0.mapE_length e6, hk, List.length_range]

end Verif
