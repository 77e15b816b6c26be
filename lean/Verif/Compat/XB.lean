import Verif.Compat.Basic

/-! # `iXB` on streams in order -/

namespace Verif.V0
open Spec Py

variable {d : ℕ}

/-- The state of `iXB` after the stream `S`. -/
structure XB.Rep (S : Stream d) (s : XB) : Prop where
  N : s.N = S.length
  sizes : s.sizes = tab (numClusters S) (size S)
  centers : s.centers = tab (numClusters S) fun a => enc (centroid S a)
  WGSSi : s.WGSSi = tab (numClusters S) fun a => .fin (scatter S a)
  WGSS : s.WGSS = .fin (Spec.WGSS S)
  minVi : s.minVi.length = numClusters S
  minV : (numClusters S ≤ 1 ∧ s.minV = .pinf) ∨ ∃ m, IsLeast (histSep S) m ∧ s.minV = .fin m
  g : ZeroG d s.g

theorem WGSS_old {S : Stream d} {x : Pt d} {c : ℤ} (h : c ∈ labels S) :
    Spec.WGSS (S ++ [(x, c)]) = Spec.WGSS S - scatter S c + scatter (S ++ [(x, c)]) c := by
  rw [Spec.WGSS, labels_append, Finset.insert_eq_of_mem h, Spec.WGSS, ← Finset.add_sum_erase _ _ h,
    ← Finset.add_sum_erase (labels S) (scatter S) h,
    Finset.sum_congr rfl fun a ha => scatter_append_ne S x (Finset.ne_of_mem_erase ha)]
  ring

theorem WGSS_new {S : Stream d} {x : Pt d} {c : ℤ} (h : c ∉ labels S) : Spec.WGSS (S ++ [(x, c)]) = Spec.WGSS S := by
  rw [Spec.WGSS, labels_append, Finset.sum_insert h, scatter_append_new S x h, zero_add, Spec.WGSS]
  exact Finset.sum_congr rfl fun a ha => scatter_append_ne S x (fun e => h (e ▸ ha))

/-! ## The least separation so far -/

theorem histSep_append (S : Stream d) (p : Pt d × ℤ) :
    histSep (S ++ [p]) = histSep S ∪ pairValues (S ++ [p]) (sep (S ++ [p])) := by
  ext r
  simp only [histSep, Set.mem_ofPred_eq, Set.mem_union]
  constructor
  · rintro ⟨P, hP, hr⟩
    rcases List.prefix_concat_iff.mp hP with rfl | h
    · exact .inr hr
    · exact .inl ⟨P, h, hr⟩
  · rintro (⟨P, hP, hr⟩ | hr)
    · exact ⟨P, hP.trans (List.prefix_append _ _), hr⟩
    · exact ⟨_, List.prefix_rfl, hr⟩

theorem sep_comm (S : Stream d) (a b : ℤ) : sep S a b = sep S b a := by
  simp only [sep, dist2]
  exact Finset.sum_congr rfl fun i _ => by ring

theorem sep_append_ne (S : Stream d) (x : Pt d) {a b c : ℤ} (ha : a ≠ c) (hb : b ≠ c) :
    sep (S ++ [(x, c)]) a b = sep S a b := by
  simp only [sep, centroid_append_ne S x ha, centroid_append_ne S x hb]

/-- Only the distances of the changed centroid are new. -/
theorem histSep_step (S : Stream d) (x : Pt d) (c : ℤ) :
    histSep (S ++ [(x, c)]) = histSep S ∪ otherValues (S ++ [(x, c)]) c fun b => sep (S ++ [(x, c)]) c b := by
  rw [histSep_append]
  ext r
  simp only [Set.mem_union]
  have hc : c ∈ labels (S ++ [(x, c)]) := by rw [labels_append]; exact Finset.mem_insert_self _ _
  constructor
  · rintro (h | ⟨a, ha, b, hb, hab, rfl⟩)
    · exact .inl h
    · by_cases hac : a = c
      · subst hac
        exact .inr ⟨b, hb, hab.symm, rfl⟩
      · by_cases hbc : b = c
        · subst hbc
          exact .inr ⟨a, ha, hac, sep_comm _ _ _⟩
        · rw [labels_append, Finset.mem_insert] at ha hb
          exact .inl ⟨S, List.prefix_rfl, a, ha.resolve_left hac, b, hb.resolve_left hbc, hab, sep_append_ne S x hac hbc⟩
  · rintro (h | ⟨b, hb, hbc, rfl⟩)
    · exact .inl h
    · exact .inr ⟨c, hc, b, hb, hbc.symm, rfl⟩

theorem histSep_empty {S : Stream d} (h : numClusters S ≤ 1) : histSep S = ∅ := by
  ext r
  simp only [Set.mem_empty_iff_false, iff_false]
  rintro ⟨P, ⟨Q, rfl⟩, a, ha, b, hb, hab, -⟩
  have h2 : 1 < (labels (P ++ Q)).card := by
    refine Finset.one_lt_card.mpr ⟨a, ?_, b, ?_, hab⟩
    · simp only [labels, List.map_append, List.toFinset_append, Finset.mem_union]; exact .inl ha
    · simp only [labels, List.map_append, List.toFinset_append, Finset.mem_union]; exact .inl hb
  rw [numClusters] at h
  omega

/-- `np.minimum` over a list of finite numbers, starting with `inf`. -/
theorem foldl_min_pinf (l : List ℝ) :
    (l = [] ∧ (l.map XR.fin).foldl XR.min .pinf = .pinf) ∨ ∃ m, IsLeast {r | r ∈ l} m ∧ (l.map XR.fin).foldl XR.min .pinf = .fin m := by
  cases l with
  | nil => exact .inl ⟨rfl, rfl⟩
  | cons a l =>
    right
    have h0 : ((a :: l).map XR.fin).foldl XR.min .pinf = (l.map XR.fin).foldl XR.min (.fin a) := rfl
    rw [h0]
    clear h0
    induction l generalizing a with
    | nil => exact ⟨a, ⟨by simp, fun r hr => by simp at hr; exact hr.ge⟩, rfl⟩
    | cons b l ih =>
      obtain ⟨m, ⟨hm, hl⟩, e⟩ := ih (Min.min a b)
      refine ⟨m, ⟨?_, ?_⟩, e⟩
      · simp only [Set.mem_ofPred_eq, List.mem_cons] at hm ⊢
        rcases hm with rfl | hm
        · rcases min_choice a b with h | h
          · exact .inl h
          · exact .inr (.inl h)
        · exact .inr (.inr hm)
      · intro r hr
        simp only [Set.mem_ofPred_eq, List.mem_cons] at hr
        have hmin : m ≤ Min.min a b := hl (by simp)
        rcases hr with rfl | rfl | hr
        · exact hmin.trans (min_le_left _ _)
        · exact hmin.trans (min_le_right _ _)
        · exact hl (by simp [hr])

theorem pyMin_pinf_fin (m : ℝ) : XR.pyMin .pinf (.fin m) = .fin m := by simp [XR.pyMin, XR.lt]
theorem pyMin_pinf_pinf : XR.pyMin .pinf .pinf = .pinf := by simp [XR.pyMin]
theorem pyMin_fin_pinf (m : ℝ) : XR.pyMin (.fin m) .pinf = .fin m := by simp [XR.pyMin, XR.lt]
theorem pyMin_fin_fin (a b : ℝ) : XR.pyMin (.fin a) (.fin b) = .fin (Min.min a b) := by
  rw [XR.pyMin]
  by_cases h : b < a
  · rw [if_pos (show XR.lt (.fin b) (.fin a) from h), min_eq_right h.le]
  · rw [if_neg (show ¬ XR.lt (.fin b) (.fin a) from h), min_eq_left (not_lt.mp h)]

/-- The least value of the union. -/
theorem minV_step {S : Stream d} {x : Pt d} {c : ℤ} {v : XR} (hS : InOrder (S ++ [(x, c)]))
    (hv : (numClusters S ≤ 1 ∧ v = .pinf) ∨ ∃ m, IsLeast (histSep S) m ∧ v = .fin m) :
    let S' := S ++ [(x, c)]
    let w := XR.pyMin v ((((List.range (numClusters S')).filter fun j : ℕ => decide ((j : ℤ) ≠ c)).map
      fun j : ℕ => XR.fin (dist2 (centroid S' c) (centroid S' j))).foldl XR.min .pinf)
    (numClusters S' ≤ 1 ∧ w = .pinf) ∨ ∃ m, IsLeast (histSep S') m ∧ w = .fin m := by
  intro S' w
  have hcon := hS.consecutive
  set js := (List.range (numClusters S')).filter fun j : ℕ => decide ((j : ℤ) ≠ c) with hjs
  set l : List ℝ := js.map fun j : ℕ => dist2 (centroid S' c) (centroid S' j) with hl
  have hw : w = XR.pyMin v ((l.map XR.fin).foldl XR.min .pinf) := by
    simp only [w, hl, List.map_map]
    rfl
  have hset : {r | r ∈ l} = otherValues S' c fun b => sep S' c b := by
    ext r
    simp only [Set.mem_ofPred_eq, hl, hjs, List.mem_map, List.mem_filter, List.mem_range, decide_eq_true_eq, otherValues]
    constructor
    · rintro ⟨j, ⟨hj, hjc⟩, rfl⟩
      exact ⟨j, (hcon j).mpr ⟨by omega, by exact_mod_cast hj⟩, hjc, rfl⟩
    · rintro ⟨b, hb, hbc, rfl⟩
      obtain ⟨h0, h1⟩ := (hcon b).mp hb
      have e : ((b.toNat : ℕ) : ℤ) = b := by omega
      exact ⟨b.toNat, ⟨by change b < (numClusters S' : ℤ) at h1; omega, by rw [e]; exact hbc⟩, by rw [e]; rfl⟩
  have hstep : histSep S' = histSep S ∪ {r | r ∈ l} := by rw [hset]; exact histSep_step S x c
  rw [hw]
  rcases foldl_min_pinf l with ⟨hnil, hm⟩ | ⟨m, hm, e⟩
  · rw [hm]
    rcases hv with ⟨hk, rfl⟩ | ⟨n, hn, rfl⟩
    · left
      refine ⟨?_, pyMin_pinf_pinf⟩
      by_contra hk'
      have hc : c ∈ labels S' := by simp only [S', labels_append]; exact Finset.mem_insert_self _ _
      obtain ⟨b, hb, hbc⟩ := Finset.exists_mem_ne (by rw [numClusters] at hk'; omega : 1 < (labels S').card) c
      have : dist2 (centroid S' c) (centroid S' b) ∈ ({r | r ∈ l} : Set ℝ) := by
        rw [hset]; exact ⟨b, hb, hbc, rfl⟩
      rw [hnil] at this
      simp at this
    · right
      refine ⟨n, ?_, pyMin_fin_pinf n⟩
      rw [hstep, hnil]
      simpa using hn
  · rw [e]
    right
    rcases hv with ⟨hk, rfl⟩ | ⟨n, hn, rfl⟩
    · refine ⟨m, ?_, pyMin_pinf_fin m⟩
      rw [hstep, histSep_empty hk, Set.empty_union]
      exact hm
    · refine ⟨Min.min n m, ?_, pyMin_fin_fin n m⟩
      rw [hstep]
      exact hn.union hm

/-! ## One update -/

theorem XB.value_rep {S : Stream d} {v : XR} (hS : S ≠ [])
    (hv : (numClusters S ≤ 1 ∧ v = .pinf) ∨ ∃ m, IsLeast (histSep S) m ∧ v = .fin m) :
    XR.fin (Spec.WGSS S) / .fin (S.length : ℝ) / v = histXB S := by
  have hl : (S.length : ℝ) ≠ 0 := by
    have := List.length_pos_iff.mpr hS
    positivity
  rw [XR.fin_div_of_ne _ hl, histXB]
  rcases hv with ⟨hk, rfl⟩ | ⟨m, hm, rfl⟩
  · rw [if_pos hk]; rfl
  · have hk : ¬ numClusters S ≤ 1 := fun hk => by
      have := hm.1
      rw [histSep_empty hk] at this
      exact this
    rw [if_neg hk, hm.csInf_eq, ratio, XR.fin_div, XR.idiv]
    by_cases h0 : m = 0
    · subst h0
      rw [if_pos rfl, if_neg (by simp), XR.infOfSign]
      by_cases hw : Spec.WGSS S = 0
      · simp [hw]
      · have hpos : 0 < Spec.WGSS S := lt_of_le_of_ne (WGSS_nonneg S) (Ne.symm hw)
        have hlp : (0 : ℝ) < S.length := lt_of_le_of_ne (by positivity) (Ne.symm hl)
        rw [if_pos (div_pos hpos hlp), if_pos hw]
    · rw [if_neg h0, if_pos (mul_ne_zero hl h0), div_div]

theorem XB.step {S : Stream d} {s : XB} {x : Pt d} {c : ℤ} (hS : InOrder (S ++ [(x, c)])) (h : XB.Rep S s) :
    ∃ s', XB.update (enc x) c s = .ok (histXB (S ++ [(x, c)])) s' ∧ XB.Rep (S ++ [(x, c)]) s' := by
  obtain ⟨minV, minVi, N, W, Wi, out, cen, siz, g⟩ := s
  obtain ⟨hN, hsz, hcen, hWi, hW, hmvi, hmv, hg⟩ := h
  simp only at hN hsz hcen hWi hW hmvi hmv hg
  subst hN hsz hcen hWi hW
  have hmv' := minV_step hS hmv
  simp only at hmv'
  set S' := S ++ [(x, c)] with hS'
  have hne : S' ≠ [] := by simp [hS']
  have hlen : ((S.length + 1 : ℕ) : ℝ) = (S'.length : ℝ) := by simp [hS']
  have hval := XB.value_rep hne hmv'
  rcases hS.cases with ⟨hc, h0, h1⟩ | ⟨hc, hk⟩
  · -- a known cluster
    have hnum : numClusters S' = numClusters S := numClusters_old hc
    have e1 : ¬ c = (numClusters S : ℤ) := by omega
    have e2 : ¬ c > (numClusters S : ℤ) := by omega
    have hcp := cpUpdate_two x (centroid S c) (size S c) hg (scatter S c) (w := centroid S' c) fun i => centroid_append_self S x c i
    have hsc : scatter S c + dist2 x (centroid S' c) + size S c * dist2 (centroid S c) (centroid S' c) = scatter S' c :=
      (scatter_append_old S x hc).symm
    rw [hsc] at hcp
    have s1 : setAt (tab (numClusters S) fun a => XR.fin (scatter S a)) c (.fin (scatter S' c))
        = .ok (tab (numClusters S) fun a => XR.fin (scatter S' a)) :=
      setAt_tab h0 h1 rfl fun b _ _ hb => by simp [hS', scatter_append_ne S x hb]
    have s2 : setAt (tab (numClusters S) fun a => enc (centroid S a)) c (enc (centroid S' c))
        = .ok (tab (numClusters S) fun a => enc (centroid S' a)) :=
      setAt_tab h0 h1 rfl fun b _ _ hb => by simp [hS', centroid_append_ne S x hb]
    have s3 : setAt (tab (numClusters S) (size S)) c (size S c + 1) = .ok (tab (numClusters S) (size S')) :=
      setAt_tab h0 h1 (size_append_self S x c) fun b _ _ hb => size_append_ne S x hb
    have hi : pyIdx minVi.length c = some c.toNat := pyIdx_mem h0 (by rw [hmvi]; exact h1)
    have hi' : ∀ y, pyIdx (minVi.set c.toNat y).length c = some c.toNat := fun y => by rw [List.length_set]; exact hi
    rw [hnum] at hmv' hval
    set mc := (((List.range (numClusters S)).filter fun j : ℕ => decide ((j : ℤ) ≠ c)).map
      fun j : ℕ => XR.fin (dist2 (centroid S' c) (centroid S' j))).foldl XR.min .pinf with hmc
    refine ⟨⟨XR.pyMin minV mc, (minVi.set c.toNat .pinf).set c.toNat mc, S.length + 1, .fin (Spec.WGSS S'),
      tab (numClusters S) fun a => .fin (scatter S' a), histXB S', tab (numClusters S) fun a => enc (centroid S' a),
      tab (numClusters S) (size S'), some (enc fun _ : Fin d => 0)⟩, ?_, ?_⟩
    · simp only [XB.update, bind_apply, get_apply, modify_apply, Res.bind_ok, ite_app, tab_length, if_neg e1, if_neg e2,
        getAt_tab _ h0 h1, lift_ok, hcp, s1, s2, s3, setAt_isOk _ hi, setAt_isOk _ (hi' _), sepList_tab h0 h1, pure_apply]
      rw [XR.fin_sub, XR.fin_add, ← WGSS_old hc, hlen]
      rw [hval]
    · constructor <;> simp only [hnum]
      · simp [hS']
      · simpa using hmvi
      · exact hmv'
      · exact .inr rfl
  · -- a new cluster
    subst hk
    have hnum : numClusters S' = numClusters S + 1 := numClusters_new hc
    have h0 : (0 : ℤ) ≤ (numClusters S : ℤ) := by omega
    have h1 : (numClusters S : ℤ) < ((numClusters S + 1 : ℕ) : ℤ) := by push_cast; omega
    have hold : ∀ b : ℤ, b < (numClusters S : ℤ) → b ≠ (numClusters S : ℤ) := fun b hb => by omega
    have s1 : (tab (numClusters S) fun a => XR.fin (scatter S a)) ++ [(0 : XR)]
        = tab (numClusters S + 1) fun a => XR.fin (scatter S' a) :=
      tab_append (by simp [hS', scatter_append_new S x hc, XR.zero_def])
        fun b _ hb => by simp [hS', scatter_append_ne S x (hold b hb)]
    have s2 : (tab (numClusters S) fun a => enc (centroid S a)) ++ [enc x]
        = tab (numClusters S + 1) fun a => enc (centroid S' a) :=
      tab_append (by simp [hS', centroid_append_new S x hc])
        fun b _ hb => by simp [hS', centroid_append_ne S x (hold b hb)]
    have s3 : (tab (numClusters S) (size S)) ++ [1] = tab (numClusters S + 1) (size S') :=
      tab_append (size_append_new S x hc) fun b _ hb => size_append_ne S x (hold b hb)
    have hi : pyIdx (minVi ++ [XR.pinf]).length (numClusters S : ℤ) = some (numClusters S : ℤ).toNat :=
      pyIdx_mem h0 (by simp [hmvi])
    have hi' : ∀ y, pyIdx ((minVi ++ [XR.pinf]).set (numClusters S : ℤ).toNat y).length (numClusters S : ℤ)
        = some (numClusters S : ℤ).toNat := fun y => by rw [List.length_set]; exact hi
    rw [hnum] at hmv' hval
    set mc := (((List.range (numClusters S + 1)).filter fun j : ℕ => decide ((j : ℤ) ≠ numClusters S)).map
      fun j : ℕ => XR.fin (dist2 (centroid S' (numClusters S)) (centroid S' j))).foldl XR.min .pinf with hmc
    refine ⟨⟨XR.pyMin minV mc, ((minVi ++ [XR.pinf]).set (numClusters S : ℤ).toNat .pinf).set (numClusters S : ℤ).toNat mc, S.length + 1, .fin (Spec.WGSS S'),
      tab (numClusters S + 1) fun a => .fin (scatter S' a), histXB S', tab (numClusters S + 1) fun a => enc (centroid S' a),
      tab (numClusters S + 1) (size S'), g⟩, ?_, ?_⟩
    · simp only [XB.update, bind_apply, get_apply, modify_apply, Res.bind_ok, ite_app, tab_length, if_true, s1, s2, s3,
        getAt_tab _ h0 h1, lift_ok, setAt_isOk _ hi, setAt_isOk _ (hi' _), sepList_tab h0 h1, pure_apply]
      rw [XR.fin_add, show scatter S' (numClusters S : ℤ) = 0 from scatter_append_new S x hc, add_zero, ← WGSS_new (x := x) hc, hlen]
      rw [hval]
    · constructor <;> simp only [hnum]
      · simp [hS']
      · simpa using hmvi
      · exact hmv'
      · exact hg

/-- Every stream in order is accepted, and this is what each update returns. -/
theorem XB.run {S : Stream d} (hS : InOrder S) :
    ∃ s, feed XB.update (encS S) XB.init = .ok ((List.range S.length).map fun i => histXB (S.take (i + 1))) s ∧ XB.Rep S s := by
  induction S using List.reverseRecOn with
  | nil =>
    refine ⟨XB.init, rfl, ?_⟩
    constructor <;> simp [XB.init, numClusters, labels, tab, rangeKeys, Spec.WGSS, XR.zero_def, ZeroG]
  | append_singleton S p ih =>
    obtain ⟨x, c⟩ := p
    obtain ⟨s, hf, hr⟩ := ih hS.prefix
    obtain ⟨s', hu, hr'⟩ := XB.step hS hr
    refine ⟨s', ?_, hr'⟩
    have := feed_append XB.update (encS S) (enc x, c) hf hu
    rw [show encS (S ++ [(x, c)]) = encS S ++ [(enc x, c)] by simp [encS], this]
    congr 1
    rw [List.length_append, List.length_singleton, List.range_succ, List.map_append]
    congr 1
    · refine List.map_congr_left fun i hi => ?_
      rw [List.take_append_of_le_length (by have := List.mem_range.mp hi; omega)]
    · simp [List.take_of_length_le]

/-! ## The history and the present -/

theorem pairValues_subset_hist (S : Stream d) : pairValues S (sep S) ⊆ histSep S := fun _ hr => ⟨S, List.prefix_rfl, hr⟩

theorem pairs_nonempty {S : Stream d} (h : ¬ numClusters S ≤ 1) : (pairValues S (sep S)).Nonempty := by
  obtain ⟨a, ha, b, hb, hab⟩ := Finset.one_lt_card.mp (by rw [numClusters] at h; omega : 1 < (labels S).card)
  exact ⟨_, a, ha, b, hb, hab, rfl⟩

theorem hist_bddBelow (S : Stream d) : BddBelow (histSep S) :=
  ⟨0, by rintro _ ⟨P, -, a, -, b, -, -, rfl⟩; exact dist2_nonneg _ _⟩

theorem hist_le (S : Stream d) (h : ¬ numClusters S ≤ 1) : sInf (histSep S) ≤ sInf (pairValues S (sep S)) :=
  csInf_le_csInf (hist_bddBelow S) (pairs_nonempty h) (pairValues_subset_hist S)

theorem hist_nonneg (S : Stream d) : 0 ≤ sInf (histSep S) :=
  Real.sInf_nonneg (by rintro _ ⟨P, -, a, -, b, -, -, rfl⟩; exact dist2_nonneg _ _)

end Verif.V0
