import Verif.Proofs.Sim
import Verif.Proofs.Extrema
import Verif.Model.DB

/-! # DB refines its specification -/

namespace Verif.DB
open Spec Py Verif

variable {d : ℕ}

/-- The object after the samples `S`. -/
structure Rep (S : Stream d) (s : Core) : Prop extends RepMu S s where
  D : s.D = sqMat (keys S) fun a b => .fin (sep S a b)
  Sv : s.Sv = ⟨false, (keys S).map fun c => XR.fin (meanScatter S c)⟩

theorem start {S : Stream d} {s : Core} (x : Pt d) (c : ℤ) (h : Start Core.init Rep S s) :
    s.nSamples = S.length ∧ ∃ s', setupOrMu setup (enc x) s = .ok () s' ∧ MidMu S x c s' ∧
      (keys S ≠ [] → s'.D = sqMat (keys S) fun a b => .fin (sep S a b)) ∧
      s'.Sv = ⟨false, (keys S).map fun c => XR.fin (meanScatter S c)⟩ := by
  rcases h with ⟨rfl, rfl⟩ | ⟨hne, h⟩
  · refine ⟨rfl, _, rfl, mid_of_init ?_ rfl rfl ?_ rfl ?_ rfl rfl, fun h => absurd rfl h, rfl⟩ <;> simp
  · obtain ⟨h1, h2⟩ := mid_of_mu (setupC := setup) hne x c h.toRepMu
    exact ⟨h.nSamples, _, h1, h2, fun _ => h.D, h.Sv⟩

theorem dist_rep {S : Stream d} {s : Core} {b : Bool} {ks : List ℤ} {a : ℤ} (nv : RepNV b ks S s) (w : Pt d)
    (ha : a ∈ ks) : dist s (enc w) (ks.idxOf a) = .ok (.fin (dist2 w (centroid S a))) := by
  simp only [dist, nv.v, row_rep ha, except_bind_ok, sqDist_enc]

theorem meanScatter_append_ne (S : Stream d) (x : Pt d) {c a : ℤ} (h : a ≠ c) :
    meanScatter (S ++ [(x, c)]) a = meanScatter S a := by
  simp only [meanScatter, scatter_append_ne S x h, size_append_ne S x h]

theorem appendS_rep {s : Core} {ks : List ℤ} {c : ℤ} {f f' : ℤ → XR} {x : XR}
    (hc : c ∉ ks) (h : s.Sv = ⟨false, ks.map f⟩) (hx : x = f' c) (hf : ∀ a ∈ ks, a ≠ c → f' a = f a) :
    appendS x s = .ok () { s with Sv := ⟨false, (ks ++ [c]).map f'⟩ } := by
  simp only [appendS, bind_apply, get_apply, Res.bind_ok, h, Seq.append, map_append_new hc f f' x hx hf]
  rfl

theorem setS_rep {s : Core} {b : Bool} {ks : List ℤ} {c : ℤ} {f f' : ℤ → XR} {x : XR}
    (hn : ks.Nodup) (hc : c ∈ ks) (h : s.Sv = ⟨b, ks.map f⟩) (hx : x = f' c) (hf : ∀ a ∈ ks, a ≠ c → f' a = f a) :
    setS (ks.idxOf c) x s = .ok () { s with Sv := ⟨b, ks.map f'⟩ } := by
  have hl := List.idxOf_lt_length_of_mem hc
  simp [setS, h, Seq.set, hl, map_set hn f f' x hx hf]

theorem branch {S : Stream d} {s : Core} {x : Pt d} {c : ℤ} (h : MidMu S x c s)
    (hD : keys S ≠ [] → s.D = sqMat (keys S) fun a b => .fin (sep S a b))
    (hS : s.Sv = ⟨false, (keys S).map fun c => XR.fin (meanScatter S c)⟩) :
    (if ((keys S).idxOf c : ℤ) > (s.nClusters : ℤ) - 1 then incNew (enc x) ((keys S).idxOf c)
      else incOld (enc x) ((keys S).idxOf c)) s =
      .ok () { tabled false (keys (S ++ [(x, c)])) (S ++ [(x, c)]) s with
        D := sqMat (keys (S ++ [(x, c)])) fun a b => .fin (sep (S ++ [(x, c)]) a b)
        Sv := ⟨false, (keys (S ++ [(x, c)])).map fun c' => XR.fin (meanScatter (S ++ [(x, c)]) c')⟩ } := by
  rw [keys_append]
  by_cases hc : c ∈ keys S
  · rw [if_neg (by rw [isNew_iff h.nv.k]; simpa using hc), addKey_old hc, incOld]
    refine get_bind (lift_bind (oldStats_rep x (keysOf_keys S) hc h.nv h.cp h.g) ?_)
    refine lift_bind (a := (keys S).map fun a => if a = c then 0 else
      .fin (dist2 (centroid (S ++ [(x, c)]) c) (centroid S a))) ?_ ?_
    · rw [h.nv.k]
      exact columnOld_keys (keys_nodup S) fun a ha _ => dist_rep h.nv _ ha
    · rw [set_tables (x := x) (keysOf_keys S) hc h.nv h.cp h.g]
      refine bind_ok_of (setS_rep (keys_nodup S) hc hS (f' := fun a => XR.fin (meanScatter (S ++ [(x, c)]) a))
        ?_ fun a _ ha => by rw [meanScatter_append_ne S x ha]) ?_
      · rw [meanScatter, XR.fin_div_of_ne]
        rw [size_append_self]; positivity
      refine setD_rep (keys_nodup S) hc (hD (List.ne_nil_of_mem hc)) ?_ ?_ ?_
      · intro a ha
        by_cases e : a = c
        · subst e; simp [sep, dist2_self, XR.zero_def]
        · simp [e, sep, centroid_append_ne S x e]
      · intro a ha
        by_cases e : a = c
        · subst e; simp [sep, dist2_self, XR.zero_def]
        · simp [e, sep, centroid_append_ne S x e, dist2_comm]
      · intro a _ b _ ha hb
        simp [sep, centroid_append_ne S x ha, centroid_append_ne S x hb]
  · have hcl : c ∉ labels S := fun h => hc (mem_keys.mpr h)
    rw [if_pos (by rw [isNew_iff h.nv.k]; exact hc), addKey_new hc, incNew]
    refine get_bind (lift_bind (a := sqMat (keys S ++ [c]) fun a b => .fin (sep (S ++ [(x, c)]) a b)) ?_ ?_)
    · rw [h.nv.k, List.idxOf_eq_length hc]
      refine distNew_sqMat (keys_nodup S) hc hD ?_ ?_ ?_ ?_
      · intro a ha
        have e : a ≠ c := fun e => hc (e ▸ ha)
        rw [dist_rep h.nv _ ha, sep, centroid_append_new S x hcl, centroid_append_ne S x e]
      · intro a _; rw [sep_comm]
      · simp [sep, dist2_self, XR.zero_def]
      · intro a ha b hb
        have ea : a ≠ c := fun e => hc (e ▸ ha)
        have eb : b ≠ c := fun e => hc (e ▸ hb)
        simp [sep, centroid_append_ne S x ea, centroid_append_ne S x eb]
    · refine modify_bind ?_
      refine bind_ok_of (appendN_rep hc h.nv.n (f' := size (S ++ [(x, c)])) (size_append_new S x hcl).symm
        fun a _ ha => size_append_ne S x ha) ?_
      refine bind_ok_of (appendCP_rep hc h.cp (f' := fun a => XR.fin (scatter (S ++ [(x, c)]) a))
        (by rw [scatter_append_new S x hcl]; rfl) fun a _ ha => by rw [scatter_append_ne S x ha]) ?_
      refine bind_ok_of (appendS_rep hc hS (f' := fun a => XR.fin (meanScatter (S ++ [(x, c)]) a))
        (by rw [meanScatter, scatter_append_new S x hcl, zero_div]; rfl)
        fun a _ ha => by rw [meanScatter_append_ne S x ha]) ?_
      refine bind_ok_of (vstackV_rep hc h.nv.v (f' := fun a => enc (centroid (S ++ [(x, c)]) a))
        (by rw [centroid_append_new S x hcl]) (by simp) fun a _ ha => by rw [centroid_append_ne S x ha]) ?_
      refine bind_ok_of (vstackG_rep hc h.g (f' := fun _ => enc (fun _ : Fin d => 0)) (by rw [h.nv.dim, zeros_eq_enc])
        (by simp [h.nv.dim, zeros_eq_enc]) fun _ _ _ => rfl) ?_
      simp [tabled, h.nv.k]

theorem step (S : Stream d) (s : Core) (x : Pt d) (c : ℤ) (h : Start DBmod.init Rep S s) :
    ∃ s', incBody (enc x) ((keys S).idxOf c) s = .ok () s' ∧ Rep (S ++ [(x, c)]) s' := by
  obtain ⟨hn, s1, h1, hm, hD, hS⟩ := start x c h
  refine ⟨_, get_bind (bind_ok_of h1 (get_bind (bind_ok_of (branch hm hD hS) rfl))), ?_⟩
  refine ⟨⟨⟨hm.nv.dim, rfl, rfl, rfl⟩, rfl, rfl, ?_, hm.mu, hm.isSetup⟩, rfl, rfl⟩
  simp [hn]

/-! ## Evaluation -/

/-- Entry of `_R`. -/
noncomputable def entry (S : Stream d) (a b : ℤ) : XR :=
  if a = b then 0 else Spec.ratio (meanScatter S a + meanScatter S b) (sep S a b)

theorem ratios_rep {S : Stream d} {s : Core} {b : Bool} {ks : List ℤ} (hks : KeysOf ks S) (hk : s.nClusters = ks.length)
    (hD : ∀ a ∈ ks, ∀ b ∈ ks, a ≠ b → s.D.get (ks.idxOf a) (ks.idxOf b) = .ok (.fin (sep S a b)))
    (hS : s.Sv = ⟨b, ks.map fun c => XR.fin (meanScatter S c)⟩) :
    ratios s = .ok (sqMat ks (entry S)) := by
  have hf : ∀ i j, i < j → j < ks.length → ratio s i j =
      .ok (Spec.ratio (meanScatter S (ks.getD i 0) + meanScatter S (ks.getD j 0)) (sep S (ks.getD i 0) (ks.getD j 0))) := by
    intro i j hij hj
    have hi := hij.trans hj
    have ei : ks.idxOf ks[i] = i := hks.nodup.idxOf_getElem i hi
    have ej : ks.idxOf ks[j] = j := hks.nodup.idxOf_getElem j hj
    have hne : ks[j] ≠ ks[i] := by
      intro e
      have := (List.Nodup.getElem_inj_iff hks.nodup).mp e
      omega
    have hd := hD ks[j] (List.getElem_mem _) ks[i] (List.getElem_mem _) hne
    rw [ei, ej] at hd
    have g1 : s.Sv.get i = .ok (.fin (meanScatter S ks[i])) := by
      have := get_rep (b := b) (f := fun c => XR.fin (meanScatter S c)) (List.getElem_mem hi)
      rw [ei] at this; rw [hS, this]
    have g2 : s.Sv.get j = .ok (.fin (meanScatter S ks[j])) := by
      have := get_rep (b := b) (f := fun c => XR.fin (meanScatter S c)) (List.getElem_mem hj)
      rw [ej] at this; rw [hS, this]
    have e1 : ks.getD i 0 = ks[i] := by simp [hi]
    have e2 : ks.getD j 0 = ks[j] := by simp [hj]
    rw [ratio, g1, except_bind_ok, g2, except_bind_ok, hd, except_bind_ok, XR.fin_add,
      ratio_eq (add_nonneg (meanScatter_nonneg _ _) (meanScatter_nonneg _ _)), except_pure, e1, e2, sep_comm]
  obtain ⟨U, hU, _, _, h4⟩ := symmetrise (ks := ks) hks.nodup
    (f := fun i j => .ok (Spec.ratio (meanScatter S (ks.getD i 0) + meanScatter S (ks.getD j 0))
      (sep S (ks.getD i 0) (ks.getD j 0))))
    (g := fun a b => Spec.ratio (meanScatter S a + meanScatter S b) (sep S a b))
    (by
      intro a ha b hb
      have h1 := List.idxOf_lt_length_of_mem ha
      have h2 := List.idxOf_lt_length_of_mem hb
      have e1 : ks.getD (ks.idxOf a) 0 = a := by simp [h1]
      have e2 : ks.getD (ks.idxOf b) 0 = b := by simp [h2]
      rw [e1, e2])
    (by intro a _ b _; rw [sep_comm, add_comm])
  have hU' : Arr2.upperTri s.nClusters (ratio s) = .ok U := by
    rw [hk, ← hU, upperTri_ok hf]
    symm
    exact upperTri_ok fun _ _ _ _ => rfl
  rw [ratios, hU', except_bind_ok, h4]
  rfl

theorem sum_pinf {l : List XR} (h : ∀ x ∈ l, (∃ r, x = XR.fin r) ∨ x = .pinf) (hp : XR.pinf ∈ l) : l.sum = .pinf := by
  have key : ∀ l : List XR, (∀ x ∈ l, (∃ r, x = XR.fin r) ∨ x = .pinf) → (∃ r, l.sum = XR.fin r) ∨ l.sum = .pinf := by
    intro l
    induction l with
    | nil => intro _; exact Or.inl ⟨0, rfl⟩
    | cons a l ih =>
      intro h
      rw [List.sum_cons]
      rcases h a (by simp) with ⟨r, rfl⟩ | rfl <;> rcases ih fun x hx => h x (by simp [hx]) with ⟨q, e⟩ | e <;> rw [e]
      · exact Or.inl ⟨_, rfl⟩
      all_goals exact Or.inr rfl
  induction l with
  | nil => simp at hp
  | cons a l ih =>
    rw [List.sum_cons]
    have hl : ∀ x ∈ l, (∃ r, x = XR.fin r) ∨ x = .pinf := fun x hx => h x (by simp [hx])
    rcases List.mem_cons.mp hp with e | e
    · rw [← e]
      rcases key l hl with ⟨r, e⟩ | e <;> rw [e] <;> rfl
    · rw [ih hl e]
      rcases h a (by simp) with ⟨r, rfl⟩ | rfl <;> rfl

theorem ratio_nan {a b : ℝ} : Spec.ratio a b = .nan ↔ b = 0 ∧ a = 0 := by
  unfold Spec.ratio
  by_cases hb : b = 0 <;> by_cases ha : a = 0 <;> simp [ha, hb]

theorem ratio_pinf {a b : ℝ} : Spec.ratio a b = .pinf ↔ b = 0 ∧ a ≠ 0 := by
  unfold Spec.ratio
  by_cases hb : b = 0 <;> by_cases ha : a = 0 <;> simp [ha, hb]

theorem ratio_fin {a b : ℝ} (hb : b ≠ 0) : Spec.ratio a b = .fin (a / b) := if_pos hb

/-- `np.max` of a column of `_R`. -/
noncomputable def colMax (S : Stream d) (ks : List ℤ) (c : ℤ) : XR :=
  if ∃ b ∈ ks, b ≠ c ∧ sep S b c = 0 ∧ meanScatter S b + meanScatter S c = 0 then .nan
  else if ∃ b ∈ ks, b ≠ c ∧ sep S b c = 0 then .pinf
  else .fin (sSup (otherValues S c fun b => (meanScatter S c + meanScatter S b) / sep S c b))

theorem amax_col {S : Stream d} {ks : List ℤ} (hks : KeysOf ks S) (hk : 1 < ks.length) {c : ℤ} (hc : c ∈ ks) :
    Vec.amax (ks.map fun a => entry S a c) = .ok (colMax S ks c) := by
  unfold colMax
  split
  · rename_i h
    obtain ⟨b, hb, hbc, h1, h2⟩ := h
    apply amax_nan
    refine List.mem_map.mpr ⟨b, hb, ?_⟩
    rw [entry, if_neg hbc, ratio_nan]
    exact ⟨h1, h2⟩
  · rename_i hnan
    split
    · rename_i h
      obtain ⟨b, hb, hbc, h1⟩ := h
      apply amax_pinf
      · intro hmem
        obtain ⟨a, ha, e⟩ := List.mem_map.mp hmem
        by_cases hac : a = c
        · rw [entry, if_pos hac] at e; exact absurd e (XR.fin_ne_nan 0)
        · rw [entry, if_neg hac, ratio_nan] at e
          exact hnan ⟨a, ha, hac, e⟩
      · refine List.mem_map.mpr ⟨b, hb, ?_⟩
        rw [entry, if_neg hbc, ratio_pinf]
        exact ⟨h1, fun e => hnan ⟨b, hb, hbc, h1, e⟩⟩
    · rename_i hpinf
      have hsep : ∀ a ∈ ks, a ≠ c → sep S a c ≠ 0 := fun a ha hac e => hpinf ⟨a, ha, hac, e⟩
      have hval : ∀ a ∈ ks, a ≠ c → entry S a c = .fin ((meanScatter S c + meanScatter S a) / sep S c a) := by
        intro a ha hac
        rw [entry, if_neg hac, ratio_fin (hsep a ha hac), sep_comm, add_comm]
      rw [amax_fin]
      · congr 2
        have : {r | XR.fin r ∈ ks.map fun a => entry S a c} =
            insert 0 (otherValues S c fun b => (meanScatter S c + meanScatter S b) / sep S c b) := by
          ext r
          simp only [Set.mem_ofPred_eq, List.mem_map, Set.mem_insert_iff, otherValues, ← hks.mem]
          constructor
          · rintro ⟨a, ha, e⟩
            by_cases hac : a = c
            · rw [entry, if_pos hac] at e; exact Or.inl (XR.fin.inj e).symm
            · rw [hval a ha hac] at e; exact Or.inr ⟨a, ha, hac, (XR.fin.inj e).symm⟩
          · rintro (rfl | ⟨b, hb, hbc, rfl⟩)
            · exact ⟨c, hc, by simp [entry, XR.zero_def]⟩
            · exact ⟨b, hb, hval b hb hbc⟩
        have hne := otherValues_nonempty (hks.length ▸ hk) c
          (fun b => (meanScatter S c + meanScatter S b) / sep S c b)
        have hbdd := (otherValues_finite S c (fun b => (meanScatter S c + meanScatter S b) / sep S c b)).bddAbove
        rw [this, csSup_insert hbdd hne]
        apply sup_eq_right.mpr
        obtain ⟨r, hr⟩ := hne
        refine le_trans ?_ (le_csSup hbdd hr)
        obtain ⟨b, _, _, rfl⟩ := hr
        exact div_nonneg (add_nonneg (meanScatter_nonneg _ _) (meanScatter_nonneg _ _)) (sep_nonneg _ _ _)
      · intro e; rw [List.map_eq_nil_iff] at e; subst e; simp at hc
      · intro y hy
        obtain ⟨a, ha, rfl⟩ := List.mem_map.mp hy
        by_cases hac : a = c
        · exact ⟨0, by simp [entry, hac, XR.zero_def]⟩
        · exact ⟨_, hval a ha hac⟩

theorem value_rep {S : Stream d} {ks : List ℤ} (hks : KeysOf ks S) (hk : 1 < ks.length) :
    (ks.map (colMax S ks)).sum / .fin (ks.length : ℝ) = Spec.DB S := by
  have hkn := hks.length
  have hk0 : (ks.length : ℝ) ≠ 0 := by positivity
  rw [Spec.DB, if_neg (by omega)]
  simp only [← hks.mem]
  split
  · rename_i h
    obtain ⟨a, ha, b, hb, hab, h1, h2⟩ := h
    rw [XR.sum_eq_nan, XR.nan_div]
    refine List.mem_map.mpr ⟨b, hb, ?_⟩
    rw [colMax, if_pos ⟨a, ha, hab, h1, h2⟩]
  · rename_i hnan
    have hnn : ∀ c ∈ ks, ¬ ∃ b ∈ ks, b ≠ c ∧ sep S b c = 0 ∧ meanScatter S b + meanScatter S c = 0 := by
      rintro c hc ⟨b, hb, hbc, h⟩
      exact hnan ⟨b, hb, c, hc, hbc, h⟩
    split
    · rename_i h
      obtain ⟨a, ha, b, hb, hab, h1⟩ := h
      rw [sum_pinf]
      · show (if _ then _ else _) = _
        rw [if_neg (by simp)]
      · intro x hx
        obtain ⟨c, hc, rfl⟩ := List.mem_map.mp hx
        rw [colMax, if_neg (hnn c hc)]
        split
        · exact Or.inr rfl
        · exact Or.inl ⟨_, rfl⟩
      · refine List.mem_map.mpr ⟨b, hb, ?_⟩
        rw [colMax, if_neg (hnn b hb), if_pos ⟨a, ha, hab, h1⟩]
    · rename_i hp
      have : ks.map (colMax S ks) = ks.map fun c =>
          XR.fin (sSup (otherValues S c fun b => (meanScatter S c + meanScatter S b) / sep S c b)) := by
        apply List.map_congr_left
        intro c hc
        rw [colMax, if_neg (hnn c hc), if_neg]
        rintro ⟨b, hb, hbc, h⟩
        exact hp ⟨b, hb, c, hc, hbc, h⟩
      rw [this, hks.sumX, XR.fin_div_of_ne _ hk0, hkn]

/-- The value computed from the tables. -/
theorem evaluate_rep {S : Stream d} {s : Core} {b : Bool} {ks : List ℤ} (hks : KeysOf ks S) (hk : s.nClusters = ks.length)
    (hD : ∀ a ∈ ks, ∀ b ∈ ks, a ≠ b → s.D.get (ks.idxOf a) (ks.idxOf b) = .ok (.fin (sep S a b)))
    (hS : s.Sv = ⟨b, ks.map fun c => XR.fin (meanScatter S c)⟩) :
    ∃ R, evaluate s = .ok () { s with R := R, criterion := Spec.DB S } := by
  rw [evaluate, bind_apply, get_apply, Res.bind_ok]
  have hkn := hks.length
  by_cases h : s.nClusters > 1
  · refine ⟨sqMat ks (entry S), ?_⟩
    rw [if_pos h]
    refine lift_bind (ratios_rep hks hk hD hS) (modify_bind (lift_bind (a := ks.map (colMax S ks)) ?_ ?_))
    · rw [sqMat_cols]
      apply mapE_range_keys hks.nodup
      intro c hc
      rw [sqMat_col hc, except_bind_ok, amax_col hks (by omega) hc]
    · simp only [modify_apply, hk, value_rep hks (hk ▸ h)]
  · refine ⟨s.R, ?_⟩
    rw [if_neg h, modify_apply, Spec.DB, if_pos (by omega)]

theorem refines : Refines DBmod (Rep (d := d)) Spec.DB where
  concrete := rfl
  step := step
  eval S s _ h := by
    obtain ⟨w, e⟩ := evaluate_rep (keysOf_keys S) h.nv.k (fun a ha b hb _ => by rw [h.D]; exact sqMat_get ha hb) h.Sv
    exact ⟨_, e, rfl, ⟨⟨⟨h.nv.dim, h.nv.k, h.nv.n, h.nv.v⟩, h.cp, h.g, h.nSamples, h.mu, h.isSetup⟩, h.D, h.Sv⟩⟩

end Verif.DB
