import Verif.Proofs.NaNEval
import Verif.Proofs.NaNRun
import Verif.Proofs.Vary

/-!
# A missing value makes the tables NaN

The object fed a stream with a gap is related to the objects fed each of its completions.  An entry of a table that takes two
different values as the missing feature varies must be NaN.
-/

namespace Verif
open Py Spec

variable {d : ℕ}

theorem nan_of_two {f : ℝ → ℝ} {x : XR} (h : ∀ r, XR.fin (f r) ⊑ x) (hf : ∃ r s, f r ≠ f s) : x = .nan := by
  obtain ⟨r, s, hrs⟩ := hf
  rcases h r with h1 | h1
  · exact h1
  · rcases h s with h2 | h2
    · exact h2
    · rw [h1] at h2
      exact absurd (XR.fin.inj h2) hrs

theorem nan_get {D : ℝ → Arr2} {T : Arr2} {f : ℝ → ℝ} {i j : ℕ} (h : ∀ r, D r ⊑ T) (hD : ∀ r, (D r).get i j = .ok (.fin (f r)))
    (hf : ∃ r s, f r ≠ f s) : T.get i j = .ok .nan := by
  obtain ⟨x, hx, _⟩ := get_ref (h 0) i j _ (hD 0)
  rw [hx, nan_of_two (x := x) (f := f) (fun r => ?_) hf]
  obtain ⟨y, hy, e⟩ := get_ref (h r) i j _ (hD r)
  rw [hx] at hy
  cases hy
  exact e

theorem nan_upper {ks : List ℤ} {D : ℝ → Arr2} {T : Arr2} {f : ℝ → ℤ → ℤ → ℝ} {b c : ℤ} (h : ∀ r, D r ⊑ T)
    (hD : ∀ r, Upper ks (fun a b => .fin (f r a b)) (D r)) (hb : b ∈ ks) (hc : c ∈ ks) (hbc : b ≠ c)
    (hs : ∀ r, f r b c = f r c b) (hf : ∃ r s, f r c b ≠ f s c b) : ∃ i j, i < j ∧ j < ks.length ∧ T.get i j = .ok .nan := by
  have hl1 := List.idxOf_lt_length_of_mem hb
  have hl2 := List.idxOf_lt_length_of_mem hc
  have hne : ks.idxOf b ≠ ks.idxOf c := fun e => hbc ((List.idxOf_inj hb).1 e)
  rcases Nat.lt_or_gt_of_ne hne with hlt | hlt
  · refine ⟨_, _, hlt, hl2, nan_get (f := fun r => f r c b) h (fun r => ?_) hf⟩
    rw [(hD r).2.2 _ _ hlt hl2, List.getElem_idxOf, List.getElem_idxOf]
    beta_reduce
    rw [hs]
  · refine ⟨_, _, hlt, hl1, nan_get (f := fun r => f r c b) h (fun r => ?_) hf⟩
    rw [(hD r).2.2 _ _ hlt hl1, List.getElem_idxOf, List.getElem_idxOf]

theorem nan_mem {ks : List ℤ} {D : ℝ → Vec} {T : Vec} {g : ℝ → ℤ → ℝ} {c : ℤ} (h : ∀ r, D r ⊑ T)
    (hD : ∀ r, D r = ks.map fun a => .fin (g r a)) (hc : c ∈ ks) (hf : ∃ r s, g r c ≠ g s c) : XR.nan ∈ T := by
  have hg : ∀ r, (D r)[ks.idxOf c]? = some (.fin (g r c)) := fun r => by rw [hD r, getElem?_map_idxOf hc]
  have h0 := getElem?_ref (h 0) (ks.idxOf c)
  rw [hg 0] at h0
  cases hT : T[ks.idxOf c]? with
  | none => rw [hT] at h0; cases h0
  | some x =>
    have : x = .nan := nan_of_two (f := fun r => g r c) (fun r => by
      have h1 := getElem?_ref (h r) (ks.idxOf c)
      rw [hg r, hT] at h1
      cases h1 with
      | some h => exact h) hf
    rw [← this]
    exact List.mem_of_getElem? hT

section
variable (P Q : Stream d) (x : Pt d) (c : ℤ) (i : Fin d) {b : ℤ} {I : Index}

theorem vary_rep (hd : DimOk I d) (r : ℝ) : I.Rep (vary P x c Q i r) (objAfter I (vary P x c Q i r)).core := by
  rcases objAfter_inv hd (vary P x c Q i r) with ⟨h, _⟩ | ⟨_, _, h⟩
  · simp [vary] at h
  · exact h

theorem vary_pooled (h : b ≠ c) (h1 : 1 ≤ size (P ++ Q) c) : Quadr fun r => GD53.pooled (vary P x c Q i r) c b := by
  obtain ⟨A, B, C, hA, h2⟩ := vary_scatter P Q x c i h1
  have hp : (0 : ℝ) < (size (P ++ Q) c + 1 : ℕ) + size (P ++ Q) b := by positivity
  refine ⟨A / ((size (P ++ Q) c + 1 : ℕ) + size (P ++ Q) b), B / ((size (P ++ Q) c + 1 : ℕ) + size (P ++ Q) b),
    (C + scatter (P ++ Q) b) / ((size (P ++ Q) c + 1 : ℕ) + size (P ++ Q) b), by positivity, fun r => ?_⟩
  beta_reduce
  rw [GD53.pooled, h2, vary_scatter_ne P Q x c i h, vary_size, vary_size_ne P Q x c i h]
  field_simp
  ring

/-- The tables from which the value of the class is computed, for the clusters `ks` of `S`; `E` is what cSIL keeps. -/
def Index.Tab (I : Index) (ks : List ℤ) (S : Stream d) (E : ℤ → ℤ → ℝ) (s : Core) : Prop :=
  s.nClusters = ks.length ∧
  match I with
  | .CH | .WB => s.SEP = ks.map fun c => .fin (size S c * dist2 (centroid S c) (mean S))
  | .XB => Upper ks (fun a b => .fin (sep S a b)) s.D
  | .DB => s.D = sqMat ks fun a b => .fin (sep S a b)
  | .GD43 => Upper ks (fun a b => .fin (Real.sqrt (sep S a b))) s.D
  | .GD53 => Upper ks (fun a b => .fin (GD53.pooled S a b)) s.D
  | .PS => Upper ks (fun a b => .fin (sep S a b)) s.D
  | .rCIP => Upper ks (fun a b => .fin (cip S a b)) s.D
  | .cSIL => s.Sm = sqMat ks fun a b => .fin (E a b)

theorem tab_rep {S : Stream d} {s : Core} (h : I.Rep S s) : I.Tab (keys S) S (CSIL.entry S) s := by
  cases I
  case CH => exact ⟨(CH.Rep.toRepMu h).nv.k, CH.Rep.sep h⟩
  case WB => exact ⟨(WB.Rep.toRepMu h).nv.k, WB.Rep.sep h⟩
  case XB =>
    refine ⟨(XB.Rep.toRepMu h).nv.k, ?_⟩
    simp only [XB.Rep.D h]
    exact upper_sqMat _ _
  case DB => exact ⟨(DB.Rep.toRepMu h).nv.k, DB.Rep.D h⟩
  case GD43 =>
    refine ⟨(GD43.Rep.toRepMu h).nv.k, ?_⟩
    simp only [GD43.Rep.D h]
    exact upper_sqMat _ _
  case GD53 =>
    refine ⟨(GD53.Rep.toRepMu h).nv.k, ?_⟩
    simp only [GD53.Rep.D h]
    exact (upper_sqMat _ _).congr (keys_nodup _) fun a _ b _ e => by rw [GD53.entry, if_neg e]
  case PS =>
    refine ⟨(PS.Rep.nv h).k, ?_⟩
    simp only [PS.Rep.D h]
    exact upper_sqMat _ _
  case rCIP =>
    refine ⟨(RCIP.Rep.nv h).k, ?_⟩
    simp only [RCIP.Rep.D h]
    exact (upper_sqMat _ _).congr (keys_nodup _) fun a _ b _ e => by rw [RCIP.entry, if_neg e]
  case cSIL => exact ⟨(CSIL.Rep.tables h).nv.k, CSIL.Rep.Sm h⟩

theorem tab_inc (hd : DimOk I d) (r : ℝ) :
    I.Tab (keys (vary P x c Q i 0)) (vary P x c Q i r) (CSIL.entry (vary P x c Q i r)) (objAfter I (vary P x c Q i r)).core := by
  rw [← vary_keys P Q x c i r]
  exact tab_rep (vary_rep P Q x c i hd r)

variable {s s' : Core}

/-- The value computed from the tables is NaN. -/
theorem value_nan {ks : List ℤ} {E : ℝ → ℤ → ℤ → ℝ} {t : ℝ → Core} (ht : ∀ r, I.Tab ks (vary P x c Q i r) (E r) (t r))
    (e : I.mod.evaluate s = .ok () s') (hr : ∀ r, CoreRef (t r) s') (hbc : b ≠ c) (hb : b ∈ labels (vary P x c Q i 0))
    (hbk : b ∈ ks) (hck : c ∈ ks) (hI : I = .GD53 → 1 ≤ size (P ++ Q) c) (hE : I = .cSIL → ∃ r s, E r b c ≠ E s b c) :
    s'.criterion = .nan := by
  have hk : ks.length = s'.nClusters := by rw [← (hr 0).nClusters, (ht 0).1]
  have hsep : ∃ r t, sep (vary P x c Q i r) c b ≠ sep (vary P x c Q i t) c b := (vary_sep P Q x c i hbc).ne
  have hmean := (vary_toMean P Q x c i hbc hb).ne
  have hne : ks.idxOf b ≠ ks.idxOf c := fun e => hbc ((List.idxOf_inj hbk).1 e)
  have hl1 := List.idxOf_lt_length_of_mem hbk
  have hl2 := List.idxOf_lt_length_of_mem hck
  have hk2 : 1 < s'.nClusters := by omega
  cases I
  case CH =>
    exact CH.evaluate_nan e hk2 (nan_mem (g := fun r a => size (vary P x c Q i r) a * dist2 (centroid (vary P x c Q i r) a)
      (mean (vary P x c Q i r))) (fun r => (hr r).SEP) (fun r => (ht r).2) hck hmean)
  case WB =>
    exact WB.evaluate_nan e hk2 (nan_mem (g := fun r a => size (vary P x c Q i r) a * dist2 (centroid (vary P x c Q i r) a)
      (mean (vary P x c Q i r))) (fun r => (hr r).SEP) (fun r => (ht r).2) hck hmean)
  case XB =>
    obtain ⟨i', j', h1, h2, h3⟩ := nan_upper (fun r => (hr r).D) (fun r => (ht r).2) hbk hck hbc (fun r => sep_comm _ _ _) hsep
    refine XB.evaluate_nan e h1 (hk ▸ h2) ?_ h3
    rw [← rows_length (hr 0).D, ← hk]
    exact (ht 0).2.1
  case DB =>
    have h1 : ∀ r, (t r).D = sqMat ks fun a b => .fin (sep (vary P x c Q i r) a b) := fun r => (ht r).2
    have e1 := nan_get (fun r => (hr r).D) (fun r => by rw [h1 r, sqMat_get hck hbk]) hsep
    have e2 := nan_get (fun r => (hr r).D) (fun r => by rw [h1 r, sqMat_get hbk hck, sep_comm]) hsep
    rcases Nat.lt_or_gt_of_ne hne with h | h
    · exact DB.evaluate_nan e h (hk ▸ hl2) e1
    · exact DB.evaluate_nan e h (hk ▸ hl1) e2
  case GD43 =>
    obtain ⟨r, u, hru⟩ := hsep
    obtain ⟨i', j', h1, h2, h3⟩ := nan_upper (fun r => (hr r).D) (fun r => (ht r).2) hbk hck hbc (fun r => by rw [sep_comm])
      ⟨r, u, fun e => hru (by rwa [Real.sqrt_inj (sep_nonneg _ _ _) (sep_nonneg _ _ _)] at e)⟩
    exact GD43.evaluate_nan e h1 (hk ▸ h2) h3
  case GD53 =>
    obtain ⟨i', j', h1, h2, h3⟩ := nan_upper (fun r => (hr r).D) (fun r => (ht r).2) hbk hck hbc
      (fun r => GD53.pooled_comm _ _ _) (vary_pooled P Q x c i hbc (hI rfl)).ne
    exact GD53.evaluate_nan e h1 (hk ▸ h2) h3
  case PS =>
    obtain ⟨i', j', h1, h2, h3⟩ := nan_upper (fun r => (hr r).D) (fun r => (ht r).2) hbk hck hbc (fun r => sep_comm _ _ _) hsep
    exact PS.evaluate_nan e h1.ne (h1.trans (hk ▸ h2)) hk2 h3
  case rCIP =>
    obtain ⟨i', j', h1, h2, h3⟩ := nan_upper (fun r => (hr r).D) (fun r => (ht r).2) hbk hck hbc (fun r => cip_comm _ _ _)
      (vary_cip P Q x c i hbc)
    refine RCIP.evaluate_nan e h1 ?_ h3
    rw [← rows_length (hr 0).D]
    exact (ht 0).2.1 ▸ h2
  case cSIL =>
    have h1 : ∀ r, (t r).Sm = sqMat ks fun a b => .fin (E r a b) := fun r => (ht r).2
    have h := nan_get (fun r => (hr r).Sm) (fun r => by rw [h1 r, sqMat_get hbk hck]) (hE rfl)
    exact CSIL.evaluate_nan e hne (hk ▸ hl2) hk2 h

end

/-! ## Feeding -/

theorem feed_split {M : Module} (l m : List (Vec × ℤ)) (o : Obj) {rs : List XR} {o' : Obj} (h : feed M (l ++ m) o = .ok rs o') :
    ∃ rs1 o1 rs2, feed M l o = .ok rs1 o1 ∧ feed M m o1 = .ok rs2 o' ∧ rs = rs1 ++ rs2 := by
  induction l generalizing o rs with
  | nil => exact ⟨[], o, rs, rfl, h, rfl⟩
  | cons p l ih =>
    rw [List.cons_append, feed] at h
    obtain ⟨r, o1, h1, h⟩ := py_bind_inv h
    obtain ⟨rs', o2, h2, h⟩ := py_bind_inv h
    cases h
    obtain ⟨rs1, o3, rs2, h3, h4, rfl⟩ := ih o1 h2
    refine ⟨r :: rs1, o3, rs2, ?_, h4, rfl⟩
    rw [feed, bind_apply, h1, Res.bind_ok, bind_apply, h3]
    rfl

theorem feed_length {M : Module} (l : List (Vec × ℤ)) (o : Obj) {rs : List XR} {o' : Obj} (h : feed M l o = .ok rs o') :
    rs.length = l.length := by
  induction l generalizing o rs with
  | nil => cases h; rfl
  | cons p l ih =>
    rw [feed] at h
    obtain ⟨r, o1, h1, h⟩ := py_bind_inv h
    obtain ⟨rs', o2, h2, h⟩ := py_bind_inv h
    cases h
    simp [ih _ h2]

theorem getCvi_inv {M : Module} {D : Data} {lab : LabelArg} {o o' : Obj} {r : XR} (h : getCvi M D lab o = .ok r o') :
    ∃ o1, M.update D lab o = .ok () o1 ∧ M.evaluate o1.core = .ok () o'.core ∧ r = o'.core.criterion := by
  rw [getCvi] at h
  obtain ⟨_, o1, h1, h⟩ := py_bind_inv h
  obtain ⟨_, o2, h2, h⟩ := py_bind_inv h
  cases h
  refine ⟨o1, h1, ?_, rfl⟩
  rw [onCore] at h2
  cases hs : M.evaluate o1.core with
  | err ex s => rw [hs] at h2; cases h2
  | ok u s => rw [hs] at h2; cases h2; rfl

/-- The last value fed. -/
theorem feed_last {M : Module} (l : List (Vec × ℤ)) (hl : l ≠ []) (o : Obj) {rs : List XR} {o' : Obj} (h : feed M l o = .ok rs o') :
    ∃ s, M.evaluate s = .ok () o'.core ∧ rs.getLast? = some o'.core.criterion := by
  obtain ⟨l, p, rfl⟩ := List.eq_nil_or_concat l |>.resolve_left hl
  rw [List.concat_eq_append] at h
  obtain ⟨rs1, o1, rs2, _, h2, rfl⟩ := feed_split _ _ _ h
  rw [feed] at h2
  obtain ⟨r, o2, h3, h2⟩ := py_bind_inv h2
  obtain ⟨rs', o3, h4, h2⟩ := py_bind_inv h2
  cases h4
  cases h2
  obtain ⟨o4, _, h5, rfl⟩ := getCvi_inv h3
  exact ⟨_, h5, by simp⟩

/-! ## Gaps -/

/-- Missing features filled in by 0. -/
noncomputable def fill (T : GappyStream d) : Stream d := T.map fun p => (fun i => (p.1 i).getD 0, p.2)

theorem fill_completes (T : GappyStream d) : Completes (fill T) T := by
  rw [Completes, fill, List.forall₂_map_left_iff, List.forall₂_same]
  refine fun p _ => ⟨fun i r h => ?_, rfl⟩
  simp [h]

theorem completes_snd {S : Stream d} {T : GappyStream d} (h : Completes S T) : S.map Prod.snd = T.map Prod.snd := (rowsG_ref h).2

/-- The streams obtained by giving the missing feature every possible value. -/
theorem gap_vary {T : GappyStream d} {p : Gappy d × ℤ} (hp : p ∈ T) {i : Fin d} (hi : p.1 i = none) :
    ∃ P Q x, ∀ r, Completes (vary P x p.2 Q i r) T := by
  obtain ⟨A, B, rfl⟩ := List.append_of_mem hp
  refine ⟨fill A, fill B, fun j => (p.1 j).getD 0, fun r => ?_⟩
  refine List.rel_append (fill_completes A) (.cons ⟨fun j r' h => ?_, rfl⟩ (fill_completes B))
  by_cases hj : j = i
  · subst hj
    rw [hi] at h
    cases h
  · simp [Function.update_of_ne hj, h]

end Verif
