import Verif.Gen.RefPS
import Verif.Gen.CSIL

/-! # cSIL in any arithmetic -/

namespace Verif.Gen
open Py

variable {F : Type} [Arith F] {d : ℕ}

section
variable (S : Samples F) (x : List F) {a b c : ℤ}

theorem Sil.of_append {l : List (List F)} (h : l ≠ []) : Sil.of (l ++ [x]) = Sil.more (Sil.of l) x := by
  cases l with
  | nil => exact absurd rfl h
  | cons y l => simp [Sil.of]

theorem sil_new (h : c ∉ order S) : sil (S ++ [(x, c)]) c = Sil.one x := by
  rw [sil, own_append_self, (own_eq_nil S).mpr h]; rfl

theorem sil_old (h : c ∈ order S) : sil (S ++ [(x, c)]) c = Sil.more (sil S c) x := by
  rw [sil, own_append_self, Sil.of_append]
  · rfl
  · intro e; exact (own_eq_nil S).mp e h

theorem sil_ne (h : a ≠ c) : sil (S ++ [(x, c)]) a = sil S a := by rw [sil, own_append_ne S x h]; rfl

/-- The sizes and centroids are those of the other classes. -/
theorem Sil.of_nv (l : List (List F)) : (Sil.of l).n = (Stat.of l).n ∧ (Sil.of l).v = (Stat.of l).v := by
  induction l using List.reverseRecOn with
  | nil => exact ⟨rfl, rfl⟩
  | append_singleton l x ih =>
    by_cases e : l = []
    · subst e; exact ⟨rfl, rfl⟩
    · rw [Stat.of_append _ e, Sil.of_append _ e]
      simp [Stat.more, Sil.more, ih.1, ih.2]

theorem sil_n : (sil S c).n = (stat S c).n := (Sil.of_nv _).1
theorem sil_v : (sil S c).v = (stat S c).v := (Sil.of_nv _).2

theorem Sil.of_length {l : List (List F)} (h : l ≠ []) (hl : ∀ x ∈ l, x.length = d) : (Sil.of l).g.length = d := by
  induction l using List.reverseRecOn with
  | nil => exact absurd rfl h
  | append_singleton l x ih =>
    have hx := hl x (by simp)
    by_cases e : l = []
    · subst e; simpa [Sil.of, Sil.one] using hx
    · rw [Sil.of_append _ e]
      simp [Sil.more, ih e fun y hy => hl y (by simp [hy]), hx]

theorem sil_g_length (h : c ∈ order S) (hd : S.Dim d) : (sil S c).g.length = d :=
  Sil.of_length (fun e => (own_eq_nil S).mp e h) fun x hx => own_length S x hd hx

theorem sil_v_length (h : c ∈ order S) (hd : S.Dim d) : (sil S c).v.length = d := by
  rw [sil_v]; exact stat_v_length S h hd

theorem cell_append_ne (ha : a ≠ c) (hb : b ≠ c) : cell (S ++ [(x, c)]) a b = cell S a b := by
  simp [cell, cellRev, ha, hb]

theorem cell_append_row_old (hc : c ∈ order S) (hb : b ≠ c) :
    cell (S ++ [(x, c)]) c b = far (sil S c) x (List.zipWith (· + ·) (sil S c).g x) (sil S b).v := by
  simp [cell, cellRev, hb, hc]

theorem cell_append_row_new (hc : c ∉ order S) (hb : b ≠ c) :
    cell (S ++ [(x, c)]) c b =
      Arith.dot x x + Arith.dot (sil S b).v (sil S b).v - Arith.dot x (sil S b).v := by
  simp [cell, cellRev, hb, hc]

theorem cell_append_col (ha : a ≠ c) : cell (S ++ [(x, c)]) a c = near (sil S a) (sil (S ++ [(x, c)]) c).v := by
  simp [cell, cellRev, ha]

theorem cell_append_old (hc : c ∈ order S) :
    cell (S ++ [(x, c)]) c c = far (sil S c) x (sil S c).g (sil (S ++ [(x, c)]) c).v := by
  simp [cell, cellRev, hc]

theorem cell_append_new (hc : c ∉ order S) : cell (S ++ [(x, c)]) c c = 0 := by
  simp [cell, cellRev, hc]

end

/-- The tables other than `_S`. -/
structure SilTables (d : ℕ) (S : Samples F) (s : Core F) : Prop where
  dim : s.dim = d
  k : s.nClusters = (order S).length
  n : s.n = ⟨false, (order S).map fun c => (sil S c).n⟩
  v : s.v = ⟨d, (order S).map fun c => (sil S c).v⟩
  cp : s.CP = some ⟨false, (order S).map fun c => (sil S c).cp⟩
  g : s.G = some ⟨d, (order S).map fun c => (sil S c).g⟩

/-- The attributes after the samples `S`. -/
structure RepSil (d : ℕ) (S : Samples F) (s : Core F) : Prop where
  tables : SilTables d S s
  Sm : s.Sm = sqMat (order S) (cell S)
  nSamples : s.nSamples = S.length
  isSetup : s.isSetup = true

namespace CSIL

theorem start {S : Samples F} {s : Core F} {x : List F} (hx : x.length = d) (h : Start init (RepSil d) S s) :
    s.nSamples = S.length ∧ ∃ s', setupIfFirst setup x s = .ok () s' ∧ SilTables d S s' ∧ s'.isSetup = true ∧
      (order S ≠ [] → s'.Sm = sqMat (order S) (cell S)) := by
  rcases h with ⟨rfl, rfl⟩ | ⟨hne, h⟩
  · subst hx
    refine ⟨rfl, _, rfl, ⟨?_, rfl, rfl, ?_, rfl, ?_⟩, rfl, fun h => absurd rfl h⟩ <;> simp <;> rfl
  · have hl : s.nSamples ≠ 0 := by rw [h.nSamples]; simpa using hne
    refine ⟨h.nSamples, s, ?_, h.tables, h.isSetup, fun _ => h.Sm⟩
    rw [setupIfFirst]
    apply get_bind
    rw [if_neg hl, pure_apply]

theorem rowEntry_eq {S : Samples F} {s : Core F} (hS : S.Dim d) (h : SilTables d S s) {w : List F} (hw : w.length = d)
    {a : ℤ} (ha : a ∈ order S) : rowEntry s w ((order S).idxOf a) = .ok (near (sil S a) w) := by
  rw [rowEntry, h.cp, attr, except_bind_ok, get_rep ha, except_bind_ok, h.n, get_rep ha, except_bind_ok, inner_eq hw hw,
    except_bind_ok, h.g, attr, except_bind_ok, row_rep ha, except_bind_ok, inner_eq (sil_g_length S ha hS) hw]
  rfl

theorem colNew_eq {S : Samples F} {s : Core F} (hS : S.Dim d) (h : SilTables d S s) {x : List F} (hx : x.length = d)
    (cp : F) {a : ℤ} (ha : a ∈ order S) : colNew s cp x ((order S).idxOf a) =
      .ok (cp + Arith.dot (sil S a).v (sil S a).v - Arith.dot x (sil S a).v) := by
  have hv := sil_v_length S ha hS
  rw [colNew, h.v, row_rep ha, except_bind_ok, inner_eq hv hv, except_bind_ok, inner_eq hx hv]
  rfl

theorem colOldEntry_eq (t : Stat F) {x g w : List F} (hx : x.length = d) (hg : g.length = d) (hw : w.length = d) :
    colOldEntry t.cp t.n g x w = .ok (far t x g w) := by
  have hz := zip_length (f := (· - ·)) hx hw
  rw [colOldEntry, sub_eq hx hw, except_bind_ok, inner_eq hz hz, except_bind_ok, inner_eq hw hw, except_bind_ok,
    inner_eq hg hw]
  rfl

omit [Arith F] in
theorem setS_rep [Zero F] {s : Core F} {ks : List ℤ} {c : ℤ} {g g' : ℤ → ℤ → F}
    (hn : ks.Nodup) (hc : c ∈ ks) (h : s.Sm = sqMat ks g)
    (hg : ∀ a ∈ ks, ∀ b ∈ ks, a ≠ c → b ≠ c → g' a b = g a b) :
    Verif.CSIL.setS (ks.idxOf c) (ks.map (g' c)) (ks.map fun a => g' a c) s = .ok () { s with Sm := sqMat ks g' } := by
  have h1 := sqMat_setRow hn (g := g) hc (g' c)
  have h2 := sqMat_setCross hn (g := g) (g' := g') hc (g' c) (fun a => g' a c) (fun b hb _ => rfl) (fun _ _ => rfl) hg
  rw [setCross, h1, except_bind_ok] at h2
  simp [Verif.CSIL.setS, h, h1, h2]

theorem sNew_eq {S : Samples F} {s : Core F} (hS : S.Dim d) (h : SilTables d S s)
    (hSm : order S ≠ [] → s.Sm = sqMat (order S) (cell S)) {x : List F} (hx : x.length = d) {c : ℤ} (hc : c ∉ order S) :
    sNew s (order S).length x (Arith.dot x x) = .ok (sqMat (order S ++ [c]) (cell (S ++ [(x, c)]))) := by
  have hcc := cell_append_new S x hc
  rw [sNew, h.k]
  by_cases hk : (order S).length = 0
  · have : order S = [] := List.length_eq_zero_iff.mp hk
    rw [if_pos hk, this]
    simp [sqMat, Arr2.zeros, Vec.zeros, hcc]
  · have hne : order S ≠ [] := fun e => hk (by simp [e])
    rw [if_neg hk, hSm hne, enlarge_sqMat hc, except_bind_ok,
      columnNew_keys (order_nodup S) (g := fun a => cell (S ++ [(x, c)]) c a), except_bind_ok,
      columnNew_keys (order_nodup S) (g := fun a => cell (S ++ [(x, c)]) a c), except_bind_ok]
    · have h1 : ((order S).map fun a => cell (S ++ [(x, c)]) c a) ++ [0] =
          (order S ++ [c]).map fun a => cell (S ++ [(x, c)]) c a := by simp [hcc]
      have h2 : ((order S).map fun a => cell (S ++ [(x, c)]) a c) ++ [0] =
          (order S ++ [c]).map fun a => cell (S ++ [(x, c)]) a c := by simp [hcc]
      rw [h1, h2]
      conv_lhs => rw [← idxOf_append_new hc]
      apply sqMat_setCross (nodup_append_new (order_nodup S) hc) (by simp)
      · intro b _ _; rfl
      · intro a _; rfl
      · intro a ha b hb hac hbc
        simp [hac, hbc, cell_append_ne S x hac hbc]
    · intro a ha
      rw [rowEntry_eq hS h hx ha, cell_append_col S x fun e : a = c => hc (e ▸ ha), sil_new S x hc]
      rfl
    · intro a ha
      rw [colNew_eq hS h hx _ ha, cell_append_row_new S x hc fun e : a = c => hc (e ▸ ha)]

/-- The object with the tables of `S`. -/
def withSil (d : ℕ) (S : Samples F) (s : Core F) : Core F :=
  { s with
    nClusters := (order S).length
    n := ⟨false, (order S).map fun c => (sil S c).n⟩
    v := ⟨d, (order S).map fun c => (sil S c).v⟩
    CP := some ⟨false, (order S).map fun c => (sil S c).cp⟩
    G := some ⟨d, (order S).map fun c => (sil S c).g⟩
    Sm := sqMat (order S) (cell S) }

theorem branch {S : Samples F} {s : Core F} {x : List F} {c : ℤ} (hS : S.Dim d) (hx : x.length = d)
    (h : SilTables d S s) (hSm : order S ≠ [] → s.Sm = sqMat (order S) (cell S)) :
    (if ((order S).idxOf c : ℤ) > (s.nClusters : ℤ) - 1 then incNew x ((order S).idxOf c)
      else incOld x ((order S).idxOf c)) s = .ok () (withSil d (S ++ [(x, c)]) s) := by
  by_cases hc : c ∈ order S
  · rw [if_neg (by rw [isNew_iff h.k]; simpa using hc), incOld]
    have e := sil_old S x hc
    have hv := sil_v_length S hc hS
    have hg := sil_g_length S hc hS
    have hc' : c ∈ order (S ++ [(x, c)]) := by rw [order_old S x hc]; exact hc
    have hv' := sil_v_length _ hc' (hS.append hx)
    refine get_bind (lift_bind (by rw [h.n]; exact get_rep hc) (lift_bind (by rw [h.v]; exact row_rep hc)
      (lift_bind (a := (sil (S ++ [(x, c)]) c).v) (by rw [runningMean_eq hv hx, e]; rfl)
        (lift_bind (by rw [h.cp]; rfl) (lift_bind (get_rep hc)
        (lift_bind (inner_eq hx hx) (lift_bind (by rw [h.g]; rfl) (lift_bind (row_rep hc)
          (lift_bind (add_eq hg hx) (lift_bind (a := cell (S ++ [(x, c)]) c c)
            (by rw [colOldEntry_eq _ hx hg hv', cell_append_old S x hc]) ?_))))))))))
    refine lift_bind (a := (order S).map (cell (S ++ [(x, c)]) c)) ?_ ?_
    · rw [colOld, h.k]
      apply mapE_range_keys (order_nodup S)
      intro a ha
      by_cases e : a = c
      · subst e; simp
      · rw [if_neg fun h' => e ((idxOf_inj ha).mp h'), h.v, row_rep ha, except_bind_ok,
          colOldEntry_eq _ hx (zip_length hg hx) (sil_v_length S ha hS), cell_append_row_old S x hc e]
    refine lift_bind (a := (order S).map fun a => cell (S ++ [(x, c)]) a c) ?_ ?_
    · rw [rowOld, h.k]
      apply mapE_range_keys (order_nodup S)
      intro a ha
      by_cases e : a = c
      · subst e; simp
      · rw [if_neg fun h' => e ((idxOf_inj ha).mp h'), rowEntry_eq hS h hv' ha, cell_append_col S x e]
    refine bind_ok_of (setN_rep (order_nodup S) hc h.n (f' := fun a => (sil (S ++ [(x, c)]) a).n) (by rw [e]; rfl)
      fun a _ ha => by rw [sil_ne S x ha]) ?_
    refine bind_ok_of (setV_rep (order_nodup S) hc h.v (f' := fun a => (sil (S ++ [(x, c)]) a).v) rfl hv'
      fun a _ ha => by rw [sil_ne S x ha]) ?_
    refine bind_ok_of (setCP_rep (order_nodup S) hc h.cp (f' := fun a => (sil (S ++ [(x, c)]) a).cp) (by rw [e]; rfl)
      fun a _ ha => by rw [sil_ne S x ha]) ?_
    refine bind_ok_of (setG_rep (order_nodup S) hc h.g (f' := fun a => (sil (S ++ [(x, c)]) a).g) (by rw [e]; rfl)
      (by simp [hg, hx]) fun a _ ha => by rw [sil_ne S x ha]) ?_
    refine (setS_rep (g := cell S) (g' := cell (S ++ [(x, c)])) (order_nodup S) hc
      (by exact hSm (List.ne_nil_of_mem hc)) fun a _ b _ ha hb => cell_append_ne S x ha hb).trans ?_
    simp [withSil, ← h.k, order_old S x hc]
  · have e := sil_new S x hc
    rw [if_pos (by rw [isNew_iff h.k]; exact hc), incNew, List.idxOf_eq_length hc]
    refine get_bind (lift_bind (inner_eq hx hx) (lift_bind (sNew_eq hS h hSm hx hc) ?_))
    refine modify_bind ?_
    refine bind_ok_of (appendN_rep hc h.n (f' := fun a => (sil (S ++ [(x, c)]) a).n) (by rw [e]; rfl)
      fun a _ ha => by rw [sil_ne S x ha]) ?_
    refine bind_ok_of (appendCP_rep hc h.cp (f' := fun a => (sil (S ++ [(x, c)]) a).cp) (by rw [e]; rfl)
      fun a _ ha => by rw [sil_ne S x ha]) ?_
    refine bind_ok_of (vstackV_rep hc h.v (f' := fun a => (sil (S ++ [(x, c)]) a).v) (by rw [e]; rfl) hx
      fun a _ ha => by rw [sil_ne S x ha]) ?_
    refine bind_ok_of (vstackG_rep hc h.g (f' := fun a => (sil (S ++ [(x, c)]) a).g) (by rw [e]; rfl) hx
      fun a _ ha => by rw [sil_ne S x ha]) ?_
    simp [withSil, h.k, order_new S x hc]

theorem step (S : Samples F) (s : Core F) (x : List F) (c : ℤ) (hS : S.Dim d) (hx : x.length = d)
    (h : Start init (RepSil d) S s) :
    ∃ s', incBody x ((order S).idxOf c) s = .ok () s' ∧ RepSil d (S ++ [(x, c)]) s' := by
  obtain ⟨hn, s1, h1, ht, hi, hSm⟩ := start hx h
  refine ⟨_, get_bind (bind_ok_of h1 (get_bind (bind_ok_of (branch hS hx ht hSm) rfl))), ?_⟩
  refine ⟨⟨ht.dim, rfl, rfl, rfl, rfl, rfl⟩, rfl, ?_, hi⟩
  simp [hn]

/-! ## Evaluation -/

theorem coef_eq {S : Samples F} (hk : 1 < (order S).length) {c : ℤ} (hc : c ∈ order S) :
    coef (sqMat (order S) (cell S)) ((order S).idxOf c) = .ok (silhouette S c) := by
  have hne : ((order S).filter (· ≠ c)).map (fun b => cell S b c) ≠ [] := by
    rw [Ne, List.map_eq_nil_iff]
    obtain ⟨b, hb, hbc⟩ := exists_other (order_nodup S) hk c
    exact List.ne_nil_of_mem (a := b) (by simp [hb, hbc])
  rw [coef, sqMat_get hc hc, except_bind_ok, sqMat_col hc, except_bind_ok, Vec.delete,
    if_pos (by simpa using List.idxOf_lt_length_of_mem hc), except_bind_ok, PS.eraseIdx_keys (order_nodup S), amin_eq hne]
  rfl

theorem evaluate_eq {S : Samples F} {s : Core F} (h : RepSil d S s) :
    ∃ s', evaluate s = .ok () s' ∧ s'.criterion = value d .cSIL S ∧ RepSil d S s' := by
  have hany : Arr2.any s.Sm = (order S).any fun a => (order S).any fun b => Arith.truthy (cell S a b) := by
    rw [h.Sm]
    simp [Arr2.any, sqMat, List.any_map, Function.comp_def]
  rw [evaluate, bind_apply, modify_apply, Res.bind_ok, bind_apply, get_apply, Res.bind_ok]
  simp only [hany]
  have ht : ∀ {s' : Core F}, s'.dim = s.dim → s'.nClusters = s.nClusters → s'.n = s.n → s'.v = s.v → s'.CP = s.CP →
      s'.G = s.G → s'.Sm = s.Sm → s'.nSamples = s.nSamples → s'.isSetup = s.isSetup → RepSil d S s' := by
    intro s' h1 h2 h3 h4 h5 h6 h7 h8 h9
    exact ⟨⟨h1 ▸ h.tables.dim, h2 ▸ h.tables.k, h3 ▸ h.tables.n, h4 ▸ h.tables.v, h5 ▸ h.tables.cp, h6 ▸ h.tables.g⟩,
      h7 ▸ h.Sm, h8 ▸ h.nSamples, h9 ▸ h.isSetup⟩
  by_cases hk : s.nClusters > 1
  · have hk' : 1 < (order S).length := h.tables.k ▸ hk
    by_cases ha : ((order S).any fun a => (order S).any fun b => Arith.truthy (cell S a b)) = true
    · have hm : mapE (coef s.Sm) (List.range s.nClusters) = .ok ((order S).map (silhouette S)) := by
        rw [h.tables.k, h.Sm]
        apply mapE_range_keys (order_nodup S)
        intro c hc
        exact coef_eq hk' hc
      rw [if_pos ⟨hk, ha⟩]
      refine ⟨_, lift_bind hm rfl, ?_, ht rfl rfl rfl rfl rfl rfl rfl rfl rfl⟩
      simp only [value, if_neg (Nat.not_le.mpr hk'), if_pos ha, h.tables.k]
    · rw [if_neg fun hh => ha hh.2]
      refine ⟨_, rfl, ?_, ht rfl rfl rfl rfl rfl rfl rfl rfl rfl⟩
      simp only [value, if_neg (Nat.not_le.mpr hk'), if_neg ha]
  · rw [if_neg fun hh => hk hh.1]
    refine ⟨_, rfl, ?_, ht rfl rfl rfl rfl rfl rfl rfl rfl rfl⟩
    simp [value, ← h.tables.k, Nat.not_lt.mp hk]

theorem refines : Refines d (CSILmod (F := F)) (RepSil d) fun S r => r = value d .cSIL S where
  concrete := rfl
  step := step
  eval _ _ _ _ h := evaluate_eq h

end CSIL
end Verif.Gen
