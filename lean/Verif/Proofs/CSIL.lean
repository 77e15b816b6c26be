import Verif.Proofs.Sim
import Verif.Proofs.Extrema
import Verif.Model.CSIL
import Verif.SpecCSIL

/-!
# What cSIL computes

The incremental update of cSIL does not maintain the matrix of its definition: two of its formulas are wrong.  `csilErr` is
the exact error of each entry; `refines` shows that the object always holds `crossScatter + csilErr`.
-/

namespace Verif.CSIL
open Spec Py Verif

variable {d : ℕ}

theorem lastOf_append_mem (S : Stream d) (x : Pt d) {a b c : ℤ} (h : c = a ∨ c = b) :
    lastOf (S ++ [(x, c)]) a b = some (x, c) := by
  simp [lastOf, List.filter_append, h]

theorem lastOf_append_notMem (S : Stream d) (x : Pt d) {a b c : ℤ} (ha : a ≠ c) (hb : b ≠ c) :
    lastOf (S ++ [(x, c)]) a b = lastOf S a b := by
  simp [lastOf, List.filter_append, ha.symm, hb.symm]

theorem crossScatter_append_ne (S : Stream d) (x : Pt d) {a b c : ℤ} (ha : a ≠ c) (hb : b ≠ c) :
    crossScatter (S ++ [(x, c)]) a b = crossScatter S a b := by
  simp [crossScatter, cluster_append_ne S x ha, centroid_append_ne S x hb, size_append_ne S x ha]

theorem entry_append_ne (S : Stream d) (x : Pt d) {a b c : ℤ} (ha : a ≠ c) (hb : b ≠ c) :
    entry (S ++ [(x, c)]) a b = entry S a b := by
  simp only [entry, csilErr, crossScatter_append_ne S x ha hb, lastOf_append_notMem S x ha hb, size_append_ne S x ha,
    centroid_append_ne S x hb]

theorem entry_append_col (S : Stream d) (x : Pt d) (a c : ℤ) :
    entry (S ++ [(x, c)]) a c = crossScatter (S ++ [(x, c)]) a c := by
  simp [entry, csilErr, lastOf_append_mem]

theorem entry_append_row (S : Stream d) (x : Pt d) {b c : ℤ} (hb : b ≠ c) :
    entry (S ++ [(x, c)]) c b = crossScatter (S ++ [(x, c)]) c b +
      if size S c = 0 then dot x (centroid S b) else -(2 * dot x (centroid S b)) / (size S c + 1 : ℕ) := by
  simp only [entry, csilErr, if_neg hb.symm, lastOf_append_mem S x (Or.inl rfl), size_append_self,
    centroid_append_ne S x hb]
  congr 1
  by_cases h : size S c = 0 <;> simp [h]

theorem dist2_expand (x y : Pt d) : dist2 x y = dot x x + dot y y - 2 * dot x y := by
  simp only [dist2, dot]
  rw [Finset.mul_sum, ← Finset.sum_add_distrib, ← Finset.sum_sub_distrib]
  apply Finset.sum_congr rfl
  intro i _
  ring

theorem sum_dist2_expand (l : List (Pt d)) (w : Pt d) :
    (l.map fun p => dist2 p w).sum = (l.map fun p => dot p p).sum + l.length * dot w w
      - 2 * dot (fun i => (l.map fun p => p i).sum) w := by
  induction l with
  | nil => simp [dot]
  | cons p l ih =>
    have e : dot (fun i => ((p :: l).map fun p => p i).sum) w = dot p w + dot (fun i => (l.map fun p => p i).sum) w := by
      simp only [dot, List.map_cons, List.sum_cons]
      rw [← Finset.sum_add_distrib]
      apply Finset.sum_congr rfl
      intro i _
      ring
    rw [e, List.map_cons, List.sum_cons, ih, dist2_expand]
    simp only [List.map_cons, List.sum_cons, List.length_cons]
    push_cast
    ring

theorem crossScatter_expand (S : Stream d) (a b : ℤ) :
    crossScatter S a b = (sqSum S a + size S a * dot (centroid S b) (centroid S b) - 2 * dot (vecSum S a) (centroid S b))
      / size S a := by
  rw [crossScatter, sum_dist2_expand]; rfl

theorem sqSum_append_self (S : Stream d) (x : Pt d) (c : ℤ) : sqSum (S ++ [(x, c)]) c = sqSum S c + dot x x := by
  simp [sqSum, cluster_append_self]

theorem sqSum_append_ne (S : Stream d) (x : Pt d) {a c : ℤ} (h : a ≠ c) : sqSum (S ++ [(x, c)]) a = sqSum S a := by
  simp [sqSum, cluster_append_ne S x h]

theorem vecSum_append_self (S : Stream d) (x : Pt d) (c : ℤ) :
    vecSum (S ++ [(x, c)]) c = fun i => vecSum S c i + x i := by
  funext i; simp [vecSum, cluster_append_self]

theorem vecSum_append_ne (S : Stream d) (x : Pt d) {a c : ℤ} (h : a ≠ c) : vecSum (S ++ [(x, c)]) a = vecSum S a := by
  funext i; simp [vecSum, cluster_append_ne S x h]

theorem sqSum_new {S : Stream d} {c : ℤ} (h : c ∉ labels S) : sqSum S c = 0 := by simp [sqSum, cluster_eq_nil h]

theorem vecSum_new {S : Stream d} {c : ℤ} (h : c ∉ labels S) : vecSum S c = fun _ => 0 := by
  funext i; simp [vecSum, cluster_eq_nil h]

theorem size_new {S : Stream d} {c : ℤ} (h : c ∉ labels S) : size S c = 0 := by simp [size, cluster_eq_nil h]

theorem dot_add_left (x y w : Pt d) : dot (fun i => x i + y i) w = dot x w + dot y w := by
  simp only [dot, add_mul, Finset.sum_add_distrib]

theorem crossScatter_self_singleton {S : Stream d} {c : ℤ} (h : size S c = 1) : crossScatter S c c = 0 := by
  obtain ⟨p, hp⟩ := List.length_eq_one_iff.mp h
  simp [crossScatter, centroid, hp, meanOf_singleton, dist2_self]

/-! ## The object -/

/-- The tables other than `_S`. -/
structure Tables (ks : List ℤ) (S : Stream d) (s : Core) : Prop where
  nv : RepNV false ks S s
  cp : s.CP = some ⟨false, ks.map fun c => XR.fin (sqSum S c)⟩
  g : s.G = some ⟨d, ks.map fun c => enc (vecSum S c)⟩

/-- The object after the samples `S`. -/
structure Rep (S : Stream d) (s : Core) : Prop where
  tables : Tables (keys S) S s
  Sm : s.Sm = sqMat (keys S) fun a b => .fin (entry S a b)
  nSamples : s.nSamples = S.length
  isSetup : s.isSetup = true

/-- The object when the branch on label novelty is reached. -/
structure Mid (S : Stream d) (s : Core) : Prop where
  tables : Tables (keys S) S s
  Sm : keys S ≠ [] → s.Sm = sqMat (keys S) fun a b => .fin (entry S a b)
  isSetup : s.isSetup = true

theorem start {S : Stream d} {s : Core} (x : Pt d) (h : Start Core.init Rep S s) :
    s.nSamples = S.length ∧ ∃ s', setupIfFirst setup (enc x) s = .ok () s' ∧ Mid S s' := by
  rcases h with ⟨rfl, rfl⟩ | ⟨hne, h⟩
  · refine ⟨rfl, _, rfl, ⟨⟨?_, rfl, rfl, ?_⟩, rfl, ?_⟩, fun h => absurd rfl h, rfl⟩ <;> simp <;> rfl
  · have hl : s.nSamples ≠ 0 := by rw [h.nSamples]; simpa using hne
    refine ⟨h.nSamples, s, ?_, h.tables, fun _ => h.Sm, h.isSetup⟩
    rw [setupIfFirst]
    apply get_bind
    rw [if_neg hl, pure_apply]

/-- The state after the branch. -/
noncomputable def tabledS (ks : List ℤ) (S : Stream d) (s : Core) : Core :=
  { s with
    nClusters := ks.length
    n := ⟨false, ks.map (size S)⟩
    v := ⟨d, ks.map fun c => enc (centroid S c)⟩
    CP := some ⟨false, ks.map fun c => XR.fin (sqSum S c)⟩
    G := some ⟨d, ks.map fun c => enc (vecSum S c)⟩
    Sm := sqMat ks fun a b => .fin (entry S a b) }

theorem rowEntry_rep {S : Stream d} {s : Core} {ks : List ℤ} (hks : KeysOf ks S) (h : Tables ks S s) (x : Pt d) {a c : ℤ}
    (ha : a ∈ ks) (hac : a ≠ c) :
    rowEntry s (enc (centroid (S ++ [(x, c)]) c)) (ks.idxOf a) = .ok (.fin (entry (S ++ [(x, c)]) a c)) := by
  have hn := (size_pos_real ((hks.mem a).mp ha)).ne'
  rw [rowEntry, h.cp, attr, except_bind_ok, get_rep ha, except_bind_ok, h.nv.n, get_rep ha, except_bind_ok, inner_enc,
    except_bind_ok, h.g, attr, except_bind_ok, row_rep ha, except_bind_ok, inner_enc, except_bind_ok, except_pure,
    XR.fin_mul, XR.fin_add, XR.fin_mul, XR.fin_sub, XR.fin_div_of_ne _ hn, entry_append_col, crossScatter_expand,
    sqSum_append_ne S x hac, size_append_ne S x hac, vecSum_append_ne S x hac]
  rfl

theorem colNew_rep {S : Stream d} {s : Core} {ks : List ℤ} (h : Tables ks S s) (x : Pt d) {a c : ℤ}
    (ha : a ∈ ks) (hac : a ≠ c) (hc : c ∉ labels S) :
    colNew s (.fin (dot x x)) (enc x) (ks.idxOf a) = .ok (.fin (entry (S ++ [(x, c)]) c a)) := by
  rw [colNew, h.nv.v, row_rep ha, except_bind_ok, inner_enc, except_bind_ok, inner_enc, except_bind_ok, except_pure,
    XR.fin_add, XR.fin_sub, entry_append_row S x hac, crossScatter_expand, sqSum_append_self, size_append_self,
    vecSum_append_self, sqSum_new hc, vecSum_new hc, size_new hc, if_pos rfl, centroid_append_ne S x hac, dot_add_left]
  congr 2
  simp only [dot]
  simp
  ring

theorem colOld_rep {S : Stream d} {s : Core} {ks : List ℤ} (hks : KeysOf ks S) (h : Tables ks S s) (x : Pt d) {a c : ℤ}
    (ha : a ∈ ks) (hac : a ≠ c) (hc : c ∈ ks) :
    (s.v.row (ks.idxOf a) >>= colOldEntry (.fin (sqSum S c)) (size S c) (enc fun i => vecSum S c i + x i) (enc x)) =
      .ok (.fin (entry (S ++ [(x, c)]) c a)) := by
  have hn := size_pos ((hks.mem c).mp hc)
  have hn' : ((size S c + 1 : ℕ) : ℝ) ≠ 0 := by positivity
  rw [h.nv.v, row_rep ha, except_bind_ok, colOldEntry, sub_enc, except_bind_ok, inner_enc, except_bind_ok, inner_enc,
    except_bind_ok, inner_enc, except_bind_ok, except_pure,
    XR.fin_add, XR.fin_mul, XR.fin_add, XR.fin_mul, XR.fin_sub, XR.fin_div_of_ne _ hn',
    entry_append_row S x hac, crossScatter_expand, sqSum_append_self, size_append_self,
    vecSum_append_self, if_neg hn.ne', centroid_append_ne S x hac]
  congr 2
  have e1 : ∑ i, (x i - centroid S a i) * (x i - centroid S a i) = dot x x + dot (centroid S a) (centroid S a)
      - 2 * dot x (centroid S a) := by
    rw [← dist2_expand]; simp only [dist2, pow_two]
  have e2 : ∑ i, (vecSum S c i + x i) * centroid S a i = dot (vecSum S c) (centroid S a) + dot x (centroid S a) :=
    dot_add_left _ _ _
  have e3 : ∑ i, centroid S a i * centroid S a i = dot (centroid S a) (centroid S a) := rfl
  rw [e1, e2, e3, dot_add_left, ← add_div]
  congr 1
  push_cast
  ring

theorem own_rep (S : Stream d) (x : Pt d) (c : ℤ) :
    colOldEntry (.fin (sqSum S c)) (size S c) (enc (vecSum S c)) (enc x) (enc (centroid (S ++ [(x, c)]) c)) =
      .ok (.fin (entry (S ++ [(x, c)]) c c)) := by
  have hn' : ((size S c + 1 : ℕ) : ℝ) ≠ 0 := by positivity
  rw [colOldEntry, sub_enc, except_bind_ok, inner_enc, except_bind_ok, inner_enc,
    except_bind_ok, inner_enc, except_bind_ok, except_pure,
    XR.fin_add, XR.fin_mul, XR.fin_add, XR.fin_mul, XR.fin_sub, XR.fin_div_of_ne _ hn',
    entry_append_col, crossScatter_expand, sqSum_append_self, size_append_self,
    vecSum_append_self]
  congr 2
  generalize centroid (S ++ [(x, c)]) c = w
  have e1 : ∑ i, (x i - w i) * (x i - w i) = dot x x + dot w w - 2 * dot x w := by
    rw [← dist2_expand]; simp only [dist2, pow_two]
  have e2 : ∑ i, vecSum S c i * w i = dot (vecSum S c) w := rfl
  have e3 : ∑ i, w i * w i = dot w w := rfl
  rw [e1, e2, e3, dot_add_left]
  congr 1
  push_cast
  ring

theorem setS_rep {s : Core} {ks : List ℤ} {c : ℤ} {g g' : ℤ → ℤ → XR}
    (hn : ks.Nodup) (hc : c ∈ ks) (h : s.Sm = sqMat ks g)
    (hg : ∀ a ∈ ks, ∀ b ∈ ks, a ≠ c → b ≠ c → g' a b = g a b) :
    setS (ks.idxOf c) (ks.map (g' c)) (ks.map fun a => g' a c) s = .ok () { s with Sm := sqMat ks g' } := by
  have h1 := sqMat_setRow hn (g := g) hc (g' c)
  have h2 := sqMat_setCross hn (g := g) (g' := g') hc (g' c) (fun a => g' a c) (fun b hb _ => rfl) (fun _ _ => rfl) hg
  rw [setCross, h1, except_bind_ok] at h2
  simp [setS, h, h1, h2]

theorem sNew_rep {S : Stream d} {s : Core} (h : Mid S s) (x : Pt d) {c : ℤ} (hc : c ∉ keys S) :
    sNew s (keys S).length (enc x) (.fin (dot x x)) =
      .ok (sqMat (keys S ++ [c]) fun a b => .fin (entry (S ++ [(x, c)]) a b)) := by
  have hcl : c ∉ labels S := fun h => hc (mem_keys.mpr h)
  have hcc : XR.fin (entry (S ++ [(x, c)]) c c) = 0 := by
    rw [entry_append_col, crossScatter_self_singleton (size_append_new S x hcl)]; rfl
  rw [sNew, h.tables.nv.k]
  by_cases hk : (keys S).length = 0
  · have : keys S = [] := List.length_eq_zero_iff.mp hk
    rw [if_pos hk, this]
    simp [sqMat, Arr2.zeros, Vec.zeros, hcc]
  · have hne : keys S ≠ [] := fun e => hk (by simp [e])
    rw [if_neg hk, h.Sm hne, enlarge_sqMat hc, except_bind_ok,
      columnNew_keys (keys_nodup S) (g := fun a => .fin (entry (S ++ [(x, c)]) c a)), except_bind_ok,
      columnNew_keys (keys_nodup S) (g := fun a => .fin (entry (S ++ [(x, c)]) a c)), except_bind_ok]
    · have h1 : ((keys S).map fun a => XR.fin (entry (S ++ [(x, c)]) c a)) ++ [0] =
          (keys S ++ [c]).map fun a => XR.fin (entry (S ++ [(x, c)]) c a) := by simp [hcc]
      have h2 : ((keys S).map fun a => XR.fin (entry (S ++ [(x, c)]) a c)) ++ [0] =
          (keys S ++ [c]).map fun a => XR.fin (entry (S ++ [(x, c)]) a c) := by simp [hcc]
      rw [h1, h2]
      conv_lhs => rw [← idxOf_append_new hc]
      apply sqMat_setCross (nodup_append_new (keys_nodup S) hc) (by simp)
      · intro b _ _; rfl
      · intro a _; rfl
      · intro a ha b hb hac hbc
        simp [hac, hbc, entry_append_ne S x hac hbc]
    · intro a ha
      have := rowEntry_rep (keysOf_keys S) h.tables x ha (fun e : a = c => hc (e ▸ ha))
      rwa [centroid_append_new S x hcl] at this
    · intro a ha
      exact colNew_rep h.tables x ha (fun e : a = c => hc (e ▸ ha)) hcl

theorem branch {S : Stream d} {s : Core} {x : Pt d} {c : ℤ} (h : Mid S s) :
    (if ((keys S).idxOf c : ℤ) > (s.nClusters : ℤ) - 1 then incNew (enc x) ((keys S).idxOf c)
      else incOld (enc x) ((keys S).idxOf c)) s =
      .ok () (tabledS (keys (S ++ [(x, c)])) (S ++ [(x, c)]) s) := by
  rw [keys_append]
  have nv := h.tables.nv
  by_cases hc : c ∈ keys S
  · rw [if_neg (by rw [isNew_iff nv.k]; simpa using hc), addKey_old hc, incOld]
    refine get_bind (lift_bind (by rw [nv.n]; exact get_rep hc) (lift_bind (by rw [nv.v]; exact row_rep hc)
      (lift_bind (centroid_step S x c) (lift_bind (by rw [h.tables.cp]; rfl) (lift_bind (get_rep hc)
        (lift_bind (inner_enc x x) (lift_bind (by rw [h.tables.g]; rfl) (lift_bind (row_rep hc)
          (lift_bind (add_enc _ _) (lift_bind (own_rep S x c) ?_))))))))))
    refine lift_bind (a := (keys S).map fun a => .fin (entry (S ++ [(x, c)]) c a)) ?_ ?_
    · rw [colOld, nv.k]
      apply mapE_range_keys (keys_nodup S)
      intro a ha
      by_cases e : a = c
      · subst e; simp
      · rw [if_neg fun h' => e ((idxOf_inj ha).mp h')]
        exact colOld_rep (keysOf_keys S) h.tables x ha e hc
    refine lift_bind (a := (keys S).map fun a => .fin (entry (S ++ [(x, c)]) a c)) ?_ ?_
    · rw [rowOld, nv.k]
      apply mapE_range_keys (keys_nodup S)
      intro a ha
      by_cases e : a = c
      · subst e; simp
      · rw [if_neg fun h' => e ((idxOf_inj ha).mp h')]
        exact rowEntry_rep (keysOf_keys S) h.tables x ha e
    refine bind_ok_of (setN_rep (keys_nodup S) hc nv.n (f' := size (S ++ [(x, c)])) (size_append_self S x c).symm
      fun a _ ha => size_append_ne S x ha) ?_
    refine bind_ok_of (setV_rep (keys_nodup S) hc nv.v (f' := fun a => enc (centroid (S ++ [(x, c)]) a))
      rfl (by simp) fun a _ ha => by rw [centroid_append_ne S x ha]) ?_
    refine bind_ok_of (setCP_rep (keys_nodup S) hc h.tables.cp (f' := fun a => XR.fin (sqSum (S ++ [(x, c)]) a))
      (by rw [sqSum_append_self]; rfl) fun a _ ha => by rw [sqSum_append_ne S x ha]) ?_
    refine bind_ok_of (setG_rep (keys_nodup S) hc h.tables.g (f' := fun a => enc (vecSum (S ++ [(x, c)]) a))
      (by rw [vecSum_append_self]) (by simp) fun a _ ha => by rw [vecSum_append_ne S x ha]) ?_
    refine (setS_rep (g' := fun a b => .fin (entry (S ++ [(x, c)]) a b)) (keys_nodup S) hc
      (g := fun a b => .fin (entry S a b)) ?_ ?_).trans ?_
    · exact h.Sm (List.ne_nil_of_mem hc)
    · intro a _ b _ ha hb
      rw [entry_append_ne S x ha hb]
    · simp [tabledS, ← nv.k]
  · have hcl : c ∉ labels S := fun h => hc (mem_keys.mpr h)
    rw [if_pos (by rw [isNew_iff nv.k]; exact hc), addKey_new hc, incNew, List.idxOf_eq_length hc]
    refine get_bind (lift_bind (inner_enc x x) (lift_bind (sNew_rep h x hc) ?_))
    refine modify_bind ?_
    refine bind_ok_of (appendN_rep hc nv.n (f' := size (S ++ [(x, c)])) (size_append_new S x hcl).symm
      fun a _ ha => size_append_ne S x ha) ?_
    refine bind_ok_of (appendCP_rep hc h.tables.cp (f' := fun a => XR.fin (sqSum (S ++ [(x, c)]) a))
      (by rw [sqSum_append_self, sqSum_new hcl, zero_add]; rfl) fun a _ ha => by rw [sqSum_append_ne S x ha]) ?_
    refine bind_ok_of (vstackV_rep hc nv.v (f' := fun a => enc (centroid (S ++ [(x, c)]) a))
      (by rw [centroid_append_new S x hcl]) (by simp) fun a _ ha => by rw [centroid_append_ne S x ha]) ?_
    refine bind_ok_of (vstackG_rep hc h.tables.g (f' := fun a => enc (vecSum (S ++ [(x, c)]) a))
      (by rw [vecSum_append_self, vecSum_new hcl]; simp) (by simp) fun a _ ha => by rw [vecSum_append_ne S x ha]) ?_
    simp [tabledS, nv.k]

theorem step (S : Stream d) (s : Core) (x : Pt d) (c : ℤ) (h : Start CSILmod.init Rep S s) :
    ∃ s', incBody (enc x) ((keys S).idxOf c) s = .ok () s' ∧ Rep (S ++ [(x, c)]) s' := by
  obtain ⟨hn, s1, h1, hm⟩ := start x h
  refine ⟨_, get_bind (bind_ok_of h1 (get_bind (bind_ok_of (branch hm) rfl))), ?_⟩
  refine ⟨⟨⟨hm.tables.nv.dim, rfl, rfl, rfl⟩, rfl, rfl⟩, rfl, ?_, hm.isSetup⟩
  simp [hn]

/-! ## Evaluation -/

theorem any_sqMat (ks : List ℤ) (E : ℤ → ℤ → ℝ) :
    (sqMat ks fun a b => .fin (E a b)).any = true ↔ ¬ ∀ a ∈ ks, ∀ b ∈ ks, E a b = 0 := by
  simp only [Arr2.any, sqMat, List.any_map, List.any_eq_true, Function.comp, XR.truthy, decide_eq_true_eq]
  push Not
  rfl

theorem coef_rep {S : Stream d} {ks : List ℤ} (hks : KeysOf ks S) (hk : 1 < ks.length) (E : ℤ → ℤ → ℝ) {c : ℤ}
    (hc : c ∈ ks) :
    coef (sqMat ks fun a b => .fin (E a b)) (ks.idxOf c) =
      .ok (XR.fin (sInf (otherValues S c fun b => E b c) - E c c) /
        XR.fin (max (E c c) (sInf (otherValues S c fun b => E b c)))) := by
  have hl := List.idxOf_lt_length_of_mem hc
  have key := amin_delete hks hk hc (fun b => E b c) (fun b => .fin (E b c)) fun _ _ _ => rfl
  rw [coef, sqMat_get hc hc, except_bind_ok, sqMat_col hc, except_bind_ok]
  rw [Vec.delete, if_pos (by simpa using hl), except_bind_ok] at key ⊢
  rw [key, except_bind_ok, except_pure, XR.fin_sub, XR.max_fin]

/-- The value computed from the tables. -/
theorem evaluate_rep {S : Stream d} {s : Core} {ks : List ℤ} (hks : KeysOf ks S) (hk : s.nClusters = ks.length)
    {E : ℤ → ℤ → ℝ} (hS : s.Sm = sqMat ks fun a b => .fin (E a b)) :
    ∃ cs, evaluate s = .ok () { s with silCoefs := cs, criterion := silValue S E } := by
  rw [evaluate]
  have hn := hks.length
  have hz : (∀ a ∈ ks, ∀ b ∈ ks, E a b = 0) ↔ ∀ a ∈ labels S, ∀ b ∈ labels S, E a b = 0 := by simp only [hks.mem]
  by_cases h : 1 < ks.length ∧ ¬ ∀ a ∈ ks, ∀ b ∈ ks, E a b = 0
  · refine ⟨ks.map fun c => XR.fin (sInf (otherValues S c fun b => E b c) - E c c) /
        XR.fin (max (E c c) (sInf (otherValues S c fun b => E b c))), modify_bind (get_bind ?_)⟩
    have hcond : s.nClusters > 1 ∧ s.Sm.any = true := by rw [hk, hS, any_sqMat]; exact h
    rw [if_pos hcond]
    refine lift_bind (a := ks.map fun c => XR.fin (sInf (otherValues S c fun b => E b c) - E c c) /
        XR.fin (max (E c c) (sInf (otherValues S c fun b => E b c)))) ?_ ?_
    · simp only [hk, hS]
      exact mapE_range_keys hks.nodup fun c hc => coef_rep hks h.1 E hc
    · rw [modify_apply, silValue, if_neg (by omega), if_neg (by rw [← hz]; exact h.2)]
      have e : (ks.map fun c => XR.fin (sInf (otherValues S c fun b => E b c) - E c c) /
        XR.fin (max (E c c) (sInf (otherValues S c fun b => E b c)))).sum = ∑ c ∈ labels S,
        XR.fin (sInf (otherValues S c fun b => E b c) - E c c) /
        XR.fin (max (E c c) (sInf (otherValues S c fun b => E b c))) := by
        have : labels S = ks.toFinset := by ext c; simp [hks.mem]
        rw [this, List.sum_toFinset _ hks.nodup]
      simp only [e, hk, hn]
  · refine ⟨Vec.zeros s.nClusters, modify_bind (get_bind ?_)⟩
    have hcond : ¬ (s.nClusters > 1 ∧ s.Sm.any = true) := by rw [hk, hS, any_sqMat]; exact h
    rw [if_neg hcond, modify_apply]
    have : silValue S E = .fin 0 := by
      rw [silValue]
      by_cases h1 : numClusters S ≤ 1
      · rw [if_pos h1]
      · rw [if_neg h1, if_pos]
        rw [← hz]
        by_contra h2
        exact h ⟨by omega, h2⟩
    rw [this]

/-- Incremental cSIL computes `actual`. -/
theorem refines : Refines CSILmod (Rep (d := d)) actual where
  concrete := rfl
  step := step
  eval S s _ h := by
    obtain ⟨cs, e⟩ := evaluate_rep (keysOf_keys S) h.tables.nv.k h.Sm
    exact ⟨_, e, rfl, ⟨⟨⟨h.tables.nv.dim, h.tables.nv.k, h.tables.nv.n, h.tables.nv.v⟩, h.tables.cp, h.tables.g⟩, h.Sm,
      h.nSamples, h.isSetup⟩⟩

theorem crossScatter_nonneg (S : Stream d) (a b : ℤ) : 0 ≤ crossScatter S a b := by
  apply div_nonneg _ (Nat.cast_nonneg _)
  apply List.sum_nonneg
  intro r hr
  obtain ⟨p, _, rfl⟩ := List.mem_map.mp hr
  exact dist2_nonneg _ _

theorem silOther_nonneg (S : Stream d) (c : ℤ) : 0 ≤ silOther S c :=
  sInf_otherValues_nonneg S c fun b => crossScatter_nonneg S b c

/-- With the matrix of the definition the evaluation gives the defined value. -/
theorem silValue_crossScatter (S : Stream d) : silValue S (crossScatter S) = Spec.cSIL S := by
  rw [silValue, Spec.cSIL]
  by_cases h1 : numClusters S ≤ 1
  · rw [if_pos h1, if_pos h1]
  rw [if_neg h1, if_neg h1]
  split
  · rfl
  have hk : (numClusters S : ℝ) ≠ 0 := by
    have : 0 < numClusters S := by omega
    positivity
  have ht : ∀ c, XR.fin (silOther S c - crossScatter S c c) / XR.fin (max (crossScatter S c c) (silOther S c)) =
      if crossScatter S c c = 0 ∧ silOther S c = 0 then .nan
      else .fin ((silOther S c - crossScatter S c c) / max (crossScatter S c c) (silOther S c)) := by
    intro c
    have ha := crossScatter_nonneg S c c
    have hb := silOther_nonneg S c
    by_cases h : crossScatter S c c = 0 ∧ silOther S c = 0
    · rw [if_pos h, h.1, h.2, XR.fin_div, sub_self, max_self, XR.idiv_zero_zero]
    · rw [if_neg h, XR.fin_div_of_ne]
      intro e
      apply h
      constructor
      · exact le_antisymm (e ▸ le_max_left _ _) ha
      · exact le_antisymm (e ▸ le_max_right _ _) hb
  have hc : (∑ c ∈ labels S, XR.fin (sInf (otherValues S c fun b => crossScatter S b c) - crossScatter S c c) /
      XR.fin (max (crossScatter S c c) (sInf (otherValues S c fun b => crossScatter S b c)))) =
      ∑ c ∈ labels S, (if crossScatter S c c = 0 ∧ silOther S c = 0 then XR.nan
      else .fin ((silOther S c - crossScatter S c c) / max (crossScatter S c c) (silOther S c))) :=
    Finset.sum_congr rfl fun c _ => ht c
  rw [hc]
  have hks := keysOf_keys S
  have hl : labels S = (keys S).toFinset := labels_eq S
  split
  · rename_i h
    obtain ⟨c, hc, h⟩ := h
    rw [hl, List.sum_toFinset _ hks.nodup, XR.sum_eq_nan]
    · rfl
    · exact List.mem_map.mpr ⟨c, (hks.mem c).mpr hc, if_pos h⟩
  · rename_i h
    have : ∑ c ∈ labels S, (if crossScatter S c c = 0 ∧ silOther S c = 0 then XR.nan
        else .fin ((silOther S c - crossScatter S c c) / max (crossScatter S c c) (silOther S c))) =
        ∑ c ∈ labels S, XR.fin ((silOther S c - crossScatter S c c) / max (crossScatter S c c) (silOther S c)) :=
      Finset.sum_congr rfl fun c hc => if_neg fun h' => h ⟨c, hc, h'⟩
    rw [this, hl, List.sum_toFinset _ hks.nodup, hks.sumX, ← hl, XR.fin_div_of_ne _ hk]

end Verif.CSIL
