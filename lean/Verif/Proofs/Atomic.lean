import Verif.Proofs.Broadcast

/-!
# What a rejected sample leaves behind
-/

namespace Verif
open Spec Py

variable {d : ℕ}

theorem py_bind_inv {σ α β : Type} {x : Py σ α} {f : α → Py σ β} {s s'' : σ} {b : β} (h : (x >>= f) s = .ok b s'') :
    ∃ a s', x s = .ok a s' ∧ f a s' = .ok b s'' := by
  rw [bind_apply] at h
  cases hr : x s with
  | err e t => rw [hr] at h; cases h
  | ok a t => rw [hr] at h; exact ⟨a, t, rfl, h⟩

theorem py_lift_inv {σ α β : Type} {x : Except PyErr α} {f : α → Py σ β} {s s'' : σ} {b : β}
    (h : (Py.lift x >>= f) s = .ok b s'') : ∃ a, x = .ok a ∧ f a s = .ok b s'' := by
  cases x with
  | error e => cases h
  | ok a => exact ⟨a, rfl, h⟩

theorem lift_err {σ α β : Type} {x : Except PyErr α} {f : α → Py σ β} {s : σ} {e : PyErr} (h : x = .error e) :
    (Py.lift x >>= f) s = .err e s := by rw [h]; rfl

/-! ## Nothing is assigned before the exception -/

theorem mapE_first_err {α β : Type} {f : α → Except PyErr β} {a : α} {l : List α} {e : PyErr} (h : f a = .error e) :
    mapE f (a :: l) = .error e := by rw [mapE, h]; rfl

theorem columnNew_first_err {k : ℕ} {f : ℕ → Except PyErr XR} {e : PyErr} (hk : k ≠ 0) (h : f 0 = .error e) :
    columnNew k f = .error e := by
  obtain ⟨m, rfl⟩ := Nat.exists_eq_succ_of_ne_zero hk
  rw [columnNew, List.range_succ_eq_map, mapE_first_err h]
  rfl

theorem distNew_first_err {k i : ℕ} {ks : List ℤ} {D : Arr2} {g : ℤ → ℤ → XR} {f : ℕ → Except PyErr XR} {e : PyErr}
    {c : ℤ} (hc : c ∉ ks) (hD : D = sqMat ks g) (hk : k = ks.length) (h0 : ks ≠ []) (h : f 0 = .error e) :
    distNew k i D f = .error e := by
  subst hk hD
  have hk : ks.length ≠ 0 := by simpa using h0
  rw [distNew, if_neg hk, enlarge_sqMat hc, except_bind_ok, columnNew_first_err hk h]
  rfl

theorem sub_err {a b : Vec} (h : a.length ≠ b.length) (h1 : a.length ≠ 1) (h2 : b.length ≠ 1) :
    Vec.sub a b = .error .valueError := bin_err h h1 h2

theorem sqDist_err {a b : Vec} (h : a.length ≠ b.length) (h1 : a.length ≠ 1) (h2 : b.length ≠ 1) :
    Vec.sqDist a b = .error .valueError := by rw [Vec.sqDist, sub_err h h1 h2]; rfl

theorem row_zero {S : Stream d} {s : Core} {b : Bool} {ks : List ℤ} (nv : RepNV b ks S s) (h0 : ks ≠ []) :
    ∃ r, s.v.row 0 = .ok r ∧ r.length = d := by
  cases ks with
  | nil => exact absurd rfl h0
  | cons c ks =>
    refine ⟨enc (centroid S c), ?_, by simp⟩
    rw [nv.v]; rfl

theorem exists_not_mem (ks : List ℤ) : ∃ c : ℤ, c ∉ ks := by
  obtain ⟨c, hc⟩ := Infinite.exists_notMem_finset ks.toFinset
  exact ⟨c, by simpa using hc⟩

theorem keys_ne_nil {S : Stream d} (hS : S ≠ []) : keys S ≠ [] := by
  intro e
  obtain ⟨p, hp⟩ := List.exists_mem_of_ne_nil S hS
  have : p.2 ∈ keys S := mem_keys.mpr (by simp only [labels, List.mem_toFinset]; exact List.mem_map_of_mem hp)
  simp [e] at this

/-- A sample whose length is neither 1 nor the number of features (itself not 1): nothing but the label map is touched. -/
theorem incBody_atomic {I : Index} {S : Stream d} {s : Core} (hS : S ≠ []) (h : I.Rep S s) {y : Vec} {i : ℕ} (hd : d ≠ 1)
    (hy : y.length ≠ d) (h1 : y.length ≠ 1) : I.mod.incBody y i s = .err .valueError s := by
  obtain ⟨nv, hns, hmu⟩ := rep_core h
  have hl : s.nSamples ≠ 0 := by rw [hns]; simpa using hS
  have hks : keys S ≠ [] := keys_ne_nil hS
  obtain ⟨c0, hc0⟩ := exists_not_mem (keys S)
  obtain ⟨r0, hr0, hlr0⟩ := row_zero nv hks
  have hsix : ∀ {setupC : Vec → Py Core Unit} {f : Core → Unit → Py Core Unit}, s.mu = enc (mean S) →
      (Py.get >>= fun s0 : Core => setupOrMu setupC y >>= f s0) s = .err .valueError s := by
    intro setupC f hm
    rw [bind_apply, get_apply, Res.bind_ok, bind_apply, setupOrMu, bind_apply, get_apply, Res.bind_ok, if_neg hl]
    rw [lift_err (e := .valueError)]
    · rfl
    · rw [hm]
      exact runningMean_err (by simpa using Ne.symm hy) (by simpa using hd) h1
  have hif : ∀ {setupC : Vec → Py Core Unit}, setupIfFirst setupC y s = .ok () s := by
    intro setupC
    rw [setupIfFirst, bind_apply, get_apply, Res.bind_ok, if_neg hl]; rfl
  have hrm : ∀ {i n : ℕ} {r : Vec}, s.v.row i = .ok r → runningMean n r y = .error .valueError := by
    intro i n r hr
    have := (row_length (rect_rep h).1 hr).trans (rect_rep h).2
    exact runningMean_err (by rw [this]; exact Ne.symm hy) (by rw [this]; exact hd) h1
  have hold : ∀ {f : ℕ → Vec → Vec → Py Core Unit}, ¬ ((i : ℤ) > (s.nClusters : ℤ) - 1) →
      (Py.lift (s.n.get i) >>= fun nOld => Py.lift (s.v.row i) >>= fun vRow =>
        Py.lift (runningMean (nOld + 1) vRow y) >>= f nOld vRow) s = .err .valueError s := by
    intro f hi
    have hi' : i < (keys S).length := by rw [← nv.k]; omega
    have e1 : s.n.get i = .ok (size S ((keys S)[i])) := by simp [nv.n, Seq.get, hi']
    have e2 : s.v.row i = .ok (enc (centroid S ((keys S)[i]))) := by simp [nv.v, Arr2.row, hi']
    exact lift_bind e1 (lift_bind e2 (lift_err (hrm e2)))
  cases I
  · exact hsix (hmu (by simp) (by simp) (by simp))
  · exact hsix (hmu (by simp) (by simp) (by simp))
  · exact hsix (hmu (by simp) (by simp) (by simp))
  · exact hsix (hmu (by simp) (by simp) (by simp))
  · exact hsix (hmu (by simp) (by simp) (by simp))
  · exact hsix (hmu (by simp) (by simp) (by simp))
  · refine get_bind (bind_ok_of hif (get_bind ?_))
    rw [bind_apply, ite_app]
    split
    · have : PS.incNew y i s = .err .valueError s := by
        refine get_bind (lift_err ?_)
        refine distNew_first_err hc0 (PS.Rep.D h) nv.k hks ?_
        rw [PS.dist, hr0, except_bind_ok]
        exact sqDist_err (by rwa [hlr0]) h1 (by rwa [hlr0])
      rw [this]; rfl
    · rename_i hi
      have : PS.incOld y i s = .err .valueError s := get_bind (hold hi)
      rw [this]; rfl
  · have hconst : ({ s with constant := RCIP.normConst s.dim } : Core) = s := by
      have e : RCIP.normConst s.dim = s.constant := by rw [nv.dim, RCIP.normConst_eq, ← (RCIP.Rep.consts h).constant]
      rw [e]
    refine get_bind (bind_ok_of hif (modify_bind ?_))
    rw [hconst]
    refine get_bind ?_
    rw [bind_apply, ite_app]
    split
    · have : RCIP.incNew y i s = .err .valueError s := by
        refine get_bind (lift_err ?_)
        refine distNew_first_err hc0 (RCIP.Rep.D h) nv.k hks ?_
        have hp : ∃ p, RCIP.page s 0 = .ok p := by
          have := RCIP.Rep.sigma h
          rw [RCIP.RepSigma] at this
          cases hk : keys S with
          | nil => exact absurd hk hks
          | cons c ks => exact ⟨_, by rw [RCIP.page, this, hk]; rfl⟩
        obtain ⟨p, hp⟩ := hp
        rw [RCIP.dist, hr0, except_bind_ok, hp, except_bind_ok, RCIP.cip,
          sub_err (by rwa [hlr0]) h1 (by rwa [hlr0])]
        rfl
      rw [this]; rfl
    · rename_i hi
      have : RCIP.incOld y i s = .err .valueError s := get_bind (hold hi)
      rw [this]; rfl
  · refine get_bind (bind_ok_of hif (get_bind ?_))
    rw [bind_apply, ite_app]
    split
    · have : CSIL.incNew y i s = .err .valueError s := by
        refine get_bind (lift_bind (a := (List.zipWith (· * ·) y y).sum) (by simp [Vec.inner]) (lift_err ?_))
        have hk : s.nClusters ≠ 0 := by rw [nv.k]; simpa using hks
        rw [CSIL.sNew, if_neg hk, nv.k, CSIL.Rep.Sm h, enlarge_sqMat hc0, except_bind_ok, columnNew_first_err (e := .valueError)]
        · rfl
        · simpa using hks
        · rw [CSIL.colNew, hr0, except_bind_ok, Vec.inner, if_pos rfl, except_bind_ok, Vec.inner,
            if_neg (by rwa [hlr0])]
          rfl
      rw [this]; rfl
    · rename_i hi
      have : CSIL.incOld y i s = .err .valueError s := get_bind (hold hi)
      rw [this]; rfl

/-! ## Internal labels that are too large -/

theorem enlarge_rows {k : ℕ} {D E : Arr2} (h : enlarge k D = .ok E) : E.rows.length = k + 1 := by
  rw [enlarge] at h
  obtain ⟨b, hb, h⟩ := except_bind_inv h
  cases h
  rw [Arr2.broadcastTo] at hb
  obtain ⟨rs, hrs, hb⟩ := except_bind_inv hb
  have hrl : rs.length = k := by
    split at hrs
    · cases hrs; assumption
    · split at hrs
      · cases hrs; simp
      · cases hrs
  split at hb
  · cases hb; simp [hrl]
  · split at hb
    · cases hb; simp [hrl]
    · cases hb

theorem setCross_err {D : Arr2} {i : ℕ} {r c : Vec} (h : D.rows.length ≤ i) : setCross D i r c = .error .indexError := by
  rw [setCross, Arr2.setRow, if_neg (by omega)]; rfl

theorem distNew_far {k i : ℕ} {D E : Arr2} {f : ℕ → Except PyErr XR} (hk : k ≠ 0) (h : distNew k k D f = .ok E) (hi : k < i) :
    distNew k i D f = .error .indexError := by
  rw [distNew, if_neg hk] at h ⊢
  obtain ⟨Dn, h1, h⟩ := except_bind_inv h
  obtain ⟨c, h2, h⟩ := except_bind_inv h
  rw [h1, except_bind_ok, h2, except_bind_ok, setCross_err]
  rw [enlarge_rows h1]
  omega

theorem sNew_far {s : Core} {k i : ℕ} {y : Vec} {x : XR} {E : Arr2} (hk : s.nClusters = k) (h0 : k ≠ 0)
    (h : CSIL.sNew s k y x = .ok E) (hi : k < i) : CSIL.sNew s i y x = .error .indexError := by
  rw [CSIL.sNew, if_neg (by omega)] at h ⊢
  obtain ⟨Dn, h1, h⟩ := except_bind_inv h
  obtain ⟨c, h2, h⟩ := except_bind_inv h
  obtain ⟨r, h3, h⟩ := except_bind_inv h
  rw [h1, except_bind_ok, h2, except_bind_ok, h3, except_bind_ok, setCross_err]
  rw [enlarge_rows h1]
  omega

/-- If the update works for the next free internal label, it raises for a larger one. -/
theorem inc_far {s s' : Core} {k i : ℕ} {su : Py Core Unit} {new old : ℕ → Py Core Unit} {f : ℕ → Unit → Py Core Unit}
    (hsu : ∀ s1, su s = .ok () s1 → s1.nClusters = k) (hi : k < i)
    (hnew : ∀ s1 s2, s1.nClusters = k → new k s1 = .ok () s2 → new i s1 = .err .indexError s1)
    (h : (Py.get >>= fun s0 : Core => su >>= fun _ => Py.get >>= fun s : Core =>
      (if (k : ℤ) > (s.nClusters : ℤ) - 1 then new k else old k) >>= f s0.nSamples) s = .ok () s') :
    ∃ s3, (Py.get >>= fun s0 : Core => su >>= fun _ => Py.get >>= fun s : Core =>
      (if (i : ℤ) > (s.nClusters : ℤ) - 1 then new i else old i) >>= f s0.nSamples) s = .err .indexError s3 := by
  obtain ⟨_, _, e, h⟩ := py_bind_inv h
  cases e
  obtain ⟨_, s1, e1, h⟩ := py_bind_inv h
  obtain ⟨_, _, e, h⟩ := py_bind_inv h
  cases e
  have hk := hsu s1 e1
  obtain ⟨_, s2, e2, _⟩ := py_bind_inv h
  rw [ite_app, if_pos (by omega)] at e2
  refine ⟨s1, get_bind (bind_ok_of e1 (get_bind ?_))⟩
  rw [bind_apply, ite_app, if_pos (by omega), hnew s1 s2 hk e2]
  rfl

theorem incBody_far {I : Index} (h1 : I ≠ .CH) (h2 : I ≠ .WB) {s s' : Core} {k i : ℕ} {y : Vec} (hk : s.nClusters = k)
    (h0 : k ≠ 0) (hn : s.nSamples ≠ 0) (hi : k < i) (h : I.mod.incBody y k s = .ok () s') :
    ∃ s3, I.mod.incBody y i s = .err .indexError s3 := by
  have hsu : ∀ {setupC : Vec → Py Core Unit} s1, setupOrMu setupC y s = .ok () s1 → s1.nClusters = k := by
    intro setupC s1 e
    have := vk_setupOrMu (w := s.v) (k := k) (setupC := setupC) (y := y) s ⟨⟨rfl, hk⟩, hn⟩
    rw [e] at this
    exact this.2
  have hif : ∀ {setupC : Vec → Py Core Unit} s1, setupIfFirst setupC y s = .ok () s1 → s1.nClusters = k := by
    intro setupC s1 e
    have := vk_setupIfFirst (w := s.v) (k := k) (setupC := setupC) (y := y) s ⟨⟨rfl, hk⟩, hn⟩
    rw [e] at this
    exact this.2
  cases I
  · exact absurd rfl h1
  · exact absurd rfl h2
  · exact inc_far (su := setupOrMu XB.setup y) (new := XB.incNew y) (old := XB.incOld y)
      (f := fun n _ => Py.modify fun s => { s with nSamples := n + 1 }) hsu hi
      (fun s1 s2 a b => by
        obtain ⟨_, _, e', b⟩ := py_bind_inv b
        cases e'
        obtain ⟨E, e1, _⟩ := py_lift_inv b
        rw [a] at e1
        exact get_bind (lift_err (by rw [a]; exact distNew_far h0 e1 hi))) h
  · exact inc_far (su := setupOrMu DB.setup y) (new := DB.incNew y) (old := DB.incOld y)
      (f := fun n _ => Py.modify fun s => { s with nSamples := n + 1 }) hsu hi
      (fun s1 s2 a b => by
        obtain ⟨_, _, e', b⟩ := py_bind_inv b
        cases e'
        obtain ⟨E, e1, _⟩ := py_lift_inv b
        rw [a] at e1
        exact get_bind (lift_err (by rw [a]; exact distNew_far h0 e1 hi))) h
  · exact inc_far (su := setupOrMu GD43.setup y) (new := GD43.incNew y) (old := GD43.incOld y)
      (f := fun n _ => Py.modify fun s => { s with nSamples := n + 1 }) hsu hi
      (fun s1 s2 a b => by
        obtain ⟨_, _, e', b⟩ := py_bind_inv b
        cases e'
        obtain ⟨E, e1, _⟩ := py_lift_inv b
        rw [a] at e1
        exact get_bind (lift_err (by rw [a]; exact distNew_far h0 e1 hi))) h
  · exact inc_far (su := setupOrMu GD53.setup y) (new := GD53.incNew y) (old := GD53.incOld y)
      (f := fun n _ => Py.modify fun s => { s with nSamples := n + 1 }) hsu hi
      (fun s1 s2 a b => by
        obtain ⟨_, _, e', b⟩ := py_bind_inv b
        cases e'
        obtain ⟨E, e1, _⟩ := py_lift_inv b
        rw [a] at e1
        exact get_bind (lift_err (by rw [a]; exact distNew_far h0 e1 hi))) h
  · exact inc_far (su := setupIfFirst PS.setup y) (new := PS.incNew y) (old := PS.incOld y)
      (f := fun n _ => Py.modify fun s => { s with nSamples := n + 1 }) hif hi
      (fun s1 s2 a b => by
        obtain ⟨_, _, e', b⟩ := py_bind_inv b
        cases e'
        obtain ⟨E, e1, _⟩ := py_lift_inv b
        rw [a] at e1
        exact get_bind (lift_err (by rw [a]; exact distNew_far h0 e1 hi))) h
  · obtain ⟨_, _, e, h⟩ := py_bind_inv h
    cases e
    obtain ⟨_, s1, e1, h⟩ := py_bind_inv h
    have hk1 := hif s1 e1
    obtain ⟨_, _, e, h⟩ := py_bind_inv h
    cases e
    obtain ⟨_, _, e, h⟩ := py_bind_inv h
    cases e
    obtain ⟨_, s2, e2, _⟩ := py_bind_inv h
    rw [ite_app, if_pos (by show (k : ℤ) > (s1.nClusters : ℤ) - 1; omega)] at e2
    obtain ⟨_, _, e', b⟩ := py_bind_inv e2
    cases e'
    obtain ⟨E, e3, _⟩ := py_lift_inv b
    have : RCIP.incNew y i { s1 with constant := RCIP.normConst s1.dim } =
        .err .indexError { s1 with constant := RCIP.normConst s1.dim } := by
      refine get_bind (lift_err ?_)
      show distNew s1.nClusters i _ _ = _
      change distNew s1.nClusters k _ _ = _ at e3
      rw [hk1] at e3 ⊢
      exact distNew_far h0 e3 hi
    refine ⟨{ s1 with constant := RCIP.normConst s1.dim }, get_bind (bind_ok_of e1 (modify_bind (get_bind ?_)))⟩
    rw [bind_apply, ite_app, if_pos (by show (i : ℤ) > (s1.nClusters : ℤ) - 1; omega), this]
    rfl
  · exact inc_far (su := setupIfFirst CSIL.setup y) (new := CSIL.incNew y) (old := CSIL.incOld y)
      (f := fun n _ => Py.modify fun s => { s with nSamples := n + 1 }) hif hi
      (fun s1 s2 a b => by
        obtain ⟨_, _, e', b⟩ := py_bind_inv b
        cases e'
        obtain ⟨cp, e0, b⟩ := py_lift_inv b
        obtain ⟨E, e1, _⟩ := py_lift_inv b
        exact get_bind (lift_bind e0 (lift_err (sNew_far a h0 e1 hi)))) h

/-- CH and WB use the internal label of a new cluster only in the comparison. -/
theorem incBody_far_CH {I : Index} (hI : I = .CH ∨ I = .WB) {s : Core} {k i : ℕ} {y : Vec} (hk : s.nClusters = k)
    (hn : s.nSamples ≠ 0) (hi : k ≤ i) : I.mod.incBody y i s = I.mod.incBody y k s := by
  have hsu : ∀ {setupC : Vec → Py Core Unit} s1, setupOrMu setupC y s = .ok () s1 → s1.nClusters = k := by
    intro setupC s1 e
    have := vk_setupOrMu (w := s.v) (k := k) (setupC := setupC) (y := y) s ⟨⟨rfl, hk⟩, hn⟩
    rw [e] at this
    exact this.2
  rcases hI with rfl | rfl
  · show CH.incBody y i s = CH.incBody y k s
    simp only [CH.incBody, bind_apply, get_apply, Res.bind_ok]
    cases hr : setupOrMu CH.setup y s with
    | err e t => rfl
    | ok a t =>
      have := hsu t hr
      simp only [Res.bind_ok, ite_app]
      rw [if_pos (by omega), if_pos (by omega)]
  · show WB.incBody y i s = WB.incBody y k s
    simp only [WB.incBody, bind_apply, get_apply, Res.bind_ok]
    cases hr : setupOrMu WB.setup y s with
    | err e t => rfl
    | ok a t =>
      have := hsu t hr
      simp only [Res.bind_ok, ite_app]
      rw [if_pos (by omega), if_pos (by omega)]

end Verif
