import Verif.Gen.Uniform
import Verif.Proofs.Atomic

/-!
# What a rejected sample leaves behind, in every arithmetic
-/

namespace Verif.Gen
open Py

variable {F : Type} [Arith F] {d : ℕ}

omit [Arith F] in
theorem columnNew_first_err [Zero F] {k : ℕ} {f : ℕ → Except PyErr F} {e : PyErr} (hk : k ≠ 0) (h : f 0 = .error e) :
    columnNew k f = .error e := by
  obtain ⟨m, rfl⟩ := Nat.exists_eq_succ_of_ne_zero hk
  rw [columnNew, List.range_succ_eq_map, mapE_first_err h]
  rfl

theorem distNew_first_err {k i : ℕ} {ks : List ℤ} {D : Arr2 F} {g : ℤ → ℤ → F} {f : ℕ → Except PyErr F} {e : PyErr}
    {c : ℤ} (hc : c ∉ ks) (hD : D = sqMat ks g) (hk : k = ks.length) (h0 : ks ≠ []) (h : f 0 = .error e) :
    distNew k i D f = .error e := by
  subst hk hD
  have hk : ks.length ≠ 0 := by simpa using h0
  rw [distNew, if_neg hk, enlarge_sqMat hc, except_bind_ok, columnNew_first_err hk h]
  rfl

theorem sub_err {a b : Vec F} (h : a.length ≠ b.length) (h1 : a.length ≠ 1) (h2 : b.length ≠ 1) :
    Vec.sub a b = .error .valueError := bin_err h h1 h2

theorem sqDist_err {a b : Vec F} (h : a.length ≠ b.length) (h1 : a.length ≠ 1) (h2 : b.length ≠ 1) :
    Vec.sqDist a b = .error .valueError := by rw [Vec.sqDist, sub_err h h1 h2]; rfl

theorem row_zero {S : Samples F} {s : Core F} (hS : S.Dim d) (nv : NV d S s) (h0 : order S ≠ []) :
    ∃ r, s.v.row 0 = .ok r ∧ r.length = d := by
  cases ho : order S with
  | nil => exact absurd ho h0
  | cons c ks =>
    refine ⟨(stat S c).v, ?_, stat_v_length S (by rw [ho]; simp) hS⟩
    rw [nv.v, ho]; rfl

omit [Arith F] in
theorem order_ne_nil {S : Samples F} (hne : S ≠ []) : order S ≠ [] := by
  intro e
  obtain ⟨⟨x, c⟩, hp⟩ := List.exists_mem_of_ne_nil S hne
  have := (mem_order S).mpr ⟨x, hp⟩
  rw [e] at this
  simp at this

/-- A sample whose length is neither 1 nor the number of features (itself not 1): nothing but the label map is touched. -/
theorem incBody_atomic {I : Index} {S : Samples F} {s : Core F} (hS : S.Dim d) (hne : S ≠ []) (h : Held I d S s) {y : Vec F}
    {i : ℕ} (hd : d ≠ 1) (hy : y.length ≠ d) (h1 : y.length ≠ 1) : (mod F I).incBody y i s = .err .valueError s := by
  have nv := held_nv h
  have hns := held_nSamples h
  have hl : s.nSamples ≠ 0 := by rw [hns]; simpa using hne
  have hks := order_ne_nil hne
  obtain ⟨c0, hc0⟩ := exists_not_mem (order S)
  obtain ⟨r0, hr0, hlr0⟩ := row_zero hS nv hks
  have hsix : ∀ {setupC : Vec F → Py (Core F) Unit} {f : Core F → Unit → Py (Core F) Unit}, Common d S s →
      (Py.get >>= fun s0 : Core F => setupOrMu setupC y >>= f s0) s = .err .valueError s := by
    intro setupC f hm
    rw [bind_apply, get_apply, Res.bind_ok, bind_apply, setupOrMu, bind_apply, get_apply, Res.bind_ok, if_neg hl]
    rw [lift_err (e := .valueError)]
    · rfl
    · have : s.mu.length = d := by rw [hm.mu]; exact mu_length S hne hS
      exact runningMean_err (by rw [this]; exact Ne.symm hy) (by rwa [this]) h1
  have hif : ∀ {setupC : Vec F → Py (Core F) Unit}, setupIfFirst setupC y s = .ok () s := by
    intro setupC
    rw [setupIfFirst, bind_apply, get_apply, Res.bind_ok, if_neg hl]; rfl
  have hold : ∀ {f : ℕ → Vec F → Vec F → Py (Core F) Unit}, ¬ ((i : ℤ) > (s.nClusters : ℤ) - 1) →
      (Py.lift (s.n.get i) >>= fun nOld => Py.lift (s.v.row i) >>= fun vRow =>
        Py.lift (runningMean (nOld + 1) vRow y) >>= f nOld vRow) s = .err .valueError s := by
    intro f hi
    have hi' : i < (order S).length := by rw [← nv.k]; omega
    have e1 : s.n.get i = .ok (stat S ((order S)[i])).n := by simp [nv.n, Seq.get, hi']
    have e2 : s.v.row i = .ok (stat S ((order S)[i])).v := by simp [nv.v, Arr2.row, hi']
    have e3 := stat_v_length S (List.getElem_mem hi') hS
    exact lift_bind e1 (lift_bind e2 (lift_err (runningMean_err (by rw [e3]; exact Ne.symm hy) (by rwa [e3]) h1)))
  have six : Common6 I → Common d S s := fun hI => held_common hI h
  cases I
  · exact hsix (six (by simp [Common6]))
  · exact hsix (six (by simp [Common6]))
  · exact hsix (six (by simp [Common6]))
  · exact hsix (six (by simp [Common6]))
  · exact hsix (six (by simp [Common6]))
  · exact hsix (six (by simp [Common6]))
  · refine get_bind (bind_ok_of hif (get_bind ?_))
    rw [bind_apply, ite_app]
    split
    · have : PS.incNew y i s = .err .valueError s := by
        refine get_bind (lift_err ?_)
        refine distNew_first_err hc0 (RepPS.D h) nv.k hks ?_
        rw [PS.dist, hr0, except_bind_ok]
        exact sqDist_err (by rwa [hlr0]) h1 (by rwa [hlr0])
      rw [this]; rfl
    · rename_i hi
      have : PS.incOld y i s = .err .valueError s := get_bind (hold hi)
      rw [this]; rfl
  · have hk : Arith.normConst s.dim = .ok s.constant := by rw [nv.dim]; exact RepG.constant h
    refine get_bind (bind_ok_of hif (get_bind (lift_bind hk (modify_bind ?_))))
    refine get_bind (s := s) ?_
    rw [bind_apply, ite_app]
    split
    · have : RCIP.incNew y i s = .err .valueError s := by
        refine get_bind (lift_err ?_)
        obtain ⟨g, _, hD⟩ := RepG.D h
        refine distNew_first_err hc0 hD nv.k hks ?_
        have hp : ∃ p, Verif.RCIP.page s 0 = .ok p := by
          have := (RepG.toMidG h).sigma
          cases hk : order S with
          | nil => exact absurd hk hks
          | cons c ks => exact ⟨_, by rw [Verif.RCIP.page, this, hk]; rfl⟩
        obtain ⟨p, hp⟩ := hp
        rw [RCIP.dist, hr0, except_bind_ok, hp, except_bind_ok, RCIP.cip,
          sub_err (by rwa [hlr0]) h1 (by rwa [hlr0])]
        rfl
      rw [this]; rfl
    · rename_i hi
      have : RCIP.incOld y i s = .err .valueError s := get_bind (hold hi)
      rw [this]; rfl
  · refine get_bind (bind_ok_of hif (get_bind ?_))
    rw [bind_apply, ite_app]
    split
    · have : CSIL.incNew y i s = .err .valueError s := by
        refine get_bind (lift_bind (inner_eq rfl rfl) (lift_err ?_))
        have hk : s.nClusters ≠ 0 := by rw [nv.k]; simpa using hks
        rw [CSIL.sNew, if_neg hk, nv.k, RepSil.Sm h, enlarge_sqMat hc0, except_bind_ok, columnNew_first_err (e := .valueError)]
        · rfl
        · simpa using hks
        · rw [CSIL.colNew, hr0, except_bind_ok, Vec.inner, if_pos rfl, except_bind_ok, Vec.inner,
            if_neg (by rwa [hlr0])]
          rfl
      rw [this]; rfl
    · rename_i hi
      have : CSIL.incOld y i s = .err .valueError s := get_bind (hold hi)
      rw [this]; rfl

end Verif.Gen
