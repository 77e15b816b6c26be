import Verif.Proofs.Sim
import Verif.Proofs.Mat
import Verif.Proofs.Extrema
import Verif.Model.RCIP

/-! # rCIP refines its specification -/

namespace Verif.RCIP
open Spec Py Verif

variable {d : ℕ}

/-- `δ I` -/
noncomputable def deltaI (d : ℕ) : Arr2 := Arr2.ofMatrix (delta d • (1 : Matrix (Fin d) (Fin d) ℝ))

/-- Entry of `_D`. -/
noncomputable def entry (S : Stream d) (a b : ℤ) : XR := if a = b then 0 else .fin (Spec.cip S a b)

/-- The attributes that do not depend on the clusters. -/
structure Consts (d : ℕ) (s : Core) : Prop where
  deltaTerm : s.deltaTerm = deltaI d
  constant : s.constant = .fin (1 / Real.sqrt ((2 * Real.pi) ^ d))
  shape : s.sigmaShape = (d, d)

/-- `_sigma` holds the regularised covariances. -/
def RepSigma (ks : List ℤ) (S : Stream d) (s : Core) : Prop := s.sigma = ks.map fun c => Arr2.ofMatrix (regCov S c)

/-- The object after the samples `S`. -/
structure Rep (S : Stream d) (s : Core) : Prop where
  nv : RepNV false (keys S) S s
  consts : Consts d s
  sigma : RepSigma (keys S) S s
  D : s.D = sqMat (keys S) (entry S)
  nSamples : s.nSamples = S.length
  isSetup : s.isSetup = true

/-- The object when the branch on label novelty is reached. -/
structure Mid (S : Stream d) (s : Core) : Prop where
  nv : RepNV false (keys S) S s
  consts : Consts d s
  sigma : RepSigma (keys S) S s
  D : keys S ≠ [] → s.D = sqMat (keys S) (entry S)
  isSetup : s.isSetup = true

theorem deltaTerm_eq (hd : 0 < d) : deltaTerm d = .ok (deltaI d) := by
  rw [deltaTerm, if_neg hd.ne']
  simp only [deltaI, Arr2.ofMatrix, range_map_eq_ofFn]
  congr 2
  apply congrArg List.ofFn
  funext i
  apply congrArg List.ofFn
  funext j
  by_cases h : i = j
  · subst h; simp [delta]
  · have : (i : ℕ) ≠ j := fun e => h (Fin.ext e)
    simp [h, this]

theorem normConst_eq (d : ℕ) : normConst d = .fin (1 / Real.sqrt ((2 * Real.pi) ^ d)) := by
  have h : (0 : ℝ) < (2 * Real.pi) ^ d := pow_pos (by positivity) _
  rw [normConst, XR.sqrt_fin_of_nonneg h.le, XR.fin_div_of_ne _ (Real.sqrt_pos.mpr h).ne']

theorem start {S : Stream d} {s : Core} (hd : 0 < d) (x : Pt d) (h : Start RCIPmod.init Rep S s) :
    s.nSamples = S.length ∧ ∃ s', setupIfFirst setup (enc x) s = .ok () s' ∧
      Mid S { s' with constant := normConst s'.dim } := by
  rcases h with ⟨rfl, rfl⟩ | ⟨hne, h⟩
  · refine ⟨rfl, { RCIPmod.init with
      dim := d, v := Arr2.zeros 0 d, G := some (Arr2.zeros 0 d), isSetup := true, sigma := [], sigmaShape := (d, d),
      deltaTerm := deltaI d }, ?_, ⟨rfl, rfl, rfl, rfl⟩, ⟨rfl, normConst_eq d, rfl⟩, rfl, fun h => absurd rfl h, rfl⟩
    rw [setupIfFirst]
    refine get_bind ?_
    change setup (enc x) RCIPmod.init = _
    rw [setup, Base.setup]
    refine modify_bind (modify_bind (get_bind (lift_bind (a := deltaI d) ?_ ?_)))
    · simp only [enc_length, deltaTerm_eq hd]
    · simp
  · have hl : s.nSamples ≠ 0 := by rw [h.nSamples]; simpa using hne
    refine ⟨h.nSamples, s, ?_, ⟨h.nv.dim, h.nv.k, h.nv.n, h.nv.v⟩,
      ⟨h.consts.deltaTerm, by rw [h.nv.dim]; exact normConst_eq d, h.consts.shape⟩, h.sigma, fun _ => h.D, h.isSetup⟩
    rw [setupIfFirst]
    apply get_bind
    rw [if_neg hl, pure_apply]

/-- The state after the branch. -/
noncomputable def tabledD (ks : List ℤ) (S : Stream d) (s : Core) : Core :=
  { s with
    nClusters := ks.length
    n := ⟨false, ks.map (size S)⟩
    v := ⟨d, ks.map fun c => enc (centroid S c)⟩
    D := sqMat ks (entry S)
    sigma := ks.map fun c => Arr2.ofMatrix (regCov S c) }

theorem cip_rep (w1 w2 : Pt d) {A B : Matrix (Fin d) (Fin d) ℝ} (h : 0 < (A + B).det) :
    cip (.fin (1 / Real.sqrt ((2 * Real.pi) ^ d))) (enc w1) (enc w2) (Arr2.ofMatrix A) (Arr2.ofMatrix B) =
      .ok (.fin (gauss (A + B) fun i => w1 i - w2 i)) := by
  rw [cip, sub_enc, except_bind_ok, Arr2.add_ofMatrix, except_bind_ok, Arr2.det_ofMatrix, except_bind_ok,
    Arr2.inv_ofMatrix h.ne', except_bind_ok, quad, smul_enc, Arr2.vecMul_ofMatrix, except_bind_ok, inner_enc,
    except_bind_ok, except_pure, XR.sqrt_fin_of_nonneg h.le, XR.fin_div_of_ne _ (Real.sqrt_pos.mpr h).ne', XR.exp_fin,
    XR.fin_mul, XR.fin_mul, gauss]
  congr 4
  rw [Finset.mul_sum]
  simp only [Finset.sum_mul]
  rw [Finset.sum_comm]
  apply Finset.sum_congr rfl
  intro i _
  rw [Finset.mul_sum]
  apply Finset.sum_congr rfl
  intro j _
  ring

theorem page_rep {S : Stream d} {s : Core} {ks : List ℤ} {a : ℤ} (hs : RepSigma ks S s) (ha : a ∈ ks) :
    page s (ks.idxOf a) = .ok (Arr2.ofMatrix (regCov S a)) := by
  rw [page, hs, getElem?_map_idxOf ha]

/-- The distance of a cluster of the enlarged data to an unchanged cluster. -/
theorem dist_rep {S : Stream d} {s : Core} {b : Bool} {ks : List ℤ} {a c : ℤ} (nv : RepNV b ks S s) (hc : Consts d s)
    (hs : RepSigma ks S s) (x : Pt d) (ha : a ∈ ks) (hac : a ≠ c) :
    dist s (enc (centroid (S ++ [(x, c)]) c)) (Arr2.ofMatrix (regCov (S ++ [(x, c)]) c)) (ks.idxOf a) =
      .ok (.fin (Spec.cip (S ++ [(x, c)]) c a)) := by
  have h := pair_det_pos (S ++ [(x, c)]) c a
  rw [regCov_append_ne S x hac] at h
  simp only [dist, nv.v, row_rep ha, except_bind_ok, page_rep hs ha, hc.constant]
  rw [cip_rep _ _ h, Spec.cip, regCov_append_ne S x hac, centroid_append_ne S x hac]

theorem entry_append_ne (S : Stream d) (x : Pt d) {a b c : ℤ} (ha : a ≠ c) (hb : b ≠ c) :
    entry (S ++ [(x, c)]) a b = entry S a b := by
  simp only [entry, Spec.cip, regCov_append_ne S x ha, regCov_append_ne S x hb, centroid_append_ne S x ha,
    centroid_append_ne S x hb]

theorem entry_comm (S : Stream d) (a b : ℤ) : entry S a b = entry S b a := by
  simp only [entry, cip_comm S a b, eq_comm]

theorem sigmaNew_rep {S : Stream d} {x : Pt d} {c : ℤ} (hc : c ∈ labels S) :
    sigmaNew (size S c) (Arr2.ofMatrix (regCov S c)) (deltaI d) (enc fun i => x i - centroid S c i) =
      .ok (Arr2.ofMatrix (regCov (S ++ [(x, c)]) c)) := by
  have hn := size_pos hc
  have hpy : pyDiv ((size S c : ℤ) - 1) (size S c : ℤ) = .ok (.fin (((size S c : ℝ) - 1) / size S c)) := by
    rw [pyDiv, if_neg (by exact_mod_cast hn.ne')]; push_cast; rfl
  rw [sigmaNew, hpy, except_bind_ok, deltaI, Arr2.sub_ofMatrix, except_bind_ok, Arr2.smul_ofMatrix, Arr2.outer_enc,
    Arr2.smul_ofMatrix, Arr2.add_ofMatrix, except_bind_ok, Arr2.add_ofMatrix, regCov_eq, regCov_eq, cov_append_old S x hc,
    add_sub_cancel_right]

theorem setSigma_rep {s : Core} {ks : List ℤ} {c : ℤ} {f f' : ℤ → Arr2} {A : Matrix (Fin d) (Fin d) ℝ} (hn : ks.Nodup)
    (hc : c ∈ ks) (h : s.sigma = ks.map f) (hsh : s.sigmaShape = (d, d)) (hx : Arr2.ofMatrix A = f' c)
    (hf : ∀ a ∈ ks, a ≠ c → f' a = f a) :
    setSigma (ks.idxOf c) (Arr2.ofMatrix A) s = .ok () { s with sigma := ks.map f' } := by
  have hl := List.idxOf_lt_length_of_mem hc
  rw [setSigma]
  apply get_bind
  rw [if_pos (by rw [h]; simpa using hl)]
  refine lift_bind (by rw [hsh]; exact Arr2.broadcastTo_ofMatrix A) ?_
  rw [modify_apply, h, map_set hn f f' _ hx hf]

theorem dstackSigma_rep {s : Core} {x : Arr2} (h : s.sigmaShape = (x.rows.length, x.cols)) :
    dstackSigma x s = .ok () { s with sigma := s.sigma ++ [x] } := by
  rw [dstackSigma]
  apply get_bind
  rw [if_pos h, modify_apply]

theorem branch {S : Stream d} {s : Core} {x : Pt d} {c : ℤ} (h : Mid S s) :
    (if ((keys S).idxOf c : ℤ) > (s.nClusters : ℤ) - 1 then incNew (enc x) ((keys S).idxOf c)
      else incOld (enc x) ((keys S).idxOf c)) s =
      .ok () (tabledD (keys (S ++ [(x, c)])) (S ++ [(x, c)]) s) := by
  rw [keys_append]
  by_cases hc : c ∈ keys S
  · have hcl := mem_keys.mp hc
    rw [if_neg (by rw [isNew_iff h.nv.k]; simpa using hc), addKey_old hc, incOld]
    refine get_bind (lift_bind (by rw [h.nv.n]; exact get_rep hc) (lift_bind (by rw [h.nv.v]; exact row_rep hc)
      (lift_bind (centroid_step S x c) (lift_bind (sub_enc _ _) (lift_bind (page_rep h.sigma hc)
        (lift_bind (by rw [h.consts.deltaTerm]; exact sigmaNew_rep hcl) ?_))))))
    refine lift_bind (a := (keys S).map fun a => if a = c then 0 else .fin (Spec.cip (S ++ [(x, c)]) c a)) ?_ ?_
    · rw [h.nv.k]
      exact columnOld_keys (keys_nodup S) fun a ha e => dist_rep h.nv h.consts h.sigma x ha e
    · refine bind_ok_of (setN_rep (keys_nodup S) hc h.nv.n (f' := size (S ++ [(x, c)])) (size_append_self S x c).symm
        fun a _ ha => size_append_ne S x ha) ?_
      refine bind_ok_of (setV_rep (keys_nodup S) hc h.nv.v (f' := fun a => enc (centroid (S ++ [(x, c)]) a))
        rfl (by simp) fun a _ ha => by rw [centroid_append_ne S x ha]) ?_
      refine bind_ok_of (setSigma_rep (keys_nodup S) hc (s := { s with
          n := ⟨false, (keys S).map (size (S ++ [(x, c)]))⟩
          v := ⟨d, (keys S).map fun a => enc (centroid (S ++ [(x, c)]) a)⟩ })
        (f' := fun a => Arr2.ofMatrix (regCov (S ++ [(x, c)]) a)) h.sigma h.consts.shape rfl
        fun a _ ha => by rw [regCov_append_ne S x ha]) ?_
      have := setD_rep (s := { s with
          n := ⟨false, (keys S).map (size (S ++ [(x, c)]))⟩
          v := ⟨d, (keys S).map fun a => enc (centroid (S ++ [(x, c)]) a)⟩
          sigma := (keys S).map fun a => Arr2.ofMatrix (regCov (S ++ [(x, c)]) a) })
        (g' := entry (S ++ [(x, c)]))
        (r := fun a => if a = c then 0 else .fin (Spec.cip (S ++ [(x, c)]) c a))
        (keys_nodup S) hc (h.D (List.ne_nil_of_mem hc)) ?_ ?_ ?_
      · rw [this]; simp [tabledD, ← h.nv.k]
      · intro a ha
        simp only [entry, eq_comm]
      · intro a ha
        rw [entry_comm]
        simp only [entry, eq_comm]
      · intro a _ b _ ha hb
        exact entry_append_ne S x ha hb
  · have hcl : c ∉ labels S := fun h => hc (mem_keys.mpr h)
    rw [if_pos (by rw [isNew_iff h.nv.k]; exact hc), addKey_new hc, incNew]
    refine get_bind (lift_bind (a := sqMat (keys S ++ [c]) (entry (S ++ [(x, c)]))) ?_ ?_)
    · rw [h.nv.k, List.idxOf_eq_length hc]
      refine distNew_sqMat (keys_nodup S) hc h.D ?_ ?_ ?_ ?_
      · intro a ha
        have e : a ≠ c := fun e => hc (e ▸ ha)
        have := dist_rep h.nv h.consts h.sigma x ha e
        rw [centroid_append_new S x hcl, regCov_append_new S x hcl] at this
        rw [h.consts.deltaTerm, deltaI, this, entry, if_neg e.symm]
      · intro a _; rw [entry_comm]
      · simp [entry]
      · intro a ha b hb
        have ea : a ≠ c := fun e => hc (e ▸ ha)
        have eb : b ≠ c := fun e => hc (e ▸ hb)
        exact entry_append_ne S x ea eb
    · refine modify_bind ?_
      refine bind_ok_of (appendN_rep hc h.nv.n (f' := size (S ++ [(x, c)])) (size_append_new S x hcl).symm
        fun a _ ha => size_append_ne S x ha) ?_
      refine bind_ok_of (vstackV_rep hc h.nv.v (f' := fun a => enc (centroid (S ++ [(x, c)]) a))
        (by rw [centroid_append_new S x hcl]) (by simp) fun a _ ha => by rw [centroid_append_ne S x ha]) ?_
      refine modify_bind ?_
      have hsh : s.sigmaShape = (s.deltaTerm.rows.length, s.deltaTerm.cols) := by
        rw [h.consts.shape, h.consts.deltaTerm, deltaI, Arr2.ofMatrix_rows_length, Arr2.ofMatrix_cols]
      have hsg : s.sigma ++ [s.deltaTerm] = (keys S ++ [c]).map fun a => Arr2.ofMatrix (regCov (S ++ [(x, c)]) a) := by
        rw [h.sigma, h.consts.deltaTerm]
        exact map_append_new hc _ _ _ (by rw [regCov_append_new S x hcl]; rfl) fun a _ ha => by
          rw [regCov_append_ne S x ha]
      refine (dstackSigma_rep ?_).trans ?_
      · exact hsh
      · simp only [hsg]
        simp [tabledD, h.nv.k]

theorem step (hd : 0 < d) (S : Stream d) (s : Core) (x : Pt d) (c : ℤ) (h : Start RCIPmod.init Rep S s) :
    ∃ s', incBody (enc x) ((keys S).idxOf c) s = .ok () s' ∧ Rep (S ++ [(x, c)]) s' := by
  obtain ⟨hn, s1, h1, hm⟩ := start hd x h
  refine ⟨_, get_bind (bind_ok_of h1 (modify_bind (get_bind (bind_ok_of (branch hm) rfl)))), ?_⟩
  refine ⟨⟨hm.nv.dim, rfl, rfl, rfl⟩, ⟨hm.consts.deltaTerm, hm.consts.constant, hm.consts.shape⟩, rfl, rfl, ?_, hm.isSetup⟩
  simp [hn]

/-- The value computed from the tables. -/
theorem evaluate_rep {S : Stream d} {s : Core} {ks : List ℤ} (hks : KeysOf ks S) (hD : s.D = sqMat ks (entry S)) :
    evaluate s = .ok () { s with criterion := Spec.rCIP S } := by
  rw [evaluate]
  apply get_bind
  have hlen : s.D.rows.length = ks.length := by rw [hD, sqMat_rows_length]
  have hup : Upper ks (fun a b => .fin (Spec.cip S a b)) s.D := by
    rw [hD]
    exact (upper_sqMat ks (entry S)).congr hks.nodup fun a _ b _ e => if_neg e
  by_cases h : ks.length > 1
  · rw [hlen, if_pos h]
    refine lift_bind (triu_upper hup) ?_
    rw [modify_apply, sum_upperVals hks _ (cip_comm S)]
    rfl
  · rw [hlen, if_neg h, modify_apply]
    have : Spec.rCIP S = .fin 0 := by
      have hc : (labels S).card ≤ 1 := by
        have := hks.length
        rw [numClusters] at this
        omega
      rw [Spec.rCIP]
      congr 1
      apply Finset.sum_eq_zero
      intro a ha
      apply Finset.sum_eq_zero
      intro b hb
      obtain ⟨hb, hab⟩ := Finset.mem_filter.mp hb
      exact absurd (Finset.card_le_one.mp hc a ha b hb) hab.ne
    rw [this]

theorem refines (hd : 0 < d) : Refines RCIPmod (Rep (d := d)) Spec.rCIP where
  concrete := rfl
  step := step hd
  eval S _ _ h := ⟨_, evaluate_rep (keysOf_keys S) h.D, rfl,
    ⟨⟨h.nv.dim, h.nv.k, h.nv.n, h.nv.v⟩, ⟨h.consts.deltaTerm, h.consts.constant, h.consts.shape⟩, h.sigma, h.D, h.nSamples,
      h.isSetup⟩⟩

end Verif.RCIP
