import Verif.Proofs.BatchModules

/-! # The batch update of rCIP -/

namespace Verif.RCIP
open Spec Py Verif

variable {d : ℕ}

theorem cov_of_small {S : Stream d} {c : ℤ} (h : size S c ≤ 1) : cov S c = 0 := by
  ext i j
  have h' : (cluster S c).length ≤ 1 := h
  rcases Nat.lt_or_ge 0 (cluster S c).length with h0 | h0
  · obtain ⟨p, hp⟩ := List.length_eq_one_iff.mp (Nat.le_antisymm h' h0)
    simp [cov, centroid, hp, meanOf_singleton]
  · have : cluster S c = [] := List.length_eq_zero_iff.mp (by omega)
    simp [cov, this]

theorem batchSigma_eq {S : Stream d} {c : ℤ} (h : 1 < size S c) :
    batchSigma (encRows (cluster S c)) (vRow S c) (deltaI d) = .ok (Arr2.ofMatrix (regCov S c)) := by
  have hne : cluster S c ≠ [] := by
    intro e
    rw [size, e] at h
    simp at h
  have hc : c ∈ labels S := cluster_ne_nil.mp hne
  rw [batchSigma, Arr2.matmul_transpose_encRows, except_bind_ok, vRow_of_mem hc, Arr2.outer_enc, Arr2.smul_ofMatrix,
    Arr2.sub_ofMatrix, except_bind_ok, Arr2.smul_ofMatrix, deltaI, Arr2.add_ofMatrix, regCov_eq, size_eq]
  congr 3
  ext i j
  have key := sum_outer (cluster S c) hne (fun _ => 0) i j
  simp only [sub_zero] at key
  simp only [Matrix.smul_apply, Matrix.sub_apply, Matrix.of_apply, smul_eq_mul, key, cov]
  change 1 / ((size S c : ℝ) - 1) * (_ + (size S c : ℝ) * (centroid S c i * centroid S c j) -
    (size S c : ℝ) * (centroid S c i * centroid S c j)) = _
  rw [add_sub_cancel_right, one_div_mul_eq_div]
  rfl

theorem vec_nan (hd : 0 < d) {v : Vec} (hv : v.length = d) :
    (List.zipWith (· * ·) (List.replicate d XR.nan) v).sum = .nan := by
  obtain ⟨d, rfl⟩ := Nat.exists_eq_succ_of_ne_zero hd.ne'
  cases v with
  | nil => simp at hv
  | cons a v => apply XR.sum_eq_nan; simp [List.replicate_succ]

/-- A NaN centroid makes the cross information potential NaN. -/
theorem cip_nan (hd : 0 < d) (k : XR) {u v : Vec} (h : Vec.sub u v = .ok (List.replicate d .nan))
    {A B : Matrix (Fin d) (Fin d) ℝ} (hp : 0 < (A + B).det) :
    cip k u v (Arr2.ofMatrix A) (Arr2.ofMatrix B) = .ok .nan := by
  have hsm : Vec.smul (.fin (-(1 / 2))) (List.replicate d .nan) = List.replicate d .nan := by simp [Vec.smul]
  have hvm : Arr2.vecMul (List.replicate d .nan) (Arr2.ofMatrix (A + B)⁻¹) = .ok (List.replicate d .nan) := by
    rw [Arr2.vecMul, if_pos (by simp)]
    congr 1
    rw [List.eq_replicate_iff]
    refine ⟨by simp, ?_⟩
    intro x hx
    obtain ⟨j, _, rfl⟩ := List.mem_map.mp hx
    exact vec_nan hd (by simp)
  have hin : Vec.inner (List.replicate d .nan) (List.replicate d .nan) = .ok .nan := by
    rw [Vec.inner, if_pos rfl, vec_nan hd (by simp)]
  rw [cip, h, except_bind_ok, Arr2.add_ofMatrix, except_bind_ok, Arr2.det_ofMatrix, except_bind_ok,
    Arr2.inv_ofMatrix hp.ne', except_bind_ok, quad, hsm, hvm, except_bind_ok, hin, except_bind_ok, except_pure]
  simp

open Classical in
/-- The batch value of a pair of clusters; NaN when one of them is empty. -/
noncomputable def cipX (S : Stream d) (a b : ℤ) : XR :=
  if a ∈ labels S ∧ b ∈ labels S then .fin (Spec.cip S a b) else .nan

theorem cipX_comm (S : Stream d) (a b : ℤ) : cipX S a b = cipX S b a := by
  simp only [cipX, cip_comm S a b, and_comm]

/-- The tables of rCIP with the first `i` clusters filled. -/
noncomputable def stageR (k : ℕ) (S : Stream d) (i : ℕ) (s : Core) : Core :=
  stageNV false k S i { s with
    sigma := (rangeKeys k).map (mix i (fun c => Arr2.ofMatrix (regCov S c)) (Arr2.zeros d d)) }

theorem setSigma_mix {s : Core} {k i : ℕ} {f : ℤ → Arr2} {z : Arr2} {A : Matrix (Fin d) (Fin d) ℝ} (hi : i < k)
    (h : s.sigma = (rangeKeys k).map (mix i f z)) (hsh : s.sigmaShape = (d, d)) (hx : Arr2.ofMatrix A = f i) :
    setSigma i (Arr2.ofMatrix A) s = .ok () { s with sigma := (rangeKeys k).map (mix (i + 1) f z) } := by
  have := setSigma_rep (rangeKeys_nodup k) (natCast_mem_rangeKeys hi) h hsh (hx.trans (mix_self i f z).symm)
    fun a _ ha => mix_ne ha
  rwa [idx_range hi] at this

theorem batchStep_eq {S : Stream d} {E : List (Pt d)} {k i : ℕ} {s : Core} (hi : i < k) (hdt : s.deltaTerm = deltaI d)
    (hsh : s.sigmaShape = (d, d)) :
    batchStep (encRows (S.map Prod.fst ++ E)) (S.map Prod.snd) i (stageR k S i s) = .ok () (stageR k S (i + 1) s) := by
  rw [batchStep]
  refine lift_bind (take_subset S E i) ?_
  refine bind_ok_of (setN_mix hi rfl (size_eq S i)) ?_
  refine bind_ok_of (setV_mix (d := d) hi (f := vRow S) rfl rfl (vRow_length S i)) ?_
  refine get_bind ?_
  rw [size_eq]
  have key : ∀ s' : Core, s'.sigma = (rangeKeys k).map (mix i (fun c => Arr2.ofMatrix (regCov S c)) (Arr2.zeros d d)) →
      s'.sigmaShape = (d, d) → setSigma i (Arr2.ofMatrix (regCov S i)) s' = .ok () { s' with
        sigma := (rangeKeys k).map (mix (i + 1) (fun c => Arr2.ofMatrix (regCov S c)) (Arr2.zeros d d)) } :=
    fun s' h1 h2 => setSigma_mix (A := regCov S i) hi h1 h2 rfl
  by_cases h : size S i > 1
  · rw [if_pos h]
    refine lift_bind (a := Arr2.ofMatrix (regCov S i)) ?_ ?_
    · change batchSigma _ _ s.deltaTerm = _
      rw [hdt]
      exact batchSigma_eq h
    · exact key _ rfl hsh
  · rw [if_neg h]
    have e : s.deltaTerm = Arr2.ofMatrix (regCov S i) := by
      rw [hdt, regCov_eq, cov_of_small (not_lt.mp h), zero_add]; rfl
    change setSigma i s.deltaTerm _ = _
    rw [e]
    exact key _ rfl hsh

/-- The attributes set before the loop. -/
noncomputable def batchBaseR (S : Stream d) (E : List (Pt d)) (s : Core) : Core :=
  { s with
    nSamples := S.length + E.length
    dim := d
    isSetup := true
    nClusters := numClusters S
    deltaTerm := deltaI d
    constant := normConst d
    sigmaShape := (d, d)
    D := Arr2.zeros (numClusters S) (numClusters S) }

/-- The object before the distance matrix is assigned. -/
noncomputable def batched0 (S : Stream d) (E : List (Pt d)) (s : Core) : Core :=
  stageR (numClusters S) S (numClusters S) (batchBaseR S E s)

theorem batchDist_eq (hd : 0 < d) {S : Stream d} {E : List (Pt d)} {s : Core} {i j : ℕ} (hi : i < numClusters S)
    (hj : j < numClusters S) : batchDist (batched0 S E s) i j = .ok (cipX S i j) := by
  have hp : ∀ i : ℕ, i < numClusters S → page (batched0 S E s) i = .ok (Arr2.ofMatrix (regCov S i)) := by
    intro i hi
    have := page_rep (S := S) (s := batched0 S E s) (ks := rangeKeys (numClusters S))
      (by simp only [RepSigma, batched0, stageR, stageNV, mix_full]) (natCast_mem_rangeKeys hi)
    rwa [idx_range hi] at this
  have hv : (batched0 S E s).v = ⟨d, (rangeKeys (numClusters S)).map (mix (numClusters S) (vRow S) (Vec.zeros d))⟩ := rfl
  have hc : (batched0 S E s).constant = .fin (1 / Real.sqrt ((2 * Real.pi) ^ d)) := normConst_eq d
  rw [batchDist, hv, row_stage hi, except_bind_ok, row_stage hj, except_bind_ok, hp i hi, except_bind_ok, hp j hj,
    except_bind_ok, hc]
  by_cases ha : (i : ℤ) ∈ labels S
  · by_cases hb : (j : ℤ) ∈ labels S
    · rw [vRow_of_mem ha, vRow_of_mem hb, cip_rep _ _ (pair_det_pos S i j), cipX, if_pos ⟨ha, hb⟩]
      rfl
    · rw [cipX, if_neg (fun h => hb h.2), vRow_of_notMem hb]
      refine cip_nan hd _ ?_ (pair_det_pos S i j)
      rw [Vec.sub, Vec.bin, if_pos (by simp [vRow_length])]
      congr 1
      rw [List.eq_replicate_iff]
      refine ⟨by simp [vRow_length], ?_⟩
      intro x hx
      obtain ⟨n, hn, rfl⟩ := List.mem_iff_getElem.mp hx
      simp
  · rw [cipX, if_neg (fun h => ha h.1), vRow_of_notMem ha]
    refine cip_nan hd _ ?_ (pair_det_pos S i j)
    rw [Vec.sub, Vec.bin, if_pos (by simp [vRow_length])]
    congr 1
    rw [List.eq_replicate_iff]
    refine ⟨by simp [vRow_length], ?_⟩
    intro x hx
    obtain ⟨n, hn, rfl⟩ := List.mem_iff_getElem.mp hx
    simp

theorem paramBatch_eq (hd : 0 < d) (S : Stream d) (E : List (Pt d)) (s : Core) :
    paramBatch (encRows (S.map Prod.fst ++ E)) (S.map Prod.snd) s = .ok () { batched0 S E s with
      D := sqMat (rangeKeys (numClusters S)) fun a b => if a = b then 0 else cipX S a b } := by
  obtain ⟨U, h1, _, h3⟩ := tri_range (k := numClusters S) (f := batchDist (batched0 S E s)) (g := cipX S)
    (fun i j hi hj => batchDist_eq hd hi hj) (cipX_comm S)
  rw [paramBatch, Base.setupBatch]
  refine modify_bind (lift_bind (a := deltaI d) (deltaTerm_eq hd) (modify_bind ?_))
  simp only [uniqueSize_eq, encRows_cols]
  have := forEach_range (k := numClusters S) (body := batchStep (encRows (S.map Prod.fst ++ E)) (S.map Prod.snd))
    (fun i => stageR (numClusters S) S i (batchBaseR S E s))
    fun i hi => batchStep_eq hi rfl rfl
  refine bind_ok_of (a := ()) (s1 := batched0 S E s) ?_ (get_bind (lift_bind h1 (lift_bind h3 rfl)))
  refine Eq.trans ?_ this
  congr 1
  simp [stageR, stageNV, batchBaseR, ← mix_zero, zeros_rows]

/-- Batch rCIP with labels exactly `0 .. k-1` and any number of further rows. -/
theorem batch_extra (hd : 0 < d) {S : Stream d} (E : List (Pt d)) {o : Obj} (ho : o.core.isSetup = false) (hk : 1 < numClusters S)
    (h : ∀ c, c ∈ labels S ↔ 0 ≤ c ∧ c < numClusters S) :
    ∃ o', getCvi RCIPmod (.d2 (encRows (S.map Prod.fst ++ E))) (.arr (S.map Prod.snd)) o = .ok (Spec.rCIP S) o' := by
  have hr := keysOf_range h
  have hp := paramBatch_eq hd S E o.core
  refine batch_value rfl ho hk hp (evaluate_rep hr ?_) rfl
  apply sqMat_congr
  intro a ha b hb
  have hx : cipX S a b = .fin (Spec.cip S a b) := if_pos ⟨(hr.mem a).mp ha, (hr.mem b).mp hb⟩
  rw [entry, hx]

/-- Batch rCIP with labels exactly `0 .. k-1`. -/
theorem batch (hd : 0 < d) {S : Stream d} {o : Obj} (ho : o.core.isSetup = false) (hk : 1 < numClusters S)
    (h : ∀ c, c ∈ labels S ↔ 0 ≤ c ∧ c < numClusters S) :
    ∃ o', getCvi RCIPmod (.d2 (encRows (S.map Prod.fst))) (.arr (S.map Prod.snd)) o = .ok (Spec.rCIP S) o' := by
  simpa using batch_extra hd [] ho hk h

end Verif.RCIP
