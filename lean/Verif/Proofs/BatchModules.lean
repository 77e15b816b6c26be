import Verif.Proofs.Batch
import Verif.Proofs.CH
import Verif.Proofs.WB
import Verif.Proofs.XB
import Verif.Proofs.DB
import Verif.Proofs.GD43
import Verif.Proofs.GD53
import Verif.Proofs.PS
import Verif.Proofs.RCIP
import Verif.Proofs.CSIL

/-!
# The batch updates

For each class: the attributes after `_param_batch` for arbitrary labels (`paramBatch_eq`; `E` are rows beyond the end of
the label vector), and the value of `get_cvi` when the labels are exactly `0 .. k-1` (`batch`).
-/

namespace Verif
open Spec Py

variable {d : ℕ}

theorem batch_value {M : Module} {data : Arr2} {S : Stream d} {o : Obj} {s1 s2 : Core} {V : XR} (hM : M.abstract = false)
    (ho : o.core.isSetup = false) (hk : 1 < numClusters S)
    (h1 : M.paramBatch data (S.map Prod.snd) o.core = .ok () s1) (h2 : M.evaluate s1 = .ok () s2) (hV : s2.criterion = V) :
    ∃ o', getCvi M (.d2 data) (.arr (S.map Prod.snd)) o = .ok V o' :=
  ⟨_, hV ▸ batch_call hM ho hk h1 h2⟩

/-- `np.sum((u - v) ** 2)` for vectors of equal length. -/
noncomputable def sqDistX (u v : Vec) : XR := Vec.sumSq (List.zipWith (· - ·) u v)

theorem sqDist_eq {u v : Vec} (h : u.length = v.length) : Vec.sqDist u v = .ok (sqDistX u v) := by
  simp [Vec.sqDist, Vec.sub, Vec.bin, h, sqDistX]

theorem sqDistX_enc (x y : Pt d) : sqDistX (enc x) (enc y) = .fin (dist2 x y) := by
  have h1 := sqDist_enc x y
  have h2 := sqDist_eq (u := enc x) (v := enc y) (by simp)
  rw [h2] at h1
  exact Except.ok.inj h1

theorem XR.sq_sub_comm (a b : XR) : XR.sq (a - b) = XR.sq (b - a) := by
  cases a <;> cases b <;> try rfl
  rename_i a b
  rw [XR.fin_sub, XR.fin_sub, XR.sq, XR.sq, XR.fin_mul, XR.fin_mul]
  congr 1; ring

theorem sqDistX_comm (u v : Vec) : sqDistX u v = sqDistX v u := by
  unfold sqDistX Vec.sumSq
  rw [List.map_zipWith, List.map_zipWith, List.zipWith_comm]
  congr 2
  funext a b
  exact XR.sq_sub_comm b a

theorem sqDistX_nan {v : Vec} (hd : 0 < d) (h : v.length = d) : sqDistX (List.replicate d .nan) v = .nan := by
  obtain ⟨d, rfl⟩ := Nat.exists_eq_succ_of_ne_zero hd.ne'
  cases v with
  | nil => simp at h
  | cons a v =>
    rw [sqDistX, Vec.sumSq]
    apply XR.sum_eq_nan
    simp [List.replicate_succ, XR.sq]

theorem mean0_length (l : List (Pt d)) : (encRows l).mean0.length = d := by simp [Arr2.mean0]

/-- Distance of two rows of the batch centroid table. -/
theorem row_stage {k i : ℕ} {S : Stream d} (hi : i < k) :
    Arr2.row ⟨d, (rangeKeys k).map (mix k (vRow S) (Vec.zeros d))⟩ i = .ok (vRow S i) := by
  have := row_rep (d := d) (f := vRow S) (natCast_mem_rangeKeys hi)
  rw [idx_range hi] at this
  simpa only [mix_full] using this

/-! ## CH and WB -/

/-- `n_ix * np.sum((v_ix - mu) ** 2)` -/
noncomputable def sepX (S : Stream d) (mu : Vec) (c : ℤ) : XR := .fin (size S c : ℝ) * sqDistX (vRow S c) mu

/-- The tables of CH and WB with the first `i` clusters filled. -/
noncomputable def stageSep (k : ℕ) (S : Stream d) (mu : Vec) (i : ℕ) (s : Core) : Core :=
  stage true k S i { s with SEP := (rangeKeys k).map (mix i (sepX S mu) 0) }

/-- The attributes common to the batch updates that keep `_mu`. -/
noncomputable def batchBase (S : Stream d) (E : List (Pt d)) (s : Core) : Core :=
  { s with
    nSamples := S.length + E.length
    dim := d
    isSetup := true
    mu := (encRows (S.map Prod.fst ++ E)).mean0
    nClusters := numClusters S }

namespace CH

theorem batchStep_eq {S : Stream d} {E : List (Pt d)} {k i : ℕ} {s : Core} (hi : i < k)
    (hmu : s.mu.length = d) :
    batchStep (encRows (S.map Prod.fst ++ E)) (S.map Prod.snd) i (stageSep k S s.mu i s) =
      .ok () (stageSep k S s.mu (i + 1) s) := by
  rw [batchStep]
  refine lift_bind (take_subset S E i) (stage_step hi (get_bind (lift_bind (sqDist_eq ?_) ?_)))
  · exact (vRow_length S i).trans hmu.symm
  · have hl : i < ((rangeKeys k).map (mix i (sepX S s.mu) 0)).length := by simpa using hi
    have hs := set_mix (f := sepX S s.mu) (z := 0) hi (x := XR.fin (size S i : ℝ) * sqDistX (vRow S i) s.mu) rfl
    rw [size_eq]
    change (if i < ((rangeKeys k).map (mix i (sepX S s.mu) 0)).length then (_ : Py Core Unit) else _) _ = _
    rw [if_pos hl, modify_apply]
    change Res.ok () (stage true k S (i + 1) { s with SEP := ((rangeKeys k).map (mix i (sepX S s.mu) 0)).set i _ }) = _
    rw [stageSep, ← hs]
    rfl

/-- The object after `_param_batch`. -/
noncomputable def batched (S : Stream d) (E : List (Pt d)) (s : Core) : Core :=
  stageSep (numClusters S) S (batchBase S E s).mu (numClusters S) (batchBase S E s)

theorem paramBatch_eq (S : Stream d) (E : List (Pt d)) (s : Core) :
    paramBatch (encRows (S.map Prod.fst ++ E)) (S.map Prod.snd) s = .ok () (batched S E s) := by
  rw [paramBatch, Base.setupBatch]
  refine modify_bind (modify_bind ?_)
  simp only [uniqueSize_eq, encRows_cols]
  have := forEach_range (k := numClusters S) (body := batchStep (encRows (S.map Prod.fst ++ E)) (S.map Prod.snd))
    (fun i => stageSep (numClusters S) S (batchBase S E s).mu i (batchBase S E s))
    fun i hi => batchStep_eq hi (mean0_length _)
  refine Eq.trans ?_ this
  congr 1
  simp [stageSep, stage, stageNV, batchBase, ← mix_zero, Vec.zeros, zeros_rows]

theorem batched_sep {S : Stream d} {s : Core} (h : KeysOf (rangeKeys (numClusters S)) S) (hS : S ≠ []) :
    (batched S [] s).SEP = (rangeKeys (numClusters S)).map fun c => XR.fin (size S c * dist2 (centroid S c) (mean S)) := by
  have hmu : (batchBase S [] s).mu = enc (mean S) := by
    rw [batchBase, List.append_nil]; exact mean0_all hS
  rw [batched, hmu]
  simp only [stageSep, stage, stageNV, mix_full]
  apply List.map_congr_left
  intro c hc
  rw [sepX, vRow_of_mem ((h.mem c).mp hc), sqDistX_enc, XR.fin_mul]

/-- Batch CH with labels exactly `0 .. k-1`. -/
theorem batch {S : Stream d} {o : Obj} (ho : o.core.isSetup = false) (hk : 1 < numClusters S)
    (h : ∀ c, c ∈ labels S ↔ 0 ≤ c ∧ c < numClusters S) :
    ∃ o', getCvi CHmod (.d2 (encRows (S.map Prod.fst))) (.arr (S.map Prod.snd)) o = .ok (Spec.CH S) o' := by
  have hr := keysOf_range h
  have hp := paramBatch_eq S [] o.core
  rw [List.append_nil] at hp
  obtain ⟨w, g, he⟩ := evaluate_rep (s := batched S [] o.core) hr (stage_nv hr rfl rfl) stage_cp (by simp [batched, stageSep, stage, stageNV, batchBase])
    (batched_sep hr (nonempty_of_clusters hk))
  exact batch_value rfl ho hk hp he rfl

end CH

namespace WB

theorem batchStep_eq {S : Stream d} {E : List (Pt d)} {k i : ℕ} {s : Core} (hi : i < k)
    (hmu : s.mu.length = d) :
    batchStep (encRows (S.map Prod.fst ++ E)) (S.map Prod.snd) i (stageSep k S s.mu i s) =
      .ok () (stageSep k S s.mu (i + 1) s) := CH.batchStep_eq hi hmu

theorem paramBatch_eq (S : Stream d) (E : List (Pt d)) (s : Core) :
    paramBatch (encRows (S.map Prod.fst ++ E)) (S.map Prod.snd) s = .ok () (CH.batched S E s) := by
  rw [paramBatch, Base.setupBatch]
  refine modify_bind (modify_bind ?_)
  simp only [uniqueSize_eq, encRows_cols]
  have := forEach_range (k := numClusters S) (body := batchStep (encRows (S.map Prod.fst ++ E)) (S.map Prod.snd))
    (fun i => stageSep (numClusters S) S (batchBase S E s).mu i (batchBase S E s))
    fun i hi => batchStep_eq hi (mean0_length _)
  refine Eq.trans ?_ this
  congr 1
  simp [stageSep, stage, stageNV, batchBase, ← mix_zero, Vec.zeros, zeros_rows]

/-- Batch WB with labels exactly `0 .. k-1`. -/
theorem batch {S : Stream d} {o : Obj} (ho : o.core.isSetup = false) (hk : 1 < numClusters S)
    (h : ∀ c, c ∈ labels S ↔ 0 ≤ c ∧ c < numClusters S) :
    ∃ o', getCvi WBmod (.d2 (encRows (S.map Prod.fst))) (.arr (S.map Prod.snd)) o = .ok (Spec.WB S) o' := by
  have hr := keysOf_range h
  have hp := paramBatch_eq S [] o.core
  rw [List.append_nil] at hp
  obtain ⟨w, g, he⟩ := evaluate_rep (s := CH.batched S [] o.core) hr (stage_nv hr rfl rfl) (stage_cp (s := o.core))
    (CH.batched_sep hr (nonempty_of_clusters hk))
  exact batch_value rfl ho hk hp he rfl

end WB

/-! ## XB, GD43, GD53, DB, PS -/

/-- The batch distance matrix is built from the entries `f` in both triangles. -/
theorem tri_range {k : ℕ} {f : ℕ → ℕ → Except PyErr XR} {g : ℤ → ℤ → XR}
    (hf : ∀ i j, i < k → j < k → f i j = .ok (g i j)) (hs : ∀ a b, g a b = g b a) :
    ∃ U, Arr2.upperTri k f = .ok U ∧ Upper (rangeKeys k) g U ∧
      U.add U.transpose = .ok (sqMat (rangeKeys k) fun a b => if a = b then 0 else g a b) := by
  obtain ⟨U, h1, h2, h3, _⟩ := symmetrise (rangeKeys_nodup k) (f := f) (g := g) (by
    intro a ha b hb
    obtain ⟨ha1, ha2⟩ := mem_rangeKeys.mp ha
    obtain ⟨hb1, hb2⟩ := mem_rangeKeys.mp hb
    obtain ⟨i, rfl⟩ := Int.eq_ofNat_of_zero_le ha1
    obtain ⟨j, rfl⟩ := Int.eq_ofNat_of_zero_le hb1
    have hi : i < k := by omega
    have hj : j < k := by omega
    rw [idx_range hi, idx_range hj]
    exact hf i j hi hj) fun a _ b _ => hs a b
  rw [rangeKeys_length] at h1
  exact ⟨U, h1, h2, h3⟩

namespace XB

/-- The squared distance of the batch centroids. -/
noncomputable def distX (S : Stream d) (a b : ℤ) : XR := sqDistX (vRow S a) (vRow S b)

theorem distX_comm (S : Stream d) (a b : ℤ) : distX S a b = distX S b a := sqDistX_comm _ _

theorem distX_of_mem {S : Stream d} {a b : ℤ} (ha : a ∈ labels S) (hb : b ∈ labels S) : distX S a b = .fin (sep S a b) := by
  rw [distX, vRow_of_mem ha, vRow_of_mem hb, sqDistX_enc]; rfl

theorem batchDist_eq {k i j : ℕ} {S : Stream d} {s' : Core}
    (hs : s'.v = ⟨d, (rangeKeys k).map (mix k (vRow S) (Vec.zeros d))⟩) (hi : i < k)
    (hj : j < k) : batchDist s' i j = .ok (distX S i j) := by
  rw [batchDist, hs, row_stage hi, except_bind_ok, row_stage hj, except_bind_ok]
  exact sqDist_eq ((vRow_length S i).trans (vRow_length S j).symm)

theorem batchStep_eq {b : Bool} {S : Stream d} {E : List (Pt d)} {k i : ℕ} {s : Core} (hi : i < k) :
    batchStep (encRows (S.map Prod.fst ++ E)) (S.map Prod.snd) i (stage b k S i s) = .ok () (stage b k S (i + 1) s) := by
  rw [batchStep]
  refine lift_bind (take_subset S E i) ?_
  refine bind_ok_of (setN_mix hi rfl (size_eq S i)) ?_
  refine bind_ok_of (setV_mix (d := d) hi (f := vRow S) rfl rfl (vRow_length S i)) ?_
  refine lift_bind (batchScatter_eq S i) ?_
  exact setCP_mix (f := fun c => XR.fin (scatter S c)) hi rfl rfl

/-- The object before the distance matrix is assigned. -/
noncomputable def batched0 (S : Stream d) (E : List (Pt d)) (s : Core) : Core :=
  stage true (numClusters S) S (numClusters S)
    { batchBase S E s with D := Arr2.zeros (numClusters S) (numClusters S) }

theorem paramBatch_eq (S : Stream d) (E : List (Pt d)) (s : Core) :
    ∃ U, Upper (rangeKeys (numClusters S)) (distX S) U ∧
      paramBatch (encRows (S.map Prod.fst ++ E)) (S.map Prod.snd) s = .ok () { batched0 S E s with D := U } := by
  obtain ⟨U, h1, h2, _⟩ := tri_range (k := numClusters S) (f := batchDist (batched0 S E s)) (g := distX S)
    (fun i j hi hj => batchDist_eq rfl hi hj) (distX_comm S)
  refine ⟨U, h2, ?_⟩
  rw [paramBatch, Base.setupBatch]
  refine modify_bind (modify_bind ?_)
  simp only [uniqueSize_eq, encRows_cols]
  have := forEach_range (k := numClusters S) (body := batchStep (encRows (S.map Prod.fst ++ E)) (S.map Prod.snd))
    (fun i => stage true (numClusters S) S i { batchBase S E s with D := Arr2.zeros (numClusters S) (numClusters S) })
    fun i hi => batchStep_eq hi
  refine bind_ok_of (a := ()) (s1 := batched0 S E s) ?_ (get_bind (lift_bind h1 rfl))
  refine Eq.trans ?_ this
  congr 1
  simp [stage, stageNV, batchBase, ← mix_zero, Vec.zeros, zeros_rows]

/-- Batch XB with labels exactly `0 .. k-1`. -/
theorem batch {S : Stream d} {o : Obj} (ho : o.core.isSetup = false) (hk : 1 < numClusters S)
    (h : ∀ c, c ∈ labels S ↔ 0 ≤ c ∧ c < numClusters S) :
    ∃ o', getCvi XBmod (.d2 (encRows (S.map Prod.fst))) (.arr (S.map Prod.snd)) o = .ok (Spec.XB S) o' := by
  have hr := keysOf_range h
  obtain ⟨U, hU, hp⟩ := paramBatch_eq S [] o.core
  rw [List.append_nil] at hp
  have nv : RepNV true (rangeKeys (numClusters S)) S (batched0 S [] o.core) := stage_nv hr rfl rfl
  obtain ⟨w, g, he⟩ := evaluate_rep (s := { batched0 S [] o.core with D := U }) hr ⟨nv.dim, nv.k, nv.n, nv.v⟩ (stage_cp (s := o.core))
    (by simp [batched0, stage, stageNV, batchBase])
    (hU.congr hr.nodup fun a ha b hb _ => distX_of_mem ((hr.mem a).mp ha) ((hr.mem b).mp hb))
  exact batch_value rfl ho hk hp he rfl

end XB

namespace GD43

/-- The distance of the batch centroids. -/
noncomputable def distX (S : Stream d) (a b : ℤ) : XR := (XB.distX S a b).sqrt

theorem distX_comm (S : Stream d) (a b : ℤ) : distX S a b = distX S b a := by rw [distX, XB.distX_comm, distX]

theorem distX_of_mem {S : Stream d} {a b : ℤ} (ha : a ∈ labels S) (hb : b ∈ labels S) :
    distX S a b = .fin (Real.sqrt (sep S a b)) := by
  rw [distX, XB.distX_of_mem ha hb, XR.sqrt_fin_of_nonneg (sep_nonneg _ _ _)]

theorem batchDist_eq {k i j : ℕ} {S : Stream d} {s' : Core}
    (hs : s'.v = ⟨d, (rangeKeys k).map (mix k (vRow S) (Vec.zeros d))⟩) (hi : i < k)
    (hj : j < k) : batchDist s' i j = .ok (distX S i j) := by
  rw [batchDist, hs, row_stage hi, except_bind_ok, row_stage hj, except_bind_ok,
    sqDist_eq ((vRow_length S i).trans (vRow_length S j).symm)]
  rfl

/-- The object before the distance matrix is assigned. -/
noncomputable def batched0 (S : Stream d) (E : List (Pt d)) (s : Core) : Core :=
  stage false (numClusters S) S (numClusters S)
    { batchBase S E s with
      G := some (Arr2.zeros (numClusters S) d)
      D := Arr2.zeros (numClusters S) (numClusters S) }

theorem paramBatch_eq (S : Stream d) (E : List (Pt d)) (s : Core) :
    paramBatch (encRows (S.map Prod.fst ++ E)) (S.map Prod.snd) s = .ok () { batched0 S E s with
      D := sqMat (rangeKeys (numClusters S)) fun a b => if a = b then 0 else distX S a b } := by
  obtain ⟨U, h1, _, h3⟩ := tri_range (k := numClusters S) (f := batchDist (batched0 S E s)) (g := distX S)
    (fun i j hi hj => batchDist_eq rfl hi hj) (distX_comm S)
  rw [paramBatch, Base.setupBatch]
  refine modify_bind (modify_bind ?_)
  simp only [uniqueSize_eq, encRows_cols]
  have := forEach_range (k := numClusters S) (body := batchStep (encRows (S.map Prod.fst ++ E)) (S.map Prod.snd))
    (fun i => stage false (numClusters S) S i { batchBase S E s with
      G := some (Arr2.zeros (numClusters S) d)
      D := Arr2.zeros (numClusters S) (numClusters S) })
    fun i hi => XB.batchStep_eq hi
  refine bind_ok_of (a := ()) (s1 := batched0 S E s) ?_ (get_bind (lift_bind h1 (lift_bind h3 rfl)))
  refine Eq.trans ?_ this
  congr 1
  simp [stage, stageNV, batchBase, ← mix_zero, Vec.zeros, zeros_rows]

/-- Batch GD43 with labels exactly `0 .. k-1` and any number of further rows. -/
theorem batch_extra {S : Stream d} (E : List (Pt d)) {o : Obj} (ho : o.core.isSetup = false) (hk : 1 < numClusters S)
    (h : ∀ c, c ∈ labels S ↔ 0 ≤ c ∧ c < numClusters S) :
    ∃ o', getCvi GD43mod (.d2 (encRows (S.map Prod.fst ++ E))) (.arr (S.map Prod.snd)) o = .ok (Spec.GD43 S) o' := by
  have hr := keysOf_range h
  have hp := paramBatch_eq S E o.core
  have nv : RepNV false (rangeKeys (numClusters S)) S (batched0 S E o.core) := stage_nv hr rfl rfl
  obtain ⟨w, g, he⟩ := evaluate_rep (s := { batched0 S E o.core with
      D := sqMat (rangeKeys (numClusters S)) fun a b => if a = b then 0 else distX S a b }) hr
    ⟨nv.dim, nv.k, nv.n, nv.v⟩ (stage_cp (s := o.core))
    ((upper_sqMat _ _).congr hr.nodup fun a ha b hb e => by
      rw [if_neg e, distX_of_mem ((hr.mem a).mp ha) ((hr.mem b).mp hb)])
  exact batch_value rfl ho hk hp he rfl

/-- Batch GD43 with labels exactly `0 .. k-1`. -/
theorem batch {S : Stream d} {o : Obj} (ho : o.core.isSetup = false) (hk : 1 < numClusters S)
    (h : ∀ c, c ∈ labels S ↔ 0 ≤ c ∧ c < numClusters S) :
    ∃ o', getCvi GD43mod (.d2 (encRows (S.map Prod.fst))) (.arr (S.map Prod.snd)) o = .ok (Spec.GD43 S) o' := by
  simpa using batch_extra [] ho hk h

end GD43

namespace GD53

/-- The pooled scatter of two batch clusters. -/
noncomputable def distX (S : Stream d) (a b : ℤ) : XR :=
  .fin (scatter S a + scatter S b) / .fin ((size S a + size S b : ℕ) : ℝ)

theorem distX_comm (S : Stream d) (a b : ℤ) : distX S a b = distX S b a := by
  rw [distX, add_comm, Nat.add_comm, distX]

theorem distX_of_mem {S : Stream d} {a b : ℤ} (ha : a ∈ labels S) : distX S a b = .fin (pooled S a b) := by
  have : ((size S a + size S b : ℕ) : ℝ) ≠ 0 := by
    have := size_pos ha
    positivity
  rw [distX, XR.fin_div_of_ne _ this, pooled]
  push_cast
  rfl

theorem batchDist_eq {k i j : ℕ} {S : Stream d} {s : Core} (hi : i < k) (hj : j < k) :
    batchDist (stage false k S k s) i j = .ok (distX S i j) := by
  have hcp : (stage false k S k s).CP = some ⟨false, (rangeKeys k).map fun c => XR.fin (scatter S c)⟩ := stage_cp
  have hn : (stage false k S k s).n = ⟨false, (rangeKeys k).map (size S)⟩ := by simp only [stage, stageNV, mix_full]
  have g1 : ∀ i, i < k → Seq.get ⟨false, (rangeKeys k).map fun c => XR.fin (scatter S c)⟩ i = .ok (.fin (scatter S i)) := by
    intro i hi
    have := get_rep (b := false) (f := fun c => XR.fin (scatter S c)) (natCast_mem_rangeKeys hi)
    rwa [idx_range hi] at this
  have g2 : ∀ i, i < k → Seq.get ⟨false, (rangeKeys k).map (size S)⟩ i = .ok (size S i) := by
    intro i hi
    have := get_rep (b := false) (f := size S) (natCast_mem_rangeKeys hi)
    rwa [idx_range hi] at this
  rw [batchDist, hcp, attr, except_bind_ok, g1 i hi, except_bind_ok, g1 j hj, except_bind_ok, hn, g2 i hi, except_bind_ok,
    g2 j hj, except_bind_ok]
  rfl

/-- Batch of GD53. -/
theorem paramBatch_eq (S : Stream d) (E : List (Pt d)) (s : Core) :
    paramBatch (encRows (S.map Prod.fst ++ E)) (S.map Prod.snd) s = .ok () { GD43.batched0 S E s with
      D := sqMat (rangeKeys (numClusters S)) fun a b => if a = b then 0 else distX S a b } := by
  obtain ⟨U, h1, _, h3⟩ := tri_range (k := numClusters S) (f := batchDist (GD43.batched0 S E s)) (g := distX S)
    (fun i j hi hj => batchDist_eq hi hj) (distX_comm S)
  rw [paramBatch, Base.setupBatch]
  refine modify_bind (modify_bind ?_)
  simp only [uniqueSize_eq, encRows_cols]
  have := forEach_range (k := numClusters S) (body := batchStep (encRows (S.map Prod.fst ++ E)) (S.map Prod.snd))
    (fun i => stage false (numClusters S) S i { batchBase S E s with
      G := some (Arr2.zeros (numClusters S) d)
      D := Arr2.zeros (numClusters S) (numClusters S) })
    fun i hi => XB.batchStep_eq hi
  refine bind_ok_of (a := ()) (s1 := GD43.batched0 S E s) ?_ (get_bind (lift_bind h1 (lift_bind h3 rfl)))
  refine Eq.trans ?_ this
  congr 1
  simp [stage, stageNV, batchBase, ← mix_zero, Vec.zeros, zeros_rows]

/-- Batch GD53 with labels exactly `0 .. k-1` and any number of further rows. -/
theorem batch_extra {S : Stream d} (E : List (Pt d)) {o : Obj} (ho : o.core.isSetup = false) (hk : 1 < numClusters S)
    (h : ∀ c, c ∈ labels S ↔ 0 ≤ c ∧ c < numClusters S) :
    ∃ o', getCvi GD53mod (.d2 (encRows (S.map Prod.fst ++ E))) (.arr (S.map Prod.snd)) o = .ok (Spec.GD53 S) o' := by
  have hr := keysOf_range h
  have hp := paramBatch_eq S E o.core
  have nv : RepNV false (rangeKeys (numClusters S)) S (GD43.batched0 S E o.core) := stage_nv hr rfl rfl
  obtain ⟨w, g, he⟩ := evaluate_rep (s := { GD43.batched0 S E o.core with
      D := sqMat (rangeKeys (numClusters S)) fun a b => if a = b then 0 else distX S a b }) hr
    ⟨nv.dim, nv.k, nv.n, nv.v⟩ (stage_cp (s := o.core))
    ((upper_sqMat _ _).congr hr.nodup fun a ha b hb e => by
      rw [if_neg e, distX_of_mem ((hr.mem a).mp ha)])
  exact batch_value rfl ho hk hp he rfl

/-- Batch GD53 with labels exactly `0 .. k-1`. -/
theorem batch {S : Stream d} {o : Obj} (ho : o.core.isSetup = false) (hk : 1 < numClusters S)
    (h : ∀ c, c ∈ labels S ↔ 0 ≤ c ∧ c < numClusters S) :
    ∃ o', getCvi GD53mod (.d2 (encRows (S.map Prod.fst))) (.arr (S.map Prod.snd)) o = .ok (Spec.GD53 S) o' := by
  simpa using batch_extra [] ho hk h

end GD53

namespace DB

/-- `CP[ix] / n[ix]` -/
noncomputable def meanX (S : Stream d) (c : ℤ) : XR := .fin (scatter S c) / .fin (size S c : ℝ)

theorem meanX_of_mem {S : Stream d} {c : ℤ} (h : c ∈ labels S) : meanX S c = .fin (meanScatter S c) := by
  rw [meanX, XR.fin_div_of_ne _ (size_pos_real h).ne']; rfl

/-- The tables of DB with the first `i` clusters filled. -/
noncomputable def stageS (k : ℕ) (S : Stream d) (i : ℕ) (s : Core) : Core :=
  stage false k S i { s with Sv := ⟨false, (rangeKeys k).map (mix i (meanX S) 0)⟩ }

theorem batchStep_eq {S : Stream d} {E : List (Pt d)} {k i : ℕ} {s : Core} (hi : i < k) :
    batchStep (encRows (S.map Prod.fst ++ E)) (S.map Prod.snd) i (stageS k S i s) = .ok () (stageS k S (i + 1) s) := by
  rw [batchStep]
  refine lift_bind (take_subset S E i) ?_
  have hb := batchScatter_eq S i
  have hs := set_mix (f := meanX S) (z := 0) hi (x := XR.fin (scatter S i) / .fin (size S i : ℝ)) rfl
  refine bind_ok_of (setN_mix hi rfl (size_eq S i)) ?_
  refine bind_ok_of (setV_mix (d := d) hi (f := vRow S) rfl rfl (vRow_length S i)) ?_
  refine lift_bind (batchScatter_eq S i) ?_
  refine bind_ok_of (setCP_mix (f := fun c => XR.fin (scatter S c)) hi rfl rfl) ?_
  rw [size_eq, setS]
  refine get_bind (lift_bind (a := ⟨false, (rangeKeys k).map (mix (i + 1) (meanX S) 0)⟩) ?_ ?_)
  · change Seq.set ⟨false, (rangeKeys k).map (mix i (meanX S) 0)⟩ i _ = _
    rw [Seq.set, if_pos (by simpa using hi), hs]
  · rfl

/-- The object before the distance matrix is assigned. -/
noncomputable def batched0 (S : Stream d) (E : List (Pt d)) (s : Core) : Core :=
  stageS (numClusters S) S (numClusters S)
    { batchBase S E s with
      G := some (Arr2.zeros (numClusters S) d)
      D := Arr2.zeros (numClusters S) (numClusters S) }

theorem batchDist_eq {k i j : ℕ} {S : Stream d} {s' : Core}
    (hs : s'.v = ⟨d, (rangeKeys k).map (mix k (vRow S) (Vec.zeros d))⟩) (hi : i < k)
    (hj : j < k) : batchDist s' i j = .ok (XB.distX S i j) := XB.batchDist_eq hs hi hj

theorem paramBatch_eq (S : Stream d) (E : List (Pt d)) (s : Core) :
    paramBatch (encRows (S.map Prod.fst ++ E)) (S.map Prod.snd) s = .ok () { batched0 S E s with
      D := sqMat (rangeKeys (numClusters S)) fun a b => if a = b then 0 else XB.distX S a b } := by
  obtain ⟨U, h1, _, h3⟩ := tri_range (k := numClusters S) (f := batchDist (batched0 S E s)) (g := XB.distX S)
    (fun i j hi hj => batchDist_eq rfl hi hj) (XB.distX_comm S)
  rw [paramBatch, Base.setupBatch]
  refine modify_bind (modify_bind ?_)
  simp only [uniqueSize_eq, encRows_cols]
  have := forEach_range (k := numClusters S) (body := batchStep (encRows (S.map Prod.fst ++ E)) (S.map Prod.snd))
    (fun i => stageS (numClusters S) S i { batchBase S E s with
      G := some (Arr2.zeros (numClusters S) d)
      D := Arr2.zeros (numClusters S) (numClusters S) })
    fun i hi => batchStep_eq hi
  refine bind_ok_of (a := ()) (s1 := batched0 S E s) ?_ (get_bind (lift_bind h1 (lift_bind h3 rfl)))
  refine Eq.trans ?_ this
  congr 1
  simp [stageS, stage, stageNV, batchBase, ← mix_zero, Vec.zeros, zeros_rows]

/-- Batch DB with labels exactly `0 .. k-1` and any number of further rows. -/
theorem batch_extra {S : Stream d} (E : List (Pt d)) {o : Obj} (ho : o.core.isSetup = false) (hk : 1 < numClusters S)
    (h : ∀ c, c ∈ labels S ↔ 0 ≤ c ∧ c < numClusters S) :
    ∃ o', getCvi DBmod (.d2 (encRows (S.map Prod.fst ++ E))) (.arr (S.map Prod.snd)) o = .ok (Spec.DB S) o' := by
  have hr := keysOf_range h
  have hp := paramBatch_eq S E o.core
  obtain ⟨w, he⟩ := evaluate_rep (b := false) (s := { batched0 S E o.core with
      D := sqMat (rangeKeys (numClusters S)) fun a b => if a = b then 0 else XB.distX S a b }) hr
    (by simp [batched0, stageS, stage, stageNV, batchBase])
    (by
      intro a ha b hb e
      simp only [sqMat_get ha hb, if_neg e, XB.distX_of_mem ((hr.mem a).mp ha) ((hr.mem b).mp hb)])
    (by
      simp only [batched0, stageS, stage, stageNV, mix_full]
      congr 1
      exact List.map_congr_left fun c hc => meanX_of_mem ((hr.mem c).mp hc))
  exact batch_value rfl ho hk hp he rfl

/-- Batch DB with labels exactly `0 .. k-1`. -/
theorem batch {S : Stream d} {o : Obj} (ho : o.core.isSetup = false) (hk : 1 < numClusters S)
    (h : ∀ c, c ∈ labels S ↔ 0 ≤ c ∧ c < numClusters S) :
    ∃ o', getCvi DBmod (.d2 (encRows (S.map Prod.fst))) (.arr (S.map Prod.snd)) o = .ok (Spec.DB S) o' := by
  simpa using batch_extra [] ho hk h

end DB

namespace PS

theorem batchStep_eq {S : Stream d} {E : List (Pt d)} {k i : ℕ} {s : Core} (hi : i < k) :
    batchStep (encRows (S.map Prod.fst ++ E)) (S.map Prod.snd) i (stageNV false k S i s) =
      .ok () (stageNV false k S (i + 1) s) := by
  rw [batchStep]
  refine lift_bind (take_subset S E i) ?_
  refine bind_ok_of (setN_mix hi rfl (size_eq S i)) ?_
  exact setV_mix (d := d) hi (f := vRow S) rfl rfl (vRow_length S i)

theorem batchDist_eq {k i j : ℕ} {S : Stream d} {s' : Core}
    (hs : s'.v = ⟨d, (rangeKeys k).map (mix k (vRow S) (Vec.zeros d))⟩) (hi : i < k)
    (hj : j < k) : batchDist s' i j = .ok (XB.distX S i j) := XB.batchDist_eq hs hi hj

/-- The object before the distance matrix is assigned. -/
noncomputable def batched0 (S : Stream d) (E : List (Pt d)) (s : Core) : Core :=
  stageNV false (numClusters S) S (numClusters S)
    { batchBase S E s with D := Arr2.zeros (numClusters S) (numClusters S) }

theorem paramBatch_eq (S : Stream d) (E : List (Pt d)) (s : Core) :
    paramBatch (encRows (S.map Prod.fst ++ E)) (S.map Prod.snd) s = .ok () { batched0 S E s with
      D := sqMat (rangeKeys (numClusters S)) fun a b => if a = b then 0 else XB.distX S a b } := by
  obtain ⟨U, h1, _, h3⟩ := tri_range (k := numClusters S) (f := batchDist (batched0 S E s)) (g := XB.distX S)
    (fun i j hi hj => batchDist_eq rfl hi hj) (XB.distX_comm S)
  rw [paramBatch, Base.setupBatch]
  refine modify_bind (modify_bind ?_)
  simp only [uniqueSize_eq, encRows_cols]
  have := forEach_range (k := numClusters S) (body := batchStep (encRows (S.map Prod.fst ++ E)) (S.map Prod.snd))
    (fun i => stageNV false (numClusters S) S i
      { batchBase S E s with D := Arr2.zeros (numClusters S) (numClusters S) })
    fun i hi => batchStep_eq hi
  refine bind_ok_of (a := ()) (s1 := batched0 S E s) ?_ (get_bind (lift_bind h1 (lift_bind h3 rfl)))
  refine Eq.trans ?_ this
  congr 1
  simp [stageNV, batchBase, ← mix_zero, Vec.zeros, zeros_rows]

/-- Batch PS with labels exactly `0 .. k-1` and any number of further rows. -/
theorem batch_extra {S : Stream d} (E : List (Pt d)) {o : Obj} (ho : o.core.isSetup = false) (hk : 1 < numClusters S)
    (h : ∀ c, c ∈ labels S ↔ 0 ≤ c ∧ c < numClusters S) :
    ∃ o', getCvi PSmod (.d2 (encRows (S.map Prod.fst ++ E))) (.arr (S.map Prod.snd)) o = .ok (Spec.PS S) o' := by
  have hr := keysOf_range h
  have hp := paramBatch_eq S E o.core
  have nv : RepNV false (rangeKeys (numClusters S)) S (batched0 S E o.core) := stageNV_nv hr rfl rfl
  obtain ⟨w, t, p, he⟩ := evaluate_rep (s := { batched0 S E o.core with
      D := sqMat (rangeKeys (numClusters S)) fun a b => if a = b then 0 else XB.distX S a b }) hr
    ⟨nv.dim, nv.k, nv.n, nv.v⟩ rfl
    (fun a ha b hb e => by
      rw [if_neg e, XB.distX_of_mem ((hr.mem a).mp ha) ((hr.mem b).mp hb)])
  exact batch_value rfl ho hk hp he rfl

/-- Batch PS with labels exactly `0 .. k-1`. -/
theorem batch {S : Stream d} {o : Obj} (ho : o.core.isSetup = false) (hk : 1 < numClusters S)
    (h : ∀ c, c ∈ labels S ↔ 0 ≤ c ∧ c < numClusters S) :
    ∃ o', getCvi PSmod (.d2 (encRows (S.map Prod.fst))) (.arr (S.map Prod.snd)) o = .ok (Spec.PS S) o' := by
  simpa using batch_extra [] ho hk h

end PS

end Verif
