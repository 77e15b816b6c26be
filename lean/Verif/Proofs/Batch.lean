import Verif.Proofs.Sim
import Verif.Proofs.Extrema

/-!
# Shared steps of the batch updates

The internal labels of a batch are `0 .. k-1`.  The tables after the batch loop are described for arbitrary label vectors
(`vRow`, `sepX` are non-finite for an empty cluster); `KeysOf (rangeKeys k) S` says that the labels are exactly `0 .. k-1`.
-/

namespace Verif
open Spec Py

variable {d : ℕ}

/-- The labels `0 .. k-1`. -/
def rangeKeys (k : ℕ) : List ℤ := (List.range k).map fun i : ℕ => (i : ℤ)

@[simp] theorem rangeKeys_length (k : ℕ) : (rangeKeys k).length = k := by simp [rangeKeys]

theorem rangeKeys_nodup (k : ℕ) : (rangeKeys k).Nodup :=
  List.nodup_range.map fun _ _ h => by exact_mod_cast h

theorem mem_rangeKeys {k : ℕ} {c : ℤ} : c ∈ rangeKeys k ↔ 0 ≤ c ∧ c < k := by
  simp only [rangeKeys, List.mem_map, List.mem_range]
  constructor
  · rintro ⟨i, hi, rfl⟩; omega
  · rintro ⟨h1, h2⟩; exact ⟨c.toNat, by omega, by omega⟩

theorem natCast_mem_rangeKeys {k i : ℕ} (h : i < k) : (i : ℤ) ∈ rangeKeys k := mem_rangeKeys.mpr ⟨by omega, by omega⟩

theorem idx_range {k i : ℕ} (h : i < k) : (rangeKeys k).idxOf (i : ℤ) = i := by
  have := (rangeKeys_nodup k).idxOf_getElem i (by simpa using h)
  simpa [rangeKeys] using this

/-! ## Loops -/

theorem forEach_append {σ ι : Type} (l m : List ι) (body : ι → Py σ Unit) (s s' : σ)
    (h : forEach l body s = .ok () s') : forEach (l ++ m) body s = forEach m body s' := by
  induction l generalizing s with
  | nil =>
    have : s = s' := by simpa [forEach] using h
    subst this; rfl
  | cons i l ih =>
    simp only [List.cons_append, forEach, bind_apply] at h ⊢
    cases hb : body i s with
    | ok a s1 => rw [hb] at h; exact ih s1 h
    | err e s1 => rw [hb] at h; simp at h

/-- A loop over `range k` that walks through the states `st`. -/
theorem forEach_range {σ : Type} {k : ℕ} {body : ℕ → Py σ Unit} (st : ℕ → σ)
    (h : ∀ i, i < k → body i (st i) = .ok () (st (i + 1))) : forEach (List.range k) body (st 0) = .ok () (st k) := by
  induction k with
  | zero => rfl
  | succ k ih =>
    rw [List.range_succ, forEach_append _ _ _ _ _ (ih fun i hi => h i (by omega))]
    simp only [forEach, bind_apply, h k (by omega), Res.bind_ok, pure_apply]

/-- A table of which the first `i` entries are filled. -/
def mix {α : Type} (i : ℕ) (f : ℤ → α) (z : α) : ℤ → α := fun c => if c < (i : ℤ) then f c else z

theorem mix_self {α : Type} (i : ℕ) (f : ℤ → α) (z : α) : mix (i + 1) f z (i : ℤ) = f i := by
  rw [mix, if_pos (by push_cast; omega)]

theorem mix_ne {α : Type} {i : ℕ} {f : ℤ → α} {z : α} {a : ℤ} (h : a ≠ i) : mix (i + 1) f z a = mix i f z a := by
  have : a < ((i + 1 : ℕ) : ℤ) ↔ a < (i : ℤ) := by push_cast; omega
  simp only [mix, this]

theorem mix_full {α : Type} (k : ℕ) (f : ℤ → α) (z : α) : (rangeKeys k).map (mix k f z) = (rangeKeys k).map f :=
  List.map_congr_left fun _ hc => if_pos (mem_rangeKeys.mp hc).2

theorem mix_zero {α : Type} (k : ℕ) (f : ℤ → α) (z : α) : List.replicate k z = (rangeKeys k).map (mix 0 f z) := by
  have : (rangeKeys k).map (mix 0 f z) = (rangeKeys k).map fun _ => z := by
    apply List.map_congr_left
    intro c hc
    have := (mem_rangeKeys.mp hc).1
    rw [mix, if_neg (by push_cast; omega)]
  rw [this, List.map_const', rangeKeys_length]

theorem setN_mix {s : Core} {b : Bool} {k i : ℕ} {f : ℤ → ℕ} {x : ℕ} (hi : i < k)
    (h : s.n = ⟨b, (rangeKeys k).map (mix i f 0)⟩) (hx : x = f i) :
    setN i x s = .ok () { s with n := ⟨b, (rangeKeys k).map (mix (i + 1) f 0)⟩ } := by
  have := setN_rep (rangeKeys_nodup k) (natCast_mem_rangeKeys hi) h (hx.trans (mix_self i f 0).symm)
    fun a _ ha => mix_ne ha
  rwa [idx_range hi] at this

theorem setV_mix {s : Core} {k i : ℕ} {f : ℤ → Vec} {x z : Vec} (hi : i < k)
    (h : s.v = ⟨d, (rangeKeys k).map (mix i f z)⟩) (hx : x = f i) (hd : x.length = d) :
    setV i x s = .ok () { s with v := ⟨d, (rangeKeys k).map (mix (i + 1) f z)⟩ } := by
  have := setV_rep (rangeKeys_nodup k) (natCast_mem_rangeKeys hi) h (hx.trans (mix_self i f z).symm) hd
    fun a _ ha => mix_ne ha
  rwa [idx_range hi] at this

theorem setCP_mix {s : Core} {b : Bool} {k i : ℕ} {f : ℤ → XR} {x : XR} (hi : i < k)
    (h : s.CP = some ⟨b, (rangeKeys k).map (mix i f 0)⟩) (hx : x = f i) :
    setCP i x s = .ok () { s with CP := some ⟨b, (rangeKeys k).map (mix (i + 1) f 0)⟩ } := by
  have := setCP_rep (rangeKeys_nodup k) (natCast_mem_rangeKeys hi) h (hx.trans (mix_self i f 0).symm)
    fun a _ ha => mix_ne ha
  rwa [idx_range hi] at this

theorem set_mix {α : Type} {k i : ℕ} {f : ℤ → α} {x z : α} (hi : i < k) (hx : x = f i) :
    ((rangeKeys k).map (mix i f z)).set i x = (rangeKeys k).map (mix (i + 1) f z) := by
  have := map_set (rangeKeys_nodup k) (c := (i : ℤ)) (mix i f z) (mix (i + 1) f z) x (hx.trans (mix_self i f z).symm)
    fun a _ ha => mix_ne ha
  rwa [idx_range hi] at this

/-! ## Selecting the rows of a cluster -/

theorem uniqueSize_eq (S : Stream d) : uniqueSize (S.map Prod.snd) = numClusters S := by
  rw [uniqueSize, numClusters, labels, List.card_toFinset]

theorem subsetIndices_append (l : List ℤ) (c : ℤ) (ix : ℕ) :
    subsetIndices (l ++ [c]) ix = subsetIndices l ix ++ if c = ix then [l.length] else [] := by
  simp only [subsetIndices, List.length_append, List.length_cons, List.length_nil, Nat.zero_add, List.range_succ,
    List.filter_append]
  congr 1
  · apply List.filter_congr
    intro x hx
    rw [List.getElem?_append_left (List.mem_range.mp hx)]
  · by_cases h : c = ix <;> simp [h]

theorem mapE_append {α β : Type} (f : α → Except PyErr β) (l m : List α) :
    mapE f (l ++ m) = (do let a ← mapE f l; let b ← mapE f m; pure (a ++ b)) := by
  induction l with
  | nil =>
    simp only [List.nil_append, mapE, except_bind_ok]
    cases mapE f m <;> rfl
  | cons a l ih =>
    simp only [List.cons_append, mapE, ih]
    cases f a with
    | error e => rfl
    | ok x =>
      cases mapE f l with
      | error e => rfl
      | ok y => cases mapE f m <;> rfl

/-- `data[subset_indices, :]` are the samples of the cluster; further rows of `data` do not matter. -/
theorem take_subset (S : Stream d) (E : List (Pt d)) (ix : ℕ) :
    (encRows (S.map Prod.fst ++ E)).take (subsetIndices (S.map Prod.snd) ix) = .ok (encRows (cluster S (ix : ℤ))) := by
  induction S using List.reverseRecOn generalizing E with
  | nil => rfl
  | append_singleton S p ih =>
    obtain ⟨x, c⟩ := p
    have ih := ih ([x] ++ E)
    simp only [Arr2.take, encRows_cols] at ih ⊢
    simp only [List.map_append, List.map_cons, List.map_nil, List.append_assoc] at ih ⊢
    rw [subsetIndices_append, mapE_append]
    cases h : mapE (fun i => (encRows (S.map Prod.fst ++ ([x] ++ E))).row i) (subsetIndices (S.map Prod.snd) ix) with
    | error e => rw [h] at ih; simp at ih
    | ok r =>
      rw [h] at ih
      simp only [except_bind_ok, except_pure, Except.ok.injEq] at ih ⊢
      have hr : r = (cluster S (ix : ℤ)).map enc := by
        have := congrArg Arr2.rows ih
        simpa using this
      by_cases hc : c = ix
      · subst hc
        have : (encRows (S.map Prod.fst ++ ([x] ++ E))).row S.length = .ok (enc x) := by
          simp [Arr2.row]
        rw [if_pos rfl, List.length_map]
        simp only [mapE, this, except_bind_ok, except_pure, cluster_append_self, hr]
        simp only [encRows, List.map_append, List.map_cons, List.map_nil]
      · rw [if_neg hc]
        simp only [mapE, except_bind_ok, List.append_nil, hr, cluster_append_ne S x (Ne.symm hc)]
        rfl

theorem take_subset' (S : Stream d) (ix : ℕ) :
    (encRows (S.map Prod.fst)).take (subsetIndices (S.map Prod.snd) ix) = .ok (encRows (cluster S (ix : ℤ))) := by
  simpa using take_subset S [] ix

/-! ## Entries of the batch tables -/

/-- `np.mean(subset, axis=0)` -/
noncomputable def vRow (S : Stream d) (c : ℤ) : Vec := (encRows (cluster S c)).mean0

theorem vRow_length (S : Stream d) (c : ℤ) : (vRow S c).length = d := by simp [vRow, Arr2.mean0]

theorem vRow_of_mem {S : Stream d} {c : ℤ} (h : c ∈ labels S) : vRow S c = enc (centroid S c) :=
  mean0_encRows _ (cluster_ne_nil.mpr h)

theorem vRow_of_notMem {S : Stream d} {c : ℤ} (h : c ∉ labels S) : vRow S c = List.replicate d .nan := by
  rw [vRow, cluster_eq_nil h, mean0_nil]

theorem batchScatter_eq (S : Stream d) (c : ℤ) : batchScatter (encRows (cluster S c)) (vRow S c) = .ok (.fin (scatter S c)) := by
  by_cases h : c ∈ labels S
  · rw [vRow_of_mem h, batchScatter, encRows_rows, mapE_map, mapE_ok (g := fun p => .fin (dist2 p (centroid S c)))]
    · rw [except_bind_ok, except_pure, XR.sum_fin]; rfl
    · intro p _; exact sqDist_enc _ _
  · rw [batchScatter, cluster_eq_nil h, scatter, cluster_eq_nil h]
    rfl

theorem size_eq (S : Stream d) (c : ℤ) : (encRows (cluster S c)).rows.length = size S c := by simp [size]

theorem mean0_all {S : Stream d} (h : S ≠ []) : (encRows (S.map Prod.fst)).mean0 = enc (mean S) :=
  mean0_encRows _ (by simpa using h)

theorem KeysOf.vRow {S : Stream d} {ks : List ℤ} (h : KeysOf ks S) :
    ks.map (vRow S) = ks.map fun c => enc (centroid S c) :=
  List.map_congr_left fun c hc => vRow_of_mem ((h.mem c).mp hc)

/-! ## The loop over `_n`, `_v` and `_CP` -/

/-- The tables `_n` and `_v` with the first `i` clusters filled. -/
noncomputable def stageNV (b : Bool) (k : ℕ) (S : Stream d) (i : ℕ) (s : Core) : Core :=
  { s with
    n := ⟨b, (rangeKeys k).map (mix i (size S) 0)⟩
    v := ⟨d, (rangeKeys k).map (mix i (vRow S) (Vec.zeros d))⟩ }

/-- The tables `_n`, `_v` and `_CP` with the first `i` clusters filled. -/
noncomputable def stage (b : Bool) (k : ℕ) (S : Stream d) (i : ℕ) (s : Core) : Core :=
  { stageNV b k S i s with CP := some ⟨b, (rangeKeys k).map (mix i (fun c => XR.fin (scatter S c)) 0)⟩ }

theorem stageNV_step {β : Type} {b : Bool} {k i : ℕ} {S : Stream d} {s : Core} (hi : i < k) {f : Unit → Py Core β}
    {r : Res Core β} (h : f () (stageNV b k S (i + 1) s) = r) :
    (setN i (encRows (cluster S (i : ℤ))).rows.length >>= fun _ => setV i (encRows (cluster S (i : ℤ))).mean0 >>= f)
      (stageNV b k S i s) = r := by
  refine bind_ok_of (setN_mix hi rfl (size_eq S i)) ?_
  refine bind_ok_of (setV_mix (d := d) hi (f := vRow S) rfl rfl (vRow_length S i)) ?_
  exact h

theorem stage_step {β : Type} {b : Bool} {k i : ℕ} {S : Stream d} {s : Core} (hi : i < k) {f : Unit → Py Core β}
    {r : Res Core β} (h : f () (stage b k S (i + 1) s) = r) :
    (setN i (encRows (cluster S (i : ℤ))).rows.length >>= fun _ => setV i (encRows (cluster S (i : ℤ))).mean0 >>= fun _ =>
      lift (batchScatter (encRows (cluster S (i : ℤ))) (encRows (cluster S (i : ℤ))).mean0) >>= fun cp => setCP i cp >>= f)
      (stage b k S i s) = r := by
  refine bind_ok_of (setN_mix hi rfl (size_eq S i)) ?_
  refine bind_ok_of (setV_mix (d := d) hi (f := vRow S) rfl rfl (vRow_length S i)) ?_
  refine lift_bind (batchScatter_eq S i) ?_
  refine bind_ok_of (setCP_mix (f := fun c => XR.fin (scatter S c)) hi rfl rfl) ?_
  exact h

theorem zeros_rows (k d : ℕ) : (Arr2.zeros k d : Arr2) = ⟨d, List.replicate k (Vec.zeros d)⟩ := rfl

/-- The final tables when the labels are exactly `0 .. k-1`. -/
theorem stage_nv {b : Bool} {k : ℕ} {S : Stream d} {s : Core} (h : KeysOf (rangeKeys k) S) (hd : s.dim = d)
    (hk : s.nClusters = k) : RepNV b (rangeKeys k) S (stage b k S k s) := by
  refine ⟨hd, by simpa [stage, stageNV] using hk, ?_, ?_⟩
  · simp only [stage, stageNV, mix_full]
  · simp only [stage, stageNV, mix_full, h.vRow]

theorem stageNV_nv {b : Bool} {k : ℕ} {S : Stream d} {s : Core} (h : KeysOf (rangeKeys k) S) (hd : s.dim = d)
    (hk : s.nClusters = k) : RepNV b (rangeKeys k) S (stageNV b k S k s) := by
  refine ⟨hd, by simpa [stageNV] using hk, ?_, ?_⟩
  · simp only [stageNV, mix_full]
  · simp only [stageNV, mix_full, h.vRow]

theorem stage_cp {b : Bool} {k : ℕ} {S : Stream d} {s : Core} : RepCP b (rangeKeys k) S (stage b k S k s) := by
  simp only [RepCP, stage, mix_full]

/-! ## The call -/

/-- The labels of the batch are exactly `0 .. k-1`. -/
theorem keysOf_range {S : Stream d} (h : ∀ c, c ∈ labels S ↔ 0 ≤ c ∧ c < numClusters S) :
    KeysOf (rangeKeys (numClusters S)) S :=
  ⟨rangeKeys_nodup _, fun c => by rw [mem_rangeKeys, h]⟩

/-- `get_cvi` in batch mode on an object that is not set up. -/
theorem batch_call {M : Module} {data : Arr2} {S : Stream d} {o : Obj} {s1 s2 : Core} (hM : M.abstract = false)
    (ho : o.core.isSetup = false) (hk : 1 < numClusters S)
    (h1 : M.paramBatch data (S.map Prod.snd) o.core = .ok () s1) (h2 : M.evaluate s1 = .ok () s2) :
    getCvi M (.d2 data) (.arr (S.map Prod.snd)) o = .ok s2.criterion { o with core := s2 } := by
  have hu : ((S.map Prod.snd).dedup).length > 1 := by
    have := uniqueSize_eq S
    rw [uniqueSize] at this
    omega
  simp [getCvi, Module.update, ho, hM, LabelArg.numUnique, LabelArg.toList, hu, onCore, h1, h2, Res.mapState]

theorem nonempty_of_clusters {S : Stream d} (h : 1 < numClusters S) : S ≠ [] := by
  rintro rfl; simp [numClusters, labels] at h

end Verif
