import Verif.Proofs.BatchModules

/-! # The batch update of cSIL -/

namespace Verif.CSIL
open Spec Py Verif

variable {d : ℕ}

theorem except_bind_of {α β : Type} {x : Except PyErr α} {a : α} {f : α → Except PyErr β} {r : Except PyErr β}
    (h : x = .ok a) (h' : f a = r) : (x >>= f) = r := by subst h; exact h'

/-- Indexing a row of distances with the indices of a cluster. -/
theorem pick_subset (f : Pt d → XR) (S : Stream d) (E : List XR) (ix : ℕ) :
    mapE (fun t => match ((S.map fun p => f p.1) ++ E)[t]? with
      | some x => .ok x
      | none => .error PyErr.indexError) (subsetIndices (S.map Prod.snd) ix) = .ok ((cluster S (ix : ℤ)).map f) := by
  induction S using List.reverseRecOn generalizing E with
  | nil => rfl
  | append_singleton S p ih =>
    obtain ⟨x, c⟩ := p
    have ih := ih ([f x] ++ E)
    simp only [List.map_append, List.map_cons, List.map_nil, List.append_assoc] at ih ⊢
    rw [subsetIndices_append, mapE_append, ih, except_bind_ok]
    by_cases hc : c = ix
    · subst hc
      rw [if_pos rfl, List.length_map]
      simp only [mapE, cluster_append_self, List.map_append, List.map_cons, List.map_nil]
      have : ((S.map fun p => f p.1) ++ ([f x] ++ E))[S.length]? = some (f x) := by
        rw [List.getElem?_append_right (by simp)]; simp
      rw [this]
      rfl
    · rw [if_neg hc, cluster_append_ne S x (Ne.symm hc)]
      simp only [mapE, except_bind_ok, except_pure, List.append_nil]

/-- Entry `a, b` of the batch matrix. -/
noncomputable def crossX (S : Stream d) (a b : ℤ) : XR :=
  ((cluster S a).map fun p => sqDistX (enc p) (vRow S b)).sum / .fin (size S a : ℝ)

theorem crossX_of_mem {S : Stream d} {a b : ℤ} (ha : a ∈ labels S) (hb : b ∈ labels S) :
    crossX S a b = .fin (crossScatter S a b) := by
  simp only [crossX, vRow_of_mem hb, sqDistX_enc]
  rw [XR.sum_fin, XR.fin_div_of_ne _ (size_pos_real ha).ne', crossScatter]

theorem batchStep_eq {S : Stream d} {E : List (Pt d)} {k i : ℕ} {s : Core} (hi : i < k) (hk : k ≤ S.length) :
    batchStep (encRows (S.map Prod.fst ++ E)) (S.map Prod.snd) i (stage true k S i s) =
      .ok () (stage true k S (i + 1) s) := by
  rw [batchStep]
  refine lift_bind (take_subset S E i) (stage_step hi ?_)
  rw [if_pos (by simp; omega), pure_apply]

/-- The object before the matrix is assigned. -/
noncomputable def batched0 (S : Stream d) (E : List (Pt d)) (s : Core) : Core :=
  stage true (numClusters S) S (numClusters S) { s with
    nSamples := S.length + E.length
    dim := d
    isSetup := true
    nClusters := numClusters S
    Sm := Arr2.zeros (numClusters S) (numClusters S) }

theorem batchEntry_eq {S : Stream d} {E : List (Pt d)} {s : Core} {i j : ℕ} (hi : i < numClusters S)
    (hj : j < numClusters S) :
    batchEntry (encRows (S.map Prod.fst ++ E)) (S.map Prod.snd) (batched0 S E s) j i = .ok (crossX S j i) := by
  have hv : (batched0 S E s).v = ⟨d, (rangeKeys (numClusters S)).map (mix (numClusters S) (vRow S) (Vec.zeros d))⟩ := rfl
  have hn : (batched0 S E s).n = ⟨true, (rangeKeys (numClusters S)).map (size S)⟩ := by
    simp only [batched0, stage, stageNV, mix_full]
  have hg : Seq.get ⟨true, (rangeKeys (numClusters S)).map (size S)⟩ j = .ok (size S j) := by
    have := get_rep (b := true) (f := size S) (natCast_mem_rangeKeys hj)
    rwa [idx_range hj] at this
  have hd : distRow (encRows (S.map Prod.fst ++ E)) (batched0 S E s) i =
      .ok ((S.map fun p => sqDistX (enc p.1) (vRow S i)) ++ E.map fun p => sqDistX (enc p) (vRow S i)) := by
    rw [distRow, hv, row_stage hi, except_bind_ok, encRows_rows, mapE_map,
      mapE_ok (g := fun p => sqDistX (enc p) (vRow S i))]
    · rw [List.map_append, List.map_map]; rfl
    · intro p _
      exact sqDist_eq (by simp [vRow_length])
  rw [batchEntry, hd, except_bind_ok]
  refine except_bind_of (pick_subset (fun p => sqDistX (enc p) (vRow S i)) S _ j) ?_
  rw [hn, hg, except_bind_ok, except_pure, crossX]

theorem paramBatch_eq (S : Stream d) (E : List (Pt d)) (s : Core) :
    paramBatch (encRows (S.map Prod.fst ++ E)) (S.map Prod.snd) s = .ok () { batched0 S E s with
      Sm := sqMat (rangeKeys (numClusters S)) (crossX S) } := by
  rw [paramBatch, Base.setupBatch]
  refine modify_bind (modify_bind ?_)
  simp only [uniqueSize_eq, encRows_cols]
  have := forEach_range (k := numClusters S) (body := batchStep (encRows (S.map Prod.fst ++ E)) (S.map Prod.snd))
    (fun i => stage true (numClusters S) S i { s with
      nSamples := S.length + E.length
      dim := d
      isSetup := true
      nClusters := numClusters S
      Sm := Arr2.zeros (numClusters S) (numClusters S) })
    fun i hi => batchStep_eq hi (numClusters_le S)
  refine bind_ok_of (a := ()) (s1 := batched0 S E s) ?_ (get_bind (lift_bind
    (a := (rangeKeys (numClusters S)).map fun a => (rangeKeys (numClusters S)).map (crossX S a)) ?_ ?_))
  · refine Eq.trans ?_ this
    congr 1
    simp [stage, stageNV, ← mix_zero, Vec.zeros, zeros_rows]
  · rw [mapE_ok (g := fun j : ℕ => (rangeKeys (numClusters S)).map (crossX S j))]
    · rw [rangeKeys, List.map_map]; rfl
    · intro j hj
      rw [mapE_ok (g := fun i : ℕ => crossX S j i)]
      · rw [rangeKeys, List.map_map]; rfl
      · intro i hi
        exact batchEntry_eq (List.mem_range.mp hi) (List.mem_range.mp hj)
  · rw [modify_apply, sqMat, rangeKeys_length]

/-- Batch cSIL with labels exactly `0 .. k-1` and any number of further rows. -/
theorem batch_extra {S : Stream d} (E : List (Pt d)) {o : Obj} (ho : o.core.isSetup = false) (hk : 1 < numClusters S)
    (h : ∀ c, c ∈ labels S ↔ 0 ≤ c ∧ c < numClusters S) :
    ∃ o', getCvi CSILmod (.d2 (encRows (S.map Prod.fst ++ E))) (.arr (S.map Prod.snd)) o = .ok (Spec.cSIL S) o' := by
  have hr := keysOf_range h
  have hp := paramBatch_eq S E o.core
  obtain ⟨cs, he⟩ := evaluate_rep (s := { batched0 S E o.core with
      Sm := sqMat (rangeKeys (numClusters S)) (crossX S) }) (E := crossScatter S) hr
    (by simp [batched0, stage, stageNV])
    (sqMat_congr fun a ha b hb => crossX_of_mem ((hr.mem a).mp ha) ((hr.mem b).mp hb))
  exact batch_value rfl ho hk hp he (silValue_crossScatter S)

/-- Batch cSIL with labels exactly `0 .. k-1`. -/
theorem batch {S : Stream d} {o : Obj} (ho : o.core.isSetup = false) (hk : 1 < numClusters S)
    (h : ∀ c, c ∈ labels S ↔ 0 ≤ c ∧ c < numClusters S) :
    ∃ o', getCvi CSILmod (.d2 (encRows (S.map Prod.fst))) (.arr (S.map Prod.snd)) o = .ok (Spec.cSIL S) o' := by
  simpa using batch_extra [] ho hk h

end Verif.CSIL
