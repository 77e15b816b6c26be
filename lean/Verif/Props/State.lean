import Verif.Proofs.Degenerate
import Verif.Props.Demo

/-!
# C34, C35: the bookkeeping of the objects

What an object records for a label is read through its own label map: the internal number of the label, then the entry of the
table at that number.
-/

namespace Verif
open Spec

variable {d : ℕ}

/-- Sum of the squared norms of the samples of a cluster. -/
noncomputable def sumSqNorm (S : Stream d) (c : ℤ) : ℝ := ((cluster S c).map fun p => ∑ i, p i ^ 2).sum

theorem entry_table {α : Type} {o : Obj} {S : Stream d} (h : o.labelMap = mapOf (keys S)) (f : ℤ → α) (c : ℤ) :
    o.entry ((keys S).map f) c = if c ∈ labels S then some (f c) else none := by
  rw [Obj.entry, h, lookup_mapOf]
  by_cases hc : c ∈ keys S
  · rw [if_pos hc, if_pos (mem_keys.1 hc)]
    exact getElem?_map_idxOf hc f
  · rw [if_neg hc, if_neg fun h => hc (mem_keys.2 h)]
    rfl

theorem rep_nv {I : Index} {S : Stream d} {s : Core} (h : I.Rep S s) : RepNV false (keys S) S s ∧ s.nSamples = S.length := by
  cases I
  · exact ⟨(CH.Rep.toRepMu h).nv, (CH.Rep.toRepMu h).nSamples⟩
  · exact ⟨(WB.Rep.toRepMu h).nv, (WB.Rep.toRepMu h).nSamples⟩
  · exact ⟨(XB.Rep.toRepMu h).nv, (XB.Rep.toRepMu h).nSamples⟩
  · exact ⟨(DB.Rep.toRepMu h).nv, (DB.Rep.toRepMu h).nSamples⟩
  · exact ⟨(GD43.Rep.toRepMu h).nv, (GD43.Rep.toRepMu h).nSamples⟩
  · exact ⟨(GD53.Rep.toRepMu h).nv, (GD53.Rep.toRepMu h).nSamples⟩
  · exact ⟨PS.Rep.nv h, PS.Rep.nSamples h⟩
  · exact ⟨RCIP.Rep.nv h, RCIP.Rep.nSamples h⟩
  · exact ⟨(CSIL.Rep.tables h).nv, CSIL.Rep.nSamples h⟩

/-- The tables of an object fed `S`. -/
theorem objAfter_tables {I : Index} (hd : DimOk I d) (S : Stream d) :
    (objAfter I S).labelMap = mapOf (keys S) ∧ (objAfter I S).core.nClusters = (keys S).length ∧
    (objAfter I S).core.nSamples = S.length ∧ (objAfter I S).core.n.items = (keys S).map (size S) ∧
    (objAfter I S).core.v.rows = (keys S).map fun c => enc (Spec.centroid S c) := by
  rcases objAfter_inv hd S with ⟨rfl, h⟩ | ⟨_, hm, hr⟩
  · rw [h]
    cases I <;> exact ⟨rfl, rfl, rfl, rfl, rfl⟩
  · obtain ⟨nv, hn⟩ := rep_nv hr
    exact ⟨hm, nv.k, hn, by rw [nv.n], by rw [nv.v]⟩

/-- **C34**: after any stream, the number of clusters is the number of distinct labels, the number of samples is the length of the
stream, there is one count and one centroid per cluster and the counts sum to the number of samples; the count recorded for a label
is its multiplicity and the centroid recorded for it is the mean of its samples; other labels have no record. -/
theorem C34_bookkeeping (I : Index) (hd : DimOk I d) (S : Stream d) :
    (objAfter I S).core.nClusters = numClusters S ∧
    (objAfter I S).core.nSamples = S.length ∧
    (objAfter I S).core.n.items.length = numClusters S ∧
    (objAfter I S).core.v.rows.length = numClusters S ∧
    (objAfter I S).core.n.items.sum = S.length ∧
    (∀ c ∈ labels S, (objAfter I S).count c = some ((S.map Prod.snd).count c) ∧
      (objAfter I S).centroid c = some (enc (meanOf ((S.filter fun p => p.2 = c).map Prod.fst)))) ∧
    ∀ c ∉ labels S, (objAfter I S).count c = none ∧ (objAfter I S).centroid c = none := by
  obtain ⟨hm, hk, hn, hs, hv⟩ := objAfter_tables hd S
  have hc : ∀ c, size S c = (S.map Prod.snd).count c := by
    intro c
    rw [size, cluster, List.length_map, List.count_eq_countP, List.countP_map, List.countP_eq_length_filter]
    rfl
  refine ⟨hk.trans (keysOf_keys S).length, hn, ?_, ?_, ?_, ?_, ?_⟩
  · rw [hs, List.length_map, (keysOf_keys S).length]
  · rw [hv, List.length_map, (keysOf_keys S).length]
  · have h1 := (keysOf_keys S).sum fun c => (size S c : ℝ)
    rw [← length_by_label] at h1
    rw [hs]
    have h2 : (((keys S).map (size S)).sum : ℝ) = ((keys S).map fun c => (size S c : ℝ)).sum := by
      rw [Nat.cast_list_sum, List.map_map]; rfl
    exact_mod_cast h2.trans h1
  · intro c hcl
    refine ⟨?_, ?_⟩
    · rw [Obj.count, hs, entry_table hm, if_pos hcl, hc]
    · rw [Obj.centroid, hv, entry_table hm, if_pos hcl]; rfl
  · intro c hcl
    exact ⟨by rw [Obj.count, hs, entry_table hm, if_neg hcl], by rw [Obj.centroid, hv, entry_table hm, if_neg hcl]⟩

example : (objAfter .cSIL demo).count 0 = some 2 ∧ (objAfter .cSIL demo).centroid 1 = some [.fin 5] ∧
    (objAfter .cSIL demo).count 3 = none := by
  obtain ⟨_, _, _, _, _, h, h'⟩ := C34_bookkeeping .cSIL (by simp [DimOk]) demo
  refine ⟨?_, ?_, (h' 3 (by simp [demo_labels])).1⟩
  · rw [(h 0 (by simp [demo_labels])).1]; rfl
  · rw [(h 1 (by simp [demo_labels])).2]
    have : meanOf ((demo.filter fun p => p.2 = 1).map Prod.fst) = ![5] := demo_centroid1
    rw [this]; simp [enc]

/-- The compactness recorded for each label: the scatter of its samples (cSIL: the sum of their squared norms). -/
theorem objAfter_compactness {I : Index} (h1 : I ≠ .PS) (h2 : I ≠ .rCIP) (S : Stream d) (c : ℤ) :
    (objAfter I S).compactness c =
      if c ∈ labels S then some (.fin (if I = .cSIL then sumSqNorm S c else scatter S c)) else none := by
  have hd : DimOk I d := fun h => absurd h h2
  have hm := (objAfter_tables hd S).1
  have key : ∀ f : ℤ → XR, (∃ b, (objAfter I S).core.CP = some ⟨b, (keys S).map f⟩) →
      (objAfter I S).compactness c = if c ∈ labels S then some (f c) else none := by
    rintro f ⟨b, hf⟩
    rw [Obj.compactness, hf]
    exact entry_table hm f c
  rcases objAfter_inv hd S with ⟨rfl, h⟩ | ⟨_, _, hr⟩
  · refine key (fun c => .fin (if I = .cSIL then sumSqNorm [] c else scatter [] c)) ⟨false, ?_⟩
    rw [h]
    cases I <;> first | rfl | exact absurd rfl h1 | exact absurd rfl h2
  · refine key (fun c => .fin (if I = .cSIL then sumSqNorm S c else scatter S c)) ⟨false, ?_⟩
    cases I
    · exact (CH.Rep.toRepMu hr).cp
    · exact (WB.Rep.toRepMu hr).cp
    · exact (XB.Rep.toRepMu hr).cp
    · exact (DB.Rep.toRepMu hr).cp
    · exact (GD43.Rep.toRepMu hr).cp
    · exact (GD53.Rep.toRepMu hr).cp
    · exact absurd rfl h1
    · exact absurd rfl h2
    · refine (CSIL.Rep.tables hr).cp.trans ?_
      simp [sumSqNorm, CSIL.sqSum, CSIL.dot, pow_two]

theorem objAfter_page (hd : 0 < d) (S : Stream d) (c : ℤ) :
    (objAfter .rCIP S).page c = if c ∈ labels S then some (Arr2.ofMatrix (regCov S c)) else none := by
  have hm := (objAfter_tables (I := .rCIP) (fun _ => hd) S).1
  have key : (objAfter .rCIP S).core.sigma = (keys S).map fun c => Arr2.ofMatrix (regCov S c) := by
    rcases objAfter_inv (I := .rCIP) (fun _ => hd) S with ⟨rfl, h⟩ | ⟨_, _, hr⟩
    · rw [h]; rfl
    · exact RCIP.Rep.sigma hr
  rw [Obj.page, key, entry_table hm]

/-- **C35**: one more sample, with label `c`, changes neither the count nor the centroid nor the compactness nor (rCIP) the
covariance recorded for any other label `b`. -/
theorem C35_frame (I : Index) (hd : DimOk I d) (S : Stream d) (x : Pt d) (c b : ℤ) (hb : b ≠ c) :
    (objAfter I (S ++ [(x, c)])).count b = (objAfter I S).count b ∧
    (objAfter I (S ++ [(x, c)])).centroid b = (objAfter I S).centroid b ∧
    (I ≠ .PS → I ≠ .rCIP → (objAfter I (S ++ [(x, c)])).compactness b = (objAfter I S).compactness b) ∧
    (I = .rCIP → (objAfter I (S ++ [(x, c)])).page b = (objAfter I S).page b) := by
  obtain ⟨hm, _, _, hs, hv⟩ := objAfter_tables hd S
  obtain ⟨hm', _, _, hs', hv'⟩ := objAfter_tables hd (S ++ [(x, c)])
  have hl : b ∈ labels (S ++ [(x, c)]) ↔ b ∈ labels S := by simp [labels_append, hb]
  refine ⟨?_, ?_, ?_, ?_⟩
  · rw [Obj.count, Obj.count, hs, hs', entry_table hm, entry_table hm', size_append_ne S x hb]
    simp only [hl]
  · rw [Obj.centroid, Obj.centroid, hv, hv', entry_table hm, entry_table hm', centroid_append_ne S x hb]
    simp only [hl]
  · intro h1 h2
    rw [objAfter_compactness h1 h2, objAfter_compactness h1 h2, scatter_append_ne S x hb, sumSqNorm, sumSqNorm,
      cluster_append_ne S x hb]
    simp only [hl]
  · rintro rfl
    rw [objAfter_page (hd rfl), objAfter_page (hd rfl), regCov_append_ne S x hb]
    simp only [hl]

/-- A further sample of label 1 leaves the record of label 0, which is not empty, alone. -/
example : (objAfter .DB (demo ++ [(![9], 1)])).compactness 0 = some (.fin 2) := by
  rw [(C35_frame .DB (by simp [DimOk]) demo ![9] 1 0 (by decide)).2.2.1 (by simp) (by simp),
    objAfter_compactness (by simp) (by simp), if_pos (by simp [demo_labels]), if_neg (by simp), demo_scatter0]

end Verif
