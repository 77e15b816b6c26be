import Verif.Compat.SILExact

/-! # C93: the values of the older interface's `iSIL` -/

namespace Verif
open Spec V0 CSIL

variable {d : ℕ}

/-- C93: with cluster numbers introduced in order and no array presented again after it was the first of its cluster, and with all exceptions
caught, `update` returns the value described by `silOutput` if there are then at least two clusters, and raises ValueError otherwise. -/
theorem C93 (pts : ℕ → Pt d) {T : List (ℕ × ℤ)} {b : ℕ} {c : ℤ} (hT : InOrder (samples pts (T ++ [(b, c)]))) (hF : FirstsOnce (T ++ [(b, c)])) :
    ∃ s, V0.SIL.update b c (SIL.afterAll T (V0.SIL.init fun a => enc (pts a)))
      = if 2 ≤ numClusters (samples pts (T ++ [(b, c)])) then .ok (silOutput (samples pts (T ++ [(b, c)])) c) s else .err .valueError s := by
  have hT' := hT
  rw [samples_append] at hT'
  obtain ⟨s, h, -⟩ := SIL.step_eq hT hF (SIL.run_at hT'.prefix hF.prefix)
  exact ⟨s, h⟩

/-- C93, the arrays: the first array of every cluster ends up holding the sum of the samples of that cluster, with the first counted twice; no other
array is changed. -/
theorem C93_arrays (pts : ℕ → Pt d) {T : List (ℕ × ℤ)} (hT : InOrder (samples pts T)) (hF : FirstsOnce T) :
    (∀ c ∈ T.map Prod.snd, (SIL.afterAll T (V0.SIL.init fun a => enc (pts a))).heap (firstArray T c)
        = enc fun i => pts (firstArray T c) i + vecSum (samples pts T) c i)
    ∧ ∀ b, (∀ c ∈ T.map Prod.snd, firstArray T c ≠ b) → (SIL.afterAll T (V0.SIL.init fun a => enc (pts a))).heap b = enc (pts b) := by
  have h := SIL.run_at hT hF
  refine ⟨fun c hc => ?_, h.other⟩
  obtain ⟨h0, h1⟩ := (hT.consecutive c).mp (mem_labels_samples.mpr hc)
  rw [h.tab.heap c h0 h1]
  exact enc_congr fun i => vecSum_doubled hc i

/-- C93, the range: the value is NaN exactly if some coefficient is undefined, and otherwise a number between -1 and 1. -/
theorem C93_range {S : Stream d} {c : ℤ} (hc : lastLabel S = some c) (hk : 2 ≤ numClusters S) :
    (silOutput S c = .nan ↔ ∃ i ∈ labels S, Undefined S c i) ∧ (silOutput S c ≠ .nan → ∃ r, |r| ≤ 1 ∧ silOutput S c = .fin r) := by
  rcases silOutput_cases hc hk with ⟨h1, h2⟩ | ⟨h1, r, h2, h3⟩
  · exact ⟨⟨fun _ => h1, fun _ => h2⟩, fun h => absurd h2 h⟩
  · exact ⟨⟨fun h => absurd (h3 ▸ h) (XR.fin_ne_nan r), fun h => absurd h h1⟩, fun _ => ⟨r, h2, h3⟩⟩

/-- C93, new clusters: the call that opens a second or later cluster always returns NaN. -/
theorem C93_opening {S : Stream d} (x : Pt d) {c : ℤ} (hc : c ∉ labels S) (hS : S ≠ []) : silOutput (S ++ [(x, c)]) c = .nan := by
  obtain ⟨p, l, rfl⟩ := List.exists_cons_of_ne_nil hS
  set S := p :: l
  have hp : p.2 ∈ labels S := by simp [S, labels]
  have hk : 2 ≤ numClusters (S ++ [(x, c)]) := by
    rw [numClusters_new hc]
    have : 0 < numClusters S := Finset.card_pos.mpr ⟨_, hp⟩
    omega
  refine (C93_range (lastLabel_append S x c) hk).1.mpr ⟨p.2, by rw [labels_append]; exact Finset.mem_insert_of_mem hp, .inl fun j _ hj => ?_⟩
  exact silEntry_new S x (fun e => hc (e ▸ hp)) hj hc

/-- C93, two clusters: the coefficient of the cluster of the last sample is computed as defined, but that of the other cluster with the
opposite sign. -/
theorem C93_two {S : Stream d} {c o : ℤ} (hS : labels S = {c, o}) (hco : o ≠ c) {a b a' b' : ℝ} (h1 : silEntry S c c = .fin a)
    (h2 : silEntry S c o = .fin b) (h3 : silEntry S o o = .fin a') (h4 : silEntry S o c = .fin b') :
    silOutput S c = .fin (1 / 2) * (.fin (b - a) / .fin (max a b) + .fin (-(b' - a')) / .fin (max a' b')) := by
  have ho : ∀ i, silOthers S c i = {silEntry S i o} := by
    intro i
    ext r
    simp only [silOthers, hS, Set.mem_ofPred_eq, Finset.mem_insert, Finset.mem_singleton, Set.mem_singleton_iff]
    constructor
    · rintro ⟨j, rfl | rfl, hj, rfl⟩
      · exact absurd rfl hj
      · rfl
    · rintro rfl
      exact ⟨o, .inr rfl, hco, rfl⟩
  have hl : ∀ y : ℝ, least {XR.fin y} = .fin y := fun y =>
    least_eq (.inl ⟨y, rfl⟩) rfl fun r hr => by rw [Set.mem_singleton_iff.mp hr]; exact Le.refl (.inl ⟨y, rfl⟩)
  have hg : ∀ x y : ℝ, greatest ({XR.fin x} ∪ {XR.fin y}) = .fin (max x y) := by
    intro x y
    refine greatest_eq (.inl ⟨_, rfl⟩) ?_ ?_
    · rcases max_choice x y with h | h <;> rw [h]
      · exact .inl rfl
      · exact .inr rfl
    · rintro r (hr | hr) <;> rw [Set.mem_singleton_iff.mp hr]
      · exact .inr ⟨_, _, rfl, rfl, le_max_left _ _⟩
      · exact .inr ⟨_, _, rfl, rfl, le_max_right _ _⟩
  have hn : numClusters S = 2 := by rw [numClusters, hS, Finset.card_pair hco.symm]
  rw [silOutput, hn, hS, Finset.sum_pair hco.symm, silCoef, silCoef, ho, ho, h1, h2, h3, h4, hl, hl, hg, hg, XR.fin_sub, XR.fin_sub, neg_sub,
    max_comm b' a']
  norm_num

/-! ## An example -/

/-- Three arrays holding 0, 2 and 0. -/
def silPts (b : ℕ) : Pt 1 := fun _ => if b = 1 then 2 else 0

/-- The first and the third in cluster 0, the second in cluster 1. -/
def silCalls : List (ℕ × ℤ) := [(0, 0), (1, 1)] ++ [(2, 0)]

theorem silCalls_ok : InOrder (samples silPts silCalls) ∧ FirstsOnce silCalls := by
  constructor
  · intro P p Q h
    match P, h with
    | [], h => simp [samples, silCalls] at h; simp [← h.1, numClusters, labels]
    | [a], h => simp [samples, silCalls] at h; simp [← h.2.1, ← h.1, numClusters, labels]
    | [a, b], h => simp [samples, silCalls] at h; simp [← h.2.2.1, ← h.1, ← h.2.1, numClusters, labels]
    | a :: b :: e :: P, h => simp [samples, silCalls] at h
  · intro P p Q h
    match P, h with
    | [], h => simp [silCalls] at h; simp [← h.1, ← h.2]
    | [a], h => simp [silCalls] at h; simp [← h.2.1, ← h.2.2]
    | [a, b], h => simp [silCalls] at h; simp [h.2.2.2]
    | a :: b :: e :: P, h => simp [silCalls] at h

theorem silCalls_labels : labels (samples silPts silCalls) = {0, 1} := by
  show ([0, 1, 0] : List ℤ).toFinset = _
  decide

/-- The third call returns 0 ... -/
theorem silCalls_value : silOutput (samples silPts silCalls) 0 = .fin 0 := by
  have e : samples silPts silCalls = [(silPts 0, 0), (silPts 1, 1)] ++ [(silPts 2, 0)] := rfl
  have d1 : doubled (samples silPts silCalls) = [(silPts 0, 0), (silPts 0, 0), (silPts 1, 1), (silPts 1, 1), (silPts 2, 0)] := by
    simp [samples, silCalls, doubled, doubledFrom]
  have d2 : doubled ([(silPts 0, 0)] ++ [(silPts 1, 1)] : Stream 1) = [(silPts 0, 0), (silPts 0, 0), (silPts 1, 1), (silPts 1, 1)] := by
    simp [doubled, doubledFrom]
  have h1 : silEntry (samples silPts silCalls) 0 0 = .fin 0 := by
    rw [e, silEntry_self _ _ (.inl rfl), ← e, silTerm, d1]
    simp [crossScatter, cluster, centroid, meanOf, dist2, silPts]
  have h2 : silEntry (samples silPts silCalls) 0 1 = .fin 4 := by
    rw [e, silEntry_self _ _ (.inl rfl), silTerm, lastLabel_append, ← e, d1]
    norm_num [crossScatter, cluster, centroid, meanOf, dist2, silPts, size]
  have h3 : silEntry (samples silPts silCalls) 1 1 = .fin 0 := by
    rw [e, silEntry_old _ _ (by decide) (by decide) (by simp [labels]),
      show ([(silPts 0, 0), (silPts 1, 1)] : Stream 1) = [(silPts 0, 0)] ++ [(silPts 1, 1)] from rfl,
      silEntry_self _ _ (.inl rfl), silTerm, d2]
    simp [crossScatter, cluster, centroid, meanOf, dist2, silPts]
  have h4 : silEntry (samples silPts silCalls) 1 0 = .fin (16 / 3) := by
    rw [e, silEntry_self _ _ (.inr rfl), silTerm, lastLabel_append, ← e, d1]
    norm_num [crossScatter, cluster, centroid, meanOf, dist2, silPts, size, dot]
  rw [C93_two silCalls_labels (by decide) h1 h2 h3 h4, XR.fin_div_of_ne _ (by norm_num), XR.fin_div_of_ne _ (by norm_num)]
  norm_num

/-- ... while the silhouette of the three samples is 1. -/
theorem silCalls_silhouette : Spec.cSIL (samples silPts silCalls) = .fin 1 := by
  have e : samples silPts silCalls = [(silPts 0, 0), (silPts 1, 1), (silPts 2, 0)] := rfl
  have hl := silCalls_labels
  have c00 : crossScatter (samples silPts silCalls) 0 0 = 0 := by
    rw [e]; norm_num [crossScatter, cluster, centroid, meanOf, dist2, silPts, size]
  have c01 : crossScatter (samples silPts silCalls) 0 1 = 4 := by
    rw [e]; norm_num [crossScatter, cluster, centroid, meanOf, dist2, silPts, size]
  have c10 : crossScatter (samples silPts silCalls) 1 0 = 4 := by
    rw [e]; norm_num [crossScatter, cluster, centroid, meanOf, dist2, silPts, size]
  have c11 : crossScatter (samples silPts silCalls) 1 1 = 0 := by
    rw [e]; norm_num [crossScatter, cluster, centroid, meanOf, dist2, silPts, size]
  have o0 : silOther (samples silPts silCalls) 0 = 4 := by
    rw [silOther, otherValues, hl]
    have : {r | ∃ b ∈ ({0, 1} : Finset ℤ), b ≠ 0 ∧ r = crossScatter (samples silPts silCalls) b 0} = {(4 : ℝ)} := by
      ext r; simp [c10]
    rw [this, csInf_singleton]
  have o1 : silOther (samples silPts silCalls) 1 = 4 := by
    rw [silOther, otherValues, hl]
    have : {r | ∃ b ∈ ({0, 1} : Finset ℤ), b ≠ 1 ∧ r = crossScatter (samples silPts silCalls) b 1} = {(4 : ℝ)} := by
      ext r; simp [c01]
    rw [this, csInf_singleton]
  have hn : numClusters (samples silPts silCalls) = 2 := by rw [numClusters, hl]; rfl
  rw [Spec.cSIL, if_neg (by rw [hn]; decide), if_neg, if_neg, hl, Finset.sum_pair (by decide), o0, o1, c00, c11, hn]
  · norm_num
  · rintro ⟨c, hc, -, h⟩
    rw [hl, Finset.mem_insert, Finset.mem_singleton] at hc
    rcases hc with rfl | rfl
    · rw [o0] at h; norm_num at h
    · rw [o1] at h; norm_num at h
  · intro h
    have := h 0 (by simp [hl]) 1 (by simp [hl])
    rw [c01] at this
    norm_num at this

/-- `iSIL` does not return the silhouette of the samples seen: here 0 instead of 1. -/
theorem C93_not_silhouette : ∃ s, V0.SIL.update 2 0 (SIL.afterAll [(0, 0), (1, 1)] (V0.SIL.init fun a => enc (silPts a))) = .ok (.fin 0) s
    ∧ Spec.cSIL (samples silPts silCalls) = .fin 1 := by
  obtain ⟨s, h⟩ := C93 silPts silCalls_ok.1 silCalls_ok.2
  have hn : numClusters (samples silPts silCalls) = 2 := by rw [numClusters, silCalls_labels]; rfl
  rw [show [(0, 0), (1, 1)] ++ [(2, 0)] = silCalls from rfl, if_pos hn.ge, silCalls_value] at h
  exact ⟨s, h, silCalls_silhouette⟩

/-- Its first array holds 0 + 0 + 0 and its second 2 + 2 afterwards. -/
example : (SIL.afterAll silCalls (V0.SIL.init fun a => enc (silPts a))).heap 1 = enc fun _ : Fin 1 => (4 : ℝ) := by
  have := (C93_arrays silPts silCalls_ok.1 silCalls_ok.2).1 1 (by simp [silCalls])
  rw [show firstArray silCalls 1 = 1 from rfl] at this
  rw [this]
  exact enc_congr fun i => by norm_num [vecSum, cluster, samples, silCalls, silPts]

/-- The value is NaN after the second call, which opens cluster 1. -/
example : silOutput ([(silPts 0, 0)] ++ [(silPts 1, 1)] : Stream 1) 1 = .nan := C93_opening _ (by simp [labels]) (by simp)

end Verif
