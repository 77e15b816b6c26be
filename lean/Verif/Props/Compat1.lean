import Verif.Compat.XB
import Verif.Compat.Cluster
import Verif.Props.Demo

/-! # The older interface: CP_update, iPS, iXB, iCH (C41-C44) -/

namespace Verif
open Spec Py V0

variable {d : ℕ}

theorem demo_inOrder : InOrder demo := by
  have h1 : InOrder ([] ++ [((![0], 0) : Pt 1 × ℤ)]) := InOrder.nil.append (by simp) (by simp)
  have h2 : InOrder (([] ++ [((![0], 0) : Pt 1 × ℤ)]) ++ [(![2], 0)]) := h1.append (by simp) (by simp)
  have h3 : InOrder ((([] ++ [((![0], 0) : Pt 1 × ℤ)]) ++ [(![2], 0)]) ++ [(![5], 1)]) := h2.append (by simp) (by
    simp [numClusters, labels])
  exact h3

/-! ## C41 -/

/-- C41: from the size, centroid, compactness and zero `g` of a non-empty cluster, `CP_update` with `p = q = 2` returns those of the cluster
with one more sample, and `cluster_center_update` returns its centroid and size. -/
theorem C41 (l : List (Pt d)) (hl : l ≠ []) (x : Pt d) (g : Option Vec) (hg : g = none ∨ g = some (enc fun _ : Fin d => (0 : ℝ))) :
    cpUpdate (enc x) (enc (meanOf l)) l.length g (.fin (l.map fun p => dist2 p (meanOf l)).sum) 2 2
        = .ok ⟨.fin (((l ++ [x]).map fun p => dist2 p (meanOf (l ++ [x]))).sum), enc fun _ : Fin d => (0 : ℝ),
            enc (meanOf (l ++ [x])), (l ++ [x]).length⟩
      ∧ centerUpdate (enc x) (enc (meanOf l)) l.length = .ok (enc (meanOf (l ++ [x])), (l ++ [x]).length) := by
  constructor
  · rw [cpUpdate_two x (meanOf l) l.length hg _ fun i => meanOf_append_singleton l x i, List.length_append, List.length_singleton,
      List.map_append, List.sum_append, sum_dist2 l hl (meanOf (l ++ [x]))]
    simp only [List.map_cons, List.map_nil, List.sum_cons, List.sum_nil]
    congr 3
    ring
  · rw [centerUpdate_enc, List.length_append, List.length_singleton]
    congr 2
    exact enc_congr fun i => by rw [V0.mean_step, meanOf_append_singleton]

/-- The case of the cluster {0, 2} and the new sample 7. -/
example : cpUpdate (enc (![7] : Pt 1)) (enc (meanOf [![0], ![2]])) 2 none (.fin 2) 2 2
    = .ok ⟨.fin 26, enc fun _ : Fin 1 => (0 : ℝ), enc (![3] : Pt 1), 3⟩ := by
  have h := (C41 [![0], ![2]] (by simp) (![7] : Pt 1) none (.inl rfl)).1
  have hm : meanOf ([![0], ![2]] ++ [(![7] : Pt 1)]) = ![3] := by funext i; fin_cases i; norm_num [meanOf]
  have hm' : meanOf ([![0], ![2]] : List (Pt 1)) = ![1] := by funext i; fin_cases i; norm_num [meanOf]
  rw [hm, hm'] at h
  rw [hm']
  norm_num [dist2] at h
  exact h

/-! ## C42 -/

/-- Every update of an `iPS`, whatever happened to it before (exceptions caught by the caller included), returns 0 or raises. -/
theorem C42_always_zero (history : List (Vec × ℤ)) (x : Vec) (c : ℤ) (r : XR) (s : V0.PS)
    (h : V0.PS.update x c (afterAll V0.PS.update history V0.PS.init) = .ok r s) : r = 0 :=
  (PS.update_ok (PS.afterAll_ok history PS.init_ok)).2 r s h

/-- Streams in order are accepted, and every update returns 0. -/
theorem C42_run {S : Stream d} (hS : InOrder S) :
    ∃ s, V0.feed V0.PS.update (encS S) V0.PS.init = .ok (List.replicate S.length 0) s := by
  obtain ⟨s, h, -⟩ := V0.PS.run hS
  exact ⟨s, h⟩

/-- C42, partial: correct as long as there is only one cluster.  Full statement: each update returns `Spec.PS` of the samples so far; it fails
from the second cluster on (`C42_false`). -/
theorem C42_partial {S : Stream d} (hS : InOrder S) (h1 : numClusters S ≤ 1) :
    ∃ s, V0.feed V0.PS.update (encS S) V0.PS.init = .ok ((List.range S.length).map fun i => Spec.PS (S.take (i + 1))) s := by
  obtain ⟨s, h, -⟩ := V0.PS.run hS
  refine ⟨s, h.trans ?_⟩
  congr 1
  refine (List.eq_replicate_iff.mpr ⟨by simp, ?_⟩).symm
  intro b hb
  obtain ⟨i, -, rfl⟩ := List.mem_map.mp hb
  have : numClusters (S.take (i + 1)) ≤ numClusters S :=
    Finset.card_le_card fun a ha => by
      simp only [labels, List.mem_toFinset, List.mem_map] at ha ⊢
      obtain ⟨p, hp, rfl⟩ := ha
      exact ⟨p, List.mem_of_mem_take hp, rfl⟩
  rw [Spec.PS, if_pos (this.trans h1), XR.zero_def]

/-- One cluster of two samples. -/
example : ∃ S : Stream 1, InOrder S ∧ numClusters S ≤ 1 ∧ S.length = 2 := by
  have h1 : InOrder ([] ++ [((![0], 0) : Pt 1 × ℤ)]) := InOrder.nil.append (by simp) (by simp)
  have h2 : InOrder (([] ++ [((![0], 0) : Pt 1 × ℤ)]) ++ [(![2], 0)]) := h1.append (by simp) (by simp)
  exact ⟨_, h2, by simp [numClusters, labels], rfl⟩

theorem demo_PS : Spec.PS demo = .fin (3 / 2 - 2 * Real.exp (-4)) := by
  have hs : sep demo 0 1 = 16 := by norm_num [sep, demo_centroid0, demo_centroid1, dist2]
  have hs' : sep demo 1 0 = 16 := by norm_num [sep, demo_centroid0, demo_centroid1, dist2]
  have hm : centroidMean demo = ![3] := by
    funext i; fin_cases i
    simp only [centroidMean, demo_labels, demo_numClusters]
    rw [Finset.sum_pair (by decide)]
    norm_num [demo_centroid0, demo_centroid1]
  have hb : beta demo = 4 := by
    simp only [beta, demo_labels, demo_numClusters, hm]
    rw [Finset.sum_pair (by decide)]
    norm_num [demo_centroid0, demo_centroid1, dist2]
  have h0 : size demo 0 = 2 := by simp [size, demo_cluster0]
  have h1 : size demo 1 = 1 := by simp [size, demo_cluster1]
  have hM : maxSize demo = 2 := by simp [maxSize, demo_labels, h0, h1]
  have o0 : otherValues demo 0 (fun b => sep demo 0 b) = {16} := by
    ext r
    simp only [otherValues, demo_labels, Finset.mem_insert, Finset.mem_singleton, Set.mem_ofPred_eq, Set.mem_singleton_iff]
    constructor
    · rintro ⟨b, rfl | rfl, hb, rfl⟩
      · exact absurd rfl hb
      · exact hs
    · rintro rfl
      exact ⟨1, .inr rfl, by decide, hs.symm⟩
  have o1 : otherValues demo 1 (fun b => sep demo 1 b) = {16} := by
    ext r
    simp only [otherValues, demo_labels, Finset.mem_insert, Finset.mem_singleton, Set.mem_ofPred_eq, Set.mem_singleton_iff]
    constructor
    · rintro ⟨b, rfl | rfl, hb, rfl⟩
      · exact hs'
      · exact absurd rfl hb
    · rintro rfl
      exact ⟨0, .inl rfl, by decide, hs'.symm⟩
  rw [Spec.PS, if_neg (by rw [demo_numClusters]; decide), if_neg (by rw [hb]; norm_num), demo_labels, Finset.sum_pair (by decide), o0, o1,
    csInf_singleton, hb, h0, h1, hM]
  norm_num
  ring

/-- C42 is false: on a stream with two clusters the last update returns 0 instead of the partition separation. -/
theorem C42_false : ∃ (S : Stream 1) (s : V0.PS), InOrder S ∧ V0.feed V0.PS.update (encS S) V0.PS.init = .ok [0, 0, 0] s
    ∧ S.length = 3 ∧ Spec.PS S ≠ 0 := by
  obtain ⟨s, h⟩ := C42_run demo_inOrder
  refine ⟨demo, s, demo_inOrder, h, rfl, ?_⟩
  rw [demo_PS, XR.zero_def, Ne, XR.fin_inj]
  have h1 : Real.exp (-4) < 1 / 2 := by
    have h2 : (-4 : ℝ) + 1 < Real.exp (-4) := Real.add_one_lt_exp (by norm_num)
    have h4 : (4 : ℝ) + 1 < Real.exp 4 := Real.add_one_lt_exp (by norm_num)
    rw [Real.exp_neg, inv_lt_comm₀ (Real.exp_pos _) (by norm_num)]
    norm_num
    linarith
  intro h
  linarith

/-! ## C43 -/

/-- What `iXB` returns on a stream in order: after each sample the Xie-Beni index with the least separation of the whole history. -/
theorem C43_run {S : Stream d} (hS : InOrder S) :
    ∃ s, V0.feed V0.XB.update (encS S) V0.XB.init = .ok ((List.range S.length).map fun i => histXB (S.take (i + 1))) s := by
  obtain ⟨s, h, -⟩ := V0.XB.run hS
  exact ⟨s, h⟩

/-- C43, partial: the value is the Xie-Beni index whenever no two centroids have been closer before than the closest two are now.  Full statement:
`Spec.XB` without that hypothesis; `C43_false` refutes it, `C43_run` says what is returned instead. -/
theorem C43_partial {S : Stream d} {x : Pt d} {c : ℤ} (hS : InOrder (S ++ [(x, c)]))
    (h : ∀ r ∈ histSep S, sInf (pairValues (S ++ [(x, c)]) (sep (S ++ [(x, c)]))) ≤ r) :
    ∃ s s', V0.feed V0.XB.update (encS S) V0.XB.init = .ok ((List.range S.length).map fun i => histXB (S.take (i + 1))) s
      ∧ V0.XB.update (enc x) c s = .ok (Spec.XB (S ++ [(x, c)])) s' := by
  obtain ⟨s, hf, hr⟩ := V0.XB.run hS.prefix
  obtain ⟨s', hu, -⟩ := V0.XB.step hS hr
  refine ⟨s, s', hf, hu.trans ?_⟩
  congr 1
  rw [histXB, Spec.XB]
  split_ifs with hk
  · rfl
  · congr 2
    refine le_antisymm (hist_le _ hk) (le_csInf ((pairs_nonempty hk).mono (pairValues_subset_hist _)) ?_)
    intro r hr
    rw [histSep_append] at hr
    rcases hr with hr | hr
    · exact h r hr
    · exact csInf_le ((hist_bddBelow _).mono (pairValues_subset_hist _)) hr

/-- ... and it is never smaller than the Xie-Beni index. -/
theorem C43_bound_partial {S : Stream d} (hk : 2 ≤ numClusters S) (hpos : 0 < sInf (histSep S)) :
    ∃ a b : ℝ, Spec.XB S = .fin a ∧ histXB S = .fin b ∧ a ≤ b := by
  have hk' : ¬ numClusters S ≤ 1 := by omega
  have hl : (0 : ℝ) < S.length := by
    cases S with
    | nil => simp [numClusters, labels] at hk
    | cons p S => simp; positivity
  have h1 := hist_le S hk'
  have h2 : 0 < sInf (pairValues S (sep S)) := lt_of_lt_of_le hpos h1
  refine ⟨_, _, by rw [Spec.XB, if_neg hk', ratio, if_pos (by positivity)], by rw [histXB, if_neg hk', ratio, if_pos (by positivity)], ?_⟩
  exact div_le_div_of_nonneg_left (WGSS_nonneg S) (by positivity) (by gcongr)

theorem pairValues_two {S : Stream d} (h : labels S = {0, 1}) : pairValues S (sep S) = {sep S 0 1} := by
  ext r
  simp only [pairValues, h, Finset.mem_insert, Finset.mem_singleton, Set.mem_ofPred_eq, Set.mem_singleton_iff]
  constructor
  · rintro ⟨a, rfl | rfl, b, rfl | rfl, hab, rfl⟩
    · exact absurd rfl hab
    · rfl
    · exact Verif.sep_comm _ _ _
    · exact absurd rfl hab
  · rintro rfl
    exact ⟨0, .inl rfl, 1, .inr rfl, by decide, rfl⟩

/-- The samples `0` in cluster 0, `a` and `b` in cluster 1. -/
noncomputable def two (a b : ℝ) : Stream 1 := [(![0], 0), (![a], 1)] ++ [(![b], 1)]

theorem two_prefix_inOrder (a : ℝ) : InOrder ([(![0], 0), (![a], 1)] : Stream 1) := by
  have h1 : InOrder ([] ++ [((![0], 0) : Pt 1 × ℤ)]) := InOrder.nil.append (by simp) (by simp)
  exact h1.append (p := (![a], 1)) (by simp) (by simp [numClusters, labels])

theorem two_inOrder (a b : ℝ) : InOrder (two a b) :=
  (two_prefix_inOrder a).append (by simp) (by simp [numClusters, labels])

theorem two_prefix_hist (a : ℝ) : histSep ([(![0], 0), (![a], 1)] : Stream 1) = {a ^ 2} := by
  have hl : labels ([(![0], 0), (![a], 1)] : Stream 1) = {0, 1} := by ext c; simp [labels]
  have h : histSep ([(![0], 0)] ++ [(![a], 1)] : Stream 1) = _ := histSep_append _ _
  rw [histSep_empty (S := [(![0], 0)]) (by simp [numClusters, labels]), Set.empty_union] at h
  refine h.trans ((pairValues_two hl).trans ?_)
  simp [sep, centroid, cluster, meanOf, dist2]

theorem two_labels (a b : ℝ) : labels (two a b) = {0, 1} := by ext c; simp [labels, two]

theorem two_sep (a b : ℝ) : sep (two a b) 0 1 = ((a + b) / 2) ^ 2 := by
  simp [sep, centroid, cluster, meanOf, dist2, two]

theorem two_pairs (a b : ℝ) : pairValues (two a b) (sep (two a b)) = {((a + b) / 2) ^ 2} := by
  rw [pairValues_two (two_labels a b), two_sep]

/-- Clusters that move together: 0 against 9, then 1 joins the 9. -/
example : InOrder (two 9 1) ∧ ∀ r ∈ histSep ([(![0], 0), (![9], 1)] : Stream 1), sInf (pairValues (two 9 1) (sep (two 9 1))) ≤ r := by
  refine ⟨two_inOrder 9 1, ?_⟩
  rw [two_prefix_hist, two_pairs, csInf_singleton]
  rintro r rfl
  norm_num

theorem two_WGSS (a b : ℝ) : WGSS (two a b) = (a - b) ^ 2 / 2 := by
  rw [WGSS, two_labels, Finset.sum_pair (by decide)]
  simp [scatter, centroid, cluster, meanOf, dist2, two]
  ring

theorem two_numClusters (a b : ℝ) : numClusters (two a b) = 2 := by rw [numClusters, two_labels]; rfl

/-- C43 is false: clusters that move apart (0 against 1, then 9 joins the 1): the value returned is 32/3, the Xie-Beni index is 32/75. -/
theorem C43_false : ∃ (S : Stream 1) (s : V0.XB) (rs : List XR), InOrder S
    ∧ V0.feed V0.XB.update (encS S) V0.XB.init = .ok (rs ++ [.fin (32 / 3)]) s ∧ Spec.XB S = .fin (32 / 75) := by
  obtain ⟨s, h⟩ := C43_run (two_inOrder 1 9)
  have hp := two_prefix_hist 1
  have hh : histSep (two 1 9) = {1, 25} := by
    have := histSep_append ([(![0], 0), (![1], 1)] : Stream 1) (![9], 1)
    rw [two_prefix_hist] at this
    refine this.trans ?_
    have h2 := two_pairs 1 9
    rw [show ([(![0], 0), (![1], 1)] ++ [(![9], 1)] : Stream 1) = two 1 9 from rfl, h2]
    norm_num
    exact Set.pair_comm _ _
  have hv : histXB (two 1 9) = .fin (32 / 3) := by
    have hi : sInf ({1, 25} : Set ℝ) = 1 := IsLeast.csInf_eq ⟨by simp, by rintro r (rfl | rfl) <;> norm_num⟩
    rw [histXB, if_neg (by rw [two_numClusters]; decide), hh, hi, two_WGSS, ratio, if_pos (by norm_num [two])]
    norm_num [two]
  refine ⟨two 1 9, s, (List.range 2).map fun i => histXB ((two 1 9).take (i + 1)), two_inOrder 1 9, ?_, ?_⟩
  · rw [h, ← hv]
    congr 1
  · rw [Spec.XB, if_neg (by rw [two_numClusters]; decide), two_pairs, csInf_singleton, two_WGSS, ratio, if_pos (by norm_num [two])]
    norm_num [two]

/-! ## C44 -/

/-- C44, partial: streams in which every sample has cluster number 0 are accepted, with the right value.  Full statement: every stream in order,
and the value `Spec.CH`; see `C44_false` and `C44_value_false`. -/
theorem C44_partial (l : List (Pt d)) :
    ∃ s, V0.feed V0.CH.update (encS (l.map fun x => (x, 0))) V0.CH.init
      = .ok ((List.range l.length).map fun i => Spec.CH ((l.map fun x => (x, 0)).take (i + 1))) s := by
  obtain ⟨s, h, -⟩ := CH.run_zero l
  refine ⟨s, h.trans ?_⟩
  congr 1
  refine (List.eq_replicate_iff.mpr ⟨by simp, ?_⟩).symm
  intro b hb
  obtain ⟨i, -, rfl⟩ := List.mem_map.mp hb
  have : labels ((l.map fun x => (x, (0 : ℤ))).take (i + 1)) ⊆ {0} := by
    intro a ha
    simp only [labels, List.mem_toFinset, List.mem_map] at ha
    obtain ⟨p, hp, rfl⟩ := ha
    obtain ⟨x, -, rfl⟩ := List.mem_map.mp (List.mem_of_mem_take hp)
    simp
  rw [Spec.CH, if_pos (by simpa [numClusters] using Finset.card_le_card this), XR.zero_def]

/-- C44 is false: every stream that starts with one sample of cluster 0 and one of cluster 1 raises IndexError. -/
theorem C44_false (x y : Pt d) (T : Stream d) :
    InOrder ([(x, 0), (y, 1)] : Stream d) ∧
      ∃ s, V0.feed V0.CH.update (encS ((x, 0) :: (y, 1) :: T)) V0.CH.init = .err .indexError s := by
  refine ⟨?_, ?_⟩
  · have h1 : InOrder ([] ++ [((x, 0) : Pt d × ℤ)]) := InOrder.nil.append (by simp) (by simp)
    exact h1.append (p := (y, 1)) (by simp) (by simp [numClusters, labels])
  · obtain ⟨s, h, hr⟩ := CH.run_zero [x]
    obtain ⟨h1, h2, -, h4, h5, -, h7⟩ := hr
    have hu : ∃ s', V0.CH.update (enc y) 1 s = .err .indexError s' := by
      have hn : ((s.N + 1 : ℕ) : ℝ) ≠ 0 := by positivity
      obtain ⟨z, hz⟩ : ∃ z : Pt d, scaleAdd (((s.N + 1 : ℕ) : ℝ) - 1) s.dataCenter (enc y) = .ok (enc z) := by
        rcases h7 with h | ⟨z, h⟩ <;> rw [h, scaleAdd]
        · exact ⟨y, rfl⟩
        · exact ⟨_, by rw [smul_enc, add_enc]⟩
      have hg : getAt s.WGSSi 1 = .error .indexError := getAt_ge (by rw [h5]; simp)
      have h4' : s.sizes.length = 1 := h4
      have h4n : s.sizes ≠ [] := by rintro e; simp [e] at h4'
      simp [V0.CH.update, -Nat.cast_add, hz, h1, h4n, hg]
    obtain ⟨s', hs'⟩ := hu
    exact ⟨s', feed_append_err V0.CH.update (encS ([x].map fun x => (x, 0))) (encS T) (enc y, 1) h hs'⟩

/-- ... and accepted streams get wrong values: after 0, 2 in cluster 0 and 5 in cluster 1 it returns 67/81; the CH index is 16/3. -/
theorem C44_value_false : ∃ s, V0.feed V0.CH.update (encS demo) V0.CH.init = .ok [0, 0, .fin (67 / 81)] s
    ∧ InOrder demo ∧ Spec.CH demo = .fin (16 / 3) := by
  refine ⟨⟨[], .fin (9 / 2), [0, .fin (9 / 2)], .fin (67 / 18), [.fin 1, .fin (49 / 18)], .fin (67 / 81), some [.fin (7 / 3)], 3,
    [[.fin 0], [.fin (7 / 2)]], [1, 2], some [.fin 0]⟩, ?_, demo_inOrder, demo_CH⟩
  have n1 : ∀ r : ℝ, norm22 [.fin r] = .fin (r ^ 2) := fun r => by simpa [enc] using norm22_enc (![r] : Pt 1)
  have hd : ∀ a b : ℝ, b ≠ 0 → (XR.fin a) / (XR.fin b) = .fin (a / b) := fun a b h => XR.fin_div_of_ne a h
  have u1 : V0.CH.update (enc ![0]) 0 V0.CH.init = .ok 0 ⟨[], 0, [0], 0, [0], 0, some [.fin 0], 1, [[.fin 0]], [1], none⟩ := by
    norm_num [V0.CH.update, V0.CH.init, enc, scaleAdd, vdiv, getAt, setAt, pyIdx, Vec.sub, Vec.bin, n1, hd]
    simp [XR.zero_def]
  have u2 : V0.CH.update (enc ![2]) 0 ⟨[], 0, [0], 0, [0], 0, some [.fin 0], 1, [[.fin 0]], [1], none⟩
      = .ok 0 ⟨[], 0, [0, 0], .fin 1, [.fin 1, 0], 0, some [.fin 1], 2, [[.fin 0], [.fin 2]], [1, 1], none⟩ := by
    norm_num [V0.CH.update, enc, scaleAdd, vdiv, getAt, setAt, pyIdx, Vec.sub, Vec.add, Vec.smul, Vec.bin, n1, hd]
    simp [XR.zero_def]
  have hc : cpUpdate [.fin 5] [.fin 2] 1 none (.fin 0) 2 2 = .ok ⟨.fin (9 / 2), [.fin 0], [.fin (7 / 2)], 2⟩ := by
    have := cpUpdate_two (![5] : Pt 1) ![2] 1 (g := none) (.inl rfl) 0 (w := ![7 / 2]) (by intro i; fin_cases i; norm_num)
    norm_num [enc, dist2] at this
    exact this
  have hc' : cpUpdate [.fin 5] [.fin 2] 1 none 0 2 2 = _ := hc
  have e1 : ¬ ([1, 1] : List ℕ) = [] := by simp
  have u3 : V0.CH.update (enc ![5]) 1 ⟨[], 0, [0, 0], .fin 1, [.fin 1, 0], 0, some [.fin 1], 2, [[.fin 0], [.fin 2]], [1, 1], none⟩
      = .ok (.fin (67 / 81)) ⟨[], .fin (9 / 2), [0, .fin (9 / 2)], .fin (67 / 18), [.fin 1, .fin (49 / 18)], .fin (67 / 81),
        some [.fin (7 / 3)], 3, [[.fin 0], [.fin (7 / 2)]], [1, 2], some [.fin 0]⟩ := by
    norm_num [V0.CH.update, enc, scaleAdd, vdiv, getAt, setAt, pyIdx, Vec.sub, Vec.add, Vec.smul, Vec.bin, n1, hd, hc', e1]
    simp only [XR.zero_def, XR.fin_sub, XR.fin_add]
    norm_num [hd]
  simp [V0.feed, encS, demo, u1, u2, u3]

end Verif
