import Verif.Props.Demo

/-!
# C09, C11–C19: what the indices return

`incRun I S` are the values returned while a fresh object is fed `S`; `batchRun I S` is the value of the batch call.
-/

namespace Verif
open Spec

variable {d : ℕ}

/-- **C09**: no stream of finite samples of one length makes `get_cvi` raise. -/
theorem C09_streams_never_fail (I : Index) (hd : DimOk I d) (S : Stream d) :
    ∃ values, incRun I S = .ok values ∧ values.length = S.length := by
  refine ⟨_, incRun_actual hd S, ?_⟩
  simp

example : ∃ values, incRun .rCIP demo = .ok values ∧ values.length = 3 :=
  C09_streams_never_fail .rCIP (fun _ => Nat.one_pos) demo

/-- The claim of C11–C18 for one class: after every sample the returned value is the index of the samples so far; the batch
value is the index of the data set; hence the two modes agree. -/
def IncBatchSpec (I : Index) (d : ℕ) (V : Stream d → XR) : Prop :=
  (∀ S : Stream d, incRun I S = .ok (S.inits.tail.map V)) ∧
  (∀ S : Stream d, Consecutive S → 2 ≤ numClusters S → batchRun I S = .ok (V S)) ∧
  (∀ S : Stream d, Consecutive S → 2 ≤ numClusters S → incLast I S = (batchRun I S).map some)

theorem incBatchSpec {I : Index} (hI : I ≠ .cSIL) (hd : DimOk I d) : IncBatchSpec I d (Spec.value I) := by
  refine ⟨incRun_eq hI hd, fun S h hk => batchRun_eq hd h hk, fun S h hk => ?_⟩
  rw [batchRun_eq hd h hk, incLast_eq hI hd (nonempty_of_clusters hk)]
  rfl

/-- **C11** -/
theorem C11_CH : IncBatchSpec .CH d Spec.CH := incBatchSpec (by decide) (by simp [DimOk])
/-- **C12** -/
theorem C12_WB : IncBatchSpec .WB d Spec.WB := incBatchSpec (by decide) (by simp [DimOk])
/-- **C13** -/
theorem C13_XB : IncBatchSpec .XB d Spec.XB := incBatchSpec (by decide) (by simp [DimOk])
/-- **C14** -/
theorem C14_DB : IncBatchSpec .DB d Spec.DB := incBatchSpec (by decide) (by simp [DimOk])
/-- **C15** -/
theorem C15_GD43 : IncBatchSpec .GD43 d Spec.GD43 := incBatchSpec (by decide) (by simp [DimOk])
/-- **C16** -/
theorem C16_GD53 : IncBatchSpec .GD53 d Spec.GD53 := incBatchSpec (by decide) (by simp [DimOk])
/-- **C17** -/
theorem C17_PS : IncBatchSpec .PS d Spec.PS := incBatchSpec (by decide) (by simp [DimOk])
/-- **C18** -/
theorem C18_rCIP (hd : 0 < d) : IncBatchSpec .rCIP d Spec.rCIP := incBatchSpec (by decide) fun _ => hd

example : batchRun .CH demo = .ok (.fin (16 / 3)) := by
  rw [C11_CH.2.1 demo demo_consecutive demo_two, demo_CH]
example : incLast .CH demo = .ok (some (.fin (16 / 3))) := by
  rw [C11_CH.2.2 demo demo_consecutive demo_two, C11_CH.2.1 demo demo_consecutive demo_two, demo_CH]; rfl
example : batchRun .rCIP demo = .ok (Spec.rCIP demo) := (C18_rCIP Nat.one_pos).2.1 demo demo_consecutive demo_two

/-! ## C19: cSIL -/

/-- **C19**, part that holds: the batch value is the defined one. -/
theorem C19_batch_partial (S : Stream d) (h : Consecutive S) (hk : 2 ≤ numClusters S) :
    batchRun .cSIL S = .ok (Spec.cSIL S) := batchRun_eq (by simp [DimOk]) h hk

example : batchRun .cSIL demo = .ok (Spec.cSIL demo) := C19_batch_partial demo demo_consecutive demo_two

/-- What the incremental mode returns instead, for every stream: the silhouette of the matrix `crossScatter + csilErr`. -/
theorem C19_incremental_actual (S : Stream d) : incRun .cSIL S = .ok (S.inits.tail.map CSIL.actual) :=
  incRun_actual (by simp [DimOk]) S

/-- The incremental value is right whenever the sample vectors responsible for the error terms are orthogonal to the
centroids concerned. -/
theorem C19_incremental_partial (S : Stream d) (hS : S ≠ [])
    (h : ∀ a ∈ labels S, ∀ b ∈ labels S, CSIL.csilErr S a b = 0) : incLast .cSIL S = .ok (some (Spec.cSIL S)) := by
  rw [incLast_actual (by simp [DimOk]) hS]
  have : CSIL.actual S = CSIL.silValue S (crossScatter S) := by
    have hE : ∀ a ∈ labels S, ∀ b ∈ labels S, CSIL.entry S a b = crossScatter S a b := by
      intro a ha b hb; rw [CSIL.entry, h a ha b hb, add_zero]
    have hO : ∀ c ∈ labels S, otherValues S c (fun b => CSIL.entry S b c) = otherValues S c fun b => crossScatter S b c := by
      intro c hc
      ext r
      constructor <;> rintro ⟨b, hb, hbc, rfl⟩ <;> exact ⟨b, hb, hbc, by simp only [hE b hb c hc]⟩
    rw [CSIL.actual, CSIL.silValue, CSIL.silValue]
    congr 1
    have e : (∀ a ∈ labels S, ∀ b ∈ labels S, CSIL.entry S a b = 0) ↔
        ∀ a ∈ labels S, ∀ b ∈ labels S, crossScatter S a b = 0 := by
      constructor <;> intro h' a ha b hb
      · rw [← hE a ha b hb]; exact h' a ha b hb
      · rw [hE a ha b hb]; exact h' a ha b hb
    rw [if_congr e rfl rfl]
    congr 2
    apply Finset.sum_congr rfl
    intro c hc
    rw [hO c hc, hE c hc c hc]
  rw [← CSIL.silValue_crossScatter, ← this]
  rfl

/-- A stream with a wrong incremental value. -/
noncomputable def badStream (t : ℝ) : Stream 1 := [(![t - 1], 0), (![t + 1], 0), (![t], 1), (![t], 1)]

section
variable (t : ℝ)

theorem bad_labels : labels (badStream t) = {0, 1} := by ext c; simp [labels, badStream]
theorem bad_numClusters : numClusters (badStream t) = 2 := by rw [numClusters, bad_labels]; rfl
theorem bad_cluster0 : cluster (badStream t) 0 = [![t - 1], ![t + 1]] := by simp [cluster, badStream]
theorem bad_cluster1 : cluster (badStream t) 1 = [![t], ![t]] := by simp [cluster, badStream]
theorem bad_centroid0 : centroid (badStream t) 0 = ![t] := by
  funext i; fin_cases i
  norm_num [centroid, bad_cluster0, meanOf]
theorem bad_centroid1 : centroid (badStream t) 1 = ![t] := by
  funext i; fin_cases i
  norm_num [centroid, bad_cluster1, meanOf]

theorem bad_cross (a b : ℤ) (ha : a = 0 ∨ a = 1) (hb : b = 0 ∨ b = 1) :
    crossScatter (badStream t) a b = if a = 0 then 1 else 0 := by
  rcases ha with rfl | rfl <;> rcases hb with rfl | rfl <;>
    norm_num [crossScatter, size, bad_cluster0, bad_cluster1, bad_centroid0, bad_centroid1, dist2]

theorem bad_err01 : CSIL.csilErr (badStream t) 0 1 = 0 := by
  simp [CSIL.csilErr, CSIL.lastOf, badStream]

theorem bad_err10 : CSIL.csilErr (badStream t) 1 0 = -t ^ 2 := by
  have h : CSIL.lastOf (badStream t) 1 0 = some (![t], 1) := by simp [CSIL.lastOf, badStream]
  have hs : size (badStream t) 1 = 2 := by simp [size, bad_cluster1]
  rw [CSIL.csilErr, h, hs]
  norm_num [CSIL.dot, bad_centroid0]
  ring

end

theorem otherValues_two {S : Stream d} (h : labels S = {0, 1}) (f : ℤ → ℝ) :
    sInf (otherValues S 0 f) = f 1 ∧ sInf (otherValues S 1 f) = f 0 := by
  have e0 : otherValues S 0 f = {f 1} := by
    ext r; simp [otherValues, h]
  have e1 : otherValues S 1 f = {f 0} := by
    ext r; simp [otherValues, h]
  rw [e0, e1, csInf_singleton, csInf_singleton]
  exact ⟨rfl, rfl⟩

/-- The silhouette of a matrix for two clusters. -/
theorem silValue_two {S : Stream d} (h : labels S = {0, 1}) {E : ℤ → ℤ → ℝ} (h0 : E 0 0 ≠ 0) :
    CSIL.silValue S E = (XR.fin (E 1 0 - E 0 0) / .fin (max (E 0 0) (E 1 0)) +
      XR.fin (E 0 1 - E 1 1) / .fin (max (E 1 1) (E 0 1))) / .fin 2 := by
  have hk : numClusters S = 2 := by rw [numClusters, h]; rfl
  rw [CSIL.silValue, if_neg (by omega), if_neg (by
    intro hz
    exact h0 (hz 0 (by simp [h]) 0 (by simp [h]))), hk, h, Finset.sum_pair (by decide)]
  rw [(otherValues_two h fun b => E b 0).1, (otherValues_two h fun b => E b 1).2]
  norm_num

/-- The value an incremental cSIL object returns for `badStream t`. -/
theorem bad_actual (t : ℝ) : CSIL.actual (badStream t) = .fin (-t ^ 2 / 2) := by
  have e00 : CSIL.entry (badStream t) 0 0 = 1 := by
    rw [CSIL.entry, bad_cross t 0 0 (by simp) (by simp)]; simp [CSIL.csilErr]
  have e11 : CSIL.entry (badStream t) 1 1 = 0 := by
    rw [CSIL.entry, bad_cross t 1 1 (by simp) (by simp)]; simp [CSIL.csilErr]
  have e01 : CSIL.entry (badStream t) 0 1 = 1 := by
    rw [CSIL.entry, bad_cross t 0 1 (by simp) (by simp), bad_err01]; simp
  have e10 : CSIL.entry (badStream t) 1 0 = -t ^ 2 := by
    rw [CSIL.entry, bad_cross t 1 0 (by simp) (by simp), bad_err10]; simp
  have hle : -t ^ 2 ≤ 1 := by nlinarith [sq_nonneg t]
  rw [CSIL.actual, silValue_two (bad_labels t) (by rw [e00]; norm_num), e00, e11, e01, e10, max_eq_left hle,
    max_eq_right (by norm_num : (0 : ℝ) ≤ 1), XR.fin_div_of_ne _ (by norm_num), XR.fin_div_of_ne _ (by norm_num), XR.fin_add,
    XR.fin_div_of_ne _ (by norm_num)]
  congr 1
  ring

/-- The defined value is `0`. -/
theorem bad_spec (t : ℝ) : Spec.cSIL (badStream t) = .fin 0 := by
  rw [← CSIL.silValue_crossScatter, silValue_two (bad_labels t) (by rw [bad_cross t 0 0 (by simp) (by simp)]; norm_num),
    bad_cross t 0 0 (by simp) (by simp), bad_cross t 1 1 (by simp) (by simp), bad_cross t 0 1 (by simp) (by simp),
    bad_cross t 1 0 (by simp) (by simp)]
  norm_num [XR.fin_div]
  rw [XR.idiv_of_ne _ (by norm_num), XR.idiv_of_ne _ (by norm_num), XR.fin_add]
  norm_num
  rw [XR.fin_div_of_ne _ (by norm_num), zero_div]

theorem bad_ne_nil (t : ℝ) : badStream t ≠ [] := by simp [badStream]

theorem bad_consecutive (t : ℝ) : Consecutive (badStream t) := by
  intro c
  rw [bad_numClusters, bad_labels]
  simp only [Finset.mem_insert, Finset.mem_singleton]
  omega

/-- **C19** is false in incremental mode: the samples `9, 11` (label 0), `10, 10` (label 1) give `-50`, the definition and the
batch mode give `0`. -/
theorem C19_incremental_false :
    ∃ S : Stream 1, Consecutive S ∧ 2 ≤ numClusters S ∧ batchRun .cSIL S = .ok (.fin 0) ∧
      incLast .cSIL S = .ok (some (.fin (-50))) := by
  refine ⟨badStream 10, bad_consecutive 10, (bad_numClusters 10).ge, ?_, ?_⟩
  · rw [C19_batch_partial _ (bad_consecutive 10) (bad_numClusters 10).ge, bad_spec]
  · rw [incLast_actual (by simp [DimOk]) (bad_ne_nil 10)]
    change Except.ok (some (CSIL.actual (badStream 10))) = _
    rw [bad_actual]
    norm_num

/-- The hypothesis of `C19_incremental_partial` is met by a non-trivial stream. -/
example : incLast .cSIL (badStream 0) = .ok (some (.fin 0)) := by
  rw [C19_incremental_partial _ (bad_ne_nil 0), bad_spec]
  intro a ha b hb
  rw [bad_labels] at ha hb
  simp only [Finset.mem_insert, Finset.mem_singleton] at ha hb
  rcases ha with rfl | rfl <;> rcases hb with rfl | rfl
  · simp [CSIL.csilErr]
  · exact bad_err01 0
  · rw [bad_err10]; norm_num
  · simp [CSIL.csilErr]

end Verif
