import Verif.Proofs.Passes
import Verif.Props.Invariance

/-!
# C53: presenting the same data several times
-/

namespace Verif
open Spec

variable {d : ℕ}

/-- `m` passes over the data set. -/
def passes (m : ℕ) (S : Stream d) : Stream d := (List.replicate m S).flatten

theorem passes_ne_nil {m : ℕ} (hm : 0 < m) {S : Stream d} (hS : S ≠ []) : passes m S ≠ [] := by
  obtain ⟨n, rfl⟩ := Nat.exists_eq_succ_of_ne_zero hm.ne'
  simp [passes, List.replicate_succ, hS]

/-- **C53**, incremental mode: several passes over the data, in any order (even shuffled across passes), end with the value of
one pass.  WB, XB, DB, GD43, GD53, PS. -/
theorem C53_passes_inc_partial (I : Index) (h1 : I ≠ .CH) (h2 : I ≠ .rCIP) (h3 : I ≠ .cSIL) (m : ℕ) (hm : 0 < m)
    (S T : Stream d) (hT : T.Perm (passes m S)) : incLast I T = incLast I S := by
  have hd : DimOk I d := fun e => absurd e h2
  rw [C21_arrival_order_partial I h3 hd _ _ hT.symm]
  by_cases hS : S = []
  · subst hS; simp [passes]
  · rw [incLast_eq h3 hd (passes_ne_nil hm hS), incLast_eq h3 hd hS, Repeats.value (T := passes m S) hm rfl h1 h2]

/-- **C53**, incremental CH: `m` passes over `n` samples in `k < n` clusters multiply the value by `(m n - k) / (n - k)`. -/
theorem C53_passes_inc_CH (m : ℕ) (hm : 0 < m) (S T : Stream d) (hT : T.Perm (passes m S))
    (hk : numClusters S < S.length) : incLast .CH T = (incLast .CH S).map (Option.map fun v =>
      v * .fin ((m * S.length - numClusters S) / (S.length - numClusters S))) := by
  have hS : S ≠ [] := by rintro rfl; simp at hk
  rw [C21_arrival_order_partial .CH (by decide) (by simp [DimOk]) _ _ hT.symm,
    incLast_eq (by decide) (by simp [DimOk]) (passes_ne_nil hm hS), incLast_eq (by decide) (by simp [DimOk]) hS]
  exact congrArg (fun v => Except.ok (some v)) (Repeats.CH hm rfl hk)

theorem consecutive_passes {m : ℕ} (hm : 0 < m) (S : Stream d) : Consecutive (passes m S) ↔ Consecutive S := by
  simp only [Consecutive, Repeats.numClusters (S := S) hm (T := passes m S) rfl,
    Repeats.labels (S := S) hm (T := passes m S) rfl]

/-- **C53**, batch mode (cSIL included), all label vectors. -/
theorem C53_passes_batch (I : Index) (h1 : I ≠ .CH) (h2 : I ≠ .rCIP) (hd : 0 < d) (m : ℕ) (hm : 0 < m) (S : Stream d) :
    batchRun I (passes m S) = batchRun I S := by
  have hs : SomeInRange (passes m S) ↔ SomeInRange S := by
    simp only [SomeInRange, Repeats.numClusters (S := S) hm (T := passes m S) rfl,
      Repeats.labels (S := S) hm (T := passes m S) rfl]
  rw [C20_outcome I hd, C20_outcome I hd, batchOutcome, batchOutcome,
    Repeats.numClusters (S := S) hm (T := passes m S) rfl, propext (consecutive_passes hm S), propext hs,
    Repeats.value (T := passes m S) hm rfl h1 h2]

/-- **C53**, batch CH. -/
theorem C53_passes_batch_CH (m : ℕ) (hm : 0 < m) (S : Stream d) (hc : Consecutive S) (h2 : 2 ≤ numClusters S)
    (hk : numClusters S < S.length) : batchRun .CH (passes m S) = (batchRun .CH S).map fun v =>
      v * .fin ((m * S.length - numClusters S) / (S.length - numClusters S)) := by
  have hk' := Repeats.numClusters (S := S) hm (T := passes m S) rfl
  rw [C11_CH.2.1 _ ((consecutive_passes hm S).2 hc) (by rw [hk']; exact h2), C11_CH.2.1 _ hc h2]
  exact congrArg Except.ok (Repeats.CH hm rfl hk)

/-- Three passes over the demo data, the last one backwards. -/
example : incLast .XB (demo ++ demo ++ demo.reverse) = incLast .XB demo :=
  C53_passes_inc_partial .XB (by decide) (by decide) (by decide) 3 (by norm_num) demo _ (by
    have h : passes 3 demo = demo ++ (demo ++ demo) := by simp [passes, List.replicate_succ]
    rw [h, List.append_assoc]
    exact (List.Perm.refl _).append ((List.Perm.refl _).append (List.reverse_perm _)))
example : batchRun .cSIL (passes 3 demo) = batchRun .cSIL demo :=
  C53_passes_batch .cSIL (by decide) (by decide) Nat.one_pos 3 (by norm_num) demo
/-- Two passes over the demo data: `16/3` becomes `16/3 * 4`. -/
example : batchRun .CH (passes 2 demo) = .ok (.fin (16 / 3 * 4)) := by
  rw [C53_passes_batch_CH 2 (by norm_num) demo demo_consecutive demo_two (by rw [demo_numClusters]; simp [demo]),
    C11_CH.2.1 demo demo_consecutive demo_two, demo_CH, demo_numClusters]
  norm_num [Except.map, demo]
example : incLast .CH (passes 2 demo) = .ok (some (.fin (16 / 3 * 4))) := by
  rw [C53_passes_inc_CH 2 (by norm_num) demo _ (List.Perm.refl _) (by rw [demo_numClusters]; simp [demo]),
    incLast_eq (by decide) (by simp [DimOk]) (by simp [demo]),
    show Spec.value .CH demo = .fin (16 / 3) from demo_CH, demo_numClusters]
  norm_num [Except.map, demo]

/-- **C53** is false for incremental cSIL: one pass over the samples ends with `-50`, two passes end with `-25`. -/
theorem C53_cSIL_false : ∃ S : Stream 1, incLast .cSIL S = .ok (some (.fin (-50))) ∧
    incLast .cSIL (passes 2 S) = .ok (some (.fin (-25))) := by
  refine ⟨badStream 10, ?_, ?_⟩
  · rw [incLast_actual (by simp [DimOk]) (bad_ne_nil 10)]
    change Except.ok (some (CSIL.actual (badStream 10))) = _
    rw [bad_actual]; norm_num
  · rw [incLast_actual (by simp [DimOk]) (passes_ne_nil two_pos (bad_ne_nil 10))]
    change Except.ok (some (CSIL.actual (passes 2 (badStream 10)))) = _
    set T := passes 2 (badStream 10) with hT
    have hl : labels T = {0, 1} := by rw [Repeats.labels two_pos hT, bad_labels]
    have hx : ∀ a b : ℤ, (a = 0 ∨ a = 1) → (b = 0 ∨ b = 1) → crossScatter T a b = if a = 0 then 1 else 0 := by
      intro a b ha hb
      rw [Repeats.cross two_pos hT, bad_cross 10 a b ha hb]
    have hc0 : centroid T 0 = ![10] := by rw [Repeats.centroid two_pos hT, bad_centroid0]
    have hs1 : size T 1 = 4 := by rw [Repeats.size hT]; simp [size, bad_cluster1]
    have e00 : CSIL.entry T 0 0 = 1 := by rw [CSIL.entry, hx 0 0 (by simp) (by simp)]; simp [CSIL.csilErr]
    have e11 : CSIL.entry T 1 1 = 0 := by rw [CSIL.entry, hx 1 1 (by simp) (by simp)]; simp [CSIL.csilErr]
    have e01 : CSIL.entry T 0 1 = 1 := by
      rw [CSIL.entry, hx 0 1 (by simp) (by simp)]
      simp [CSIL.csilErr, CSIL.lastOf, T, passes, List.replicate_succ, badStream]
    have e10 : CSIL.entry T 1 0 = -50 := by
      have h : CSIL.lastOf T 1 0 = some (![10], 1) := by
        simp [CSIL.lastOf, T, passes, List.replicate_succ, badStream]
      rw [CSIL.entry, hx 1 0 (by simp) (by simp), CSIL.csilErr, h, hs1, hc0]
      norm_num [CSIL.dot]
    rw [CSIL.actual, silValue_two hl (by rw [e00]; norm_num), e00, e11, e10, e01]
    norm_num [XR.fin_div, XR.idiv]

end Verif
