import Verif.Proofs.NaNModel

/-! # PS and rCIP respect `⊑` -/

set_option linter.unusedSimpArgs false

namespace Verif
open Py

variable {s t : Core} {x x' : Vec} {A A' : Arr2} {a a' : XR}

/-! ## PS -/

theorem PS.setup_ref (hx : x ⊑ x') : PS.setup x ⊑ PS.setup x' := by
  unfold PS.setup
  ref_all
macro_rules | `(tactic| ref_one) => `(tactic| (with_reducible apply PS.setup_ref))

theorem PS.dist_ref (h : CoreRef s t) (hx : x ⊑ x') (j : ℕ) : PS.dist s x j ⊑ PS.dist t x' j := by
  unfold PS.dist
  try simp only [h.n, h.nClusters, h.dim, h.nSamples]
  ref_all
macro_rules | `(tactic| ref_one) => `(tactic| (with_reducible apply PS.dist_ref))

theorem PS.devSq_ref (h : CoreRef s t) (i : ℕ) : PS.devSq s i ⊑ PS.devSq t i := by
  unfold PS.devSq
  try simp only [h.n, h.nClusters, h.dim, h.nSamples]
  ref_all
macro_rules | `(tactic| ref_one) => `(tactic| (with_reducible apply PS.devSq_ref))

theorem PS.psTerm_ref (h : CoreRef s t) (m i : ℕ) : PS.psTerm s m i ⊑ PS.psTerm t m i := by
  unfold PS.psTerm
  try simp only [h.n, h.nClusters, h.dim, h.nSamples]
  ref_all
macro_rules | `(tactic| ref_one) => `(tactic| (with_reducible apply PS.psTerm_ref))

theorem PS.incNew_ref (i : ℕ) (hx : x ⊑ x') : PS.incNew x i ⊑ PS.incNew x' i := by
  unfold PS.incNew
  ref_all
macro_rules | `(tactic| ref_one) => `(tactic| (with_reducible apply PS.incNew_ref))

theorem PS.incOld_ref (i : ℕ) (hx : x ⊑ x') : PS.incOld x i ⊑ PS.incOld x' i := by
  unfold PS.incOld
  ref_all
macro_rules | `(tactic| ref_one) => `(tactic| (with_reducible apply PS.incOld_ref))

macro_rules | `(tactic| ref_one) => `(tactic| (with_reducible exact setupIfFirst_ref (fun _ _ h => PS.setup_ref h) (by assumption)))

theorem PS.incBody_ref (i : ℕ) (hx : x ⊑ x') : PS.incBody x i ⊑ PS.incBody x' i := by
  unfold PS.incBody
  ref_all
macro_rules | `(tactic| ref_one) => `(tactic| (with_reducible apply PS.incBody_ref))

theorem PS.batchStep_ref (l : List ℤ) (i : ℕ) (hA : A ⊑ A') : PS.batchStep A l i ⊑ PS.batchStep A' l i := by
  unfold PS.batchStep
  ref_all
macro_rules | `(tactic| ref_one) => `(tactic| (with_reducible apply PS.batchStep_ref))

theorem PS.batchDist_ref (h : CoreRef s t) (i j : ℕ) : PS.batchDist s i j ⊑ PS.batchDist t i j := by
  unfold PS.batchDist
  try simp only [h.n, h.nClusters, h.dim, h.nSamples]
  ref_all
macro_rules | `(tactic| ref_one) => `(tactic| (with_reducible apply PS.batchDist_ref))

theorem PS.paramBatch_ref (l : List ℤ) (hA : A ⊑ A') : PS.paramBatch A l ⊑ PS.paramBatch A' l := by
  unfold PS.paramBatch
  ref_all
macro_rules | `(tactic| ref_one) => `(tactic| (with_reducible apply PS.paramBatch_ref))

theorem PS.evaluate_ref  : PS.evaluate ⊑ PS.evaluate := by
  unfold PS.evaluate
  ref_all
macro_rules | `(tactic| ref_one) => `(tactic| (with_reducible apply PS.evaluate_ref))

theorem PSmod_ref : ModRef PSmod fun _ => True :=
  ⟨fun _ _ i h => PS.incBody_ref i h, fun _ _ l h => PS.paramBatch_ref l h, fun _ _ h _ e _ => of_ref PS.evaluate_ref h e⟩

/-! ## RCIP -/

theorem RCIP.quad_ref (hx : x ⊑ x') (hA : A ⊑ A') : RCIP.quad x A ⊑ RCIP.quad x' A' := by
  unfold RCIP.quad
  ref_all
macro_rules | `(tactic| ref_one) => `(tactic| (with_reducible apply RCIP.quad_ref))

theorem RCIP.cip_ref {y y' : Vec} {B B' : Arr2} (ha : a ⊑ a') (hx : x ⊑ x') (hy : y ⊑ y') (hA : A ⊑ A') (hB : B ⊑ B') : RCIP.cip a x y A B ⊑ RCIP.cip a' x' y' A' B' := by
  unfold RCIP.cip
  ref_all
macro_rules | `(tactic| ref_one) => `(tactic| (with_reducible apply RCIP.cip_ref))

theorem RCIP.page_ref (h : CoreRef s t) (j : ℕ) : RCIP.page s j ⊑ RCIP.page t j := by
  unfold RCIP.page
  have := getElem?_ref h.sigma j
  revert this
  generalize s.sigma[j]? = o, t.sigma[j]? = o'
  rintro (h | _)
  · exact ok_ref h
  · exact error_ref _ _
macro_rules | `(tactic| ref_one) => `(tactic| (with_reducible apply RCIP.page_ref))

theorem RCIP.dist_ref (h : CoreRef s t) (hx : x ⊑ x') (hA : A ⊑ A') (j : ℕ) : RCIP.dist s x A j ⊑ RCIP.dist t x' A' j := by
  unfold RCIP.dist
  try simp only [h.n, h.nClusters, h.dim, h.nSamples]
  ref_all
macro_rules | `(tactic| ref_one) => `(tactic| (with_reducible apply RCIP.dist_ref))

theorem RCIP.setup_ref (hx : x ⊑ x') : RCIP.setup x ⊑ RCIP.setup x' := by
  unfold RCIP.setup
  ref_all
macro_rules | `(tactic| ref_one) => `(tactic| (with_reducible apply RCIP.setup_ref))

theorem RCIP.dstackSigma_ref (hA : A ⊑ A') : RCIP.dstackSigma A ⊑ RCIP.dstackSigma A' := by
  unfold RCIP.dstackSigma
  rw [rows_length hA, hA.1]
  ref_all
macro_rules | `(tactic| ref_one) => `(tactic| (with_reducible apply RCIP.dstackSigma_ref))

theorem RCIP.setSigma_ref (i : ℕ) (hA : A ⊑ A') : RCIP.setSigma i A ⊑ RCIP.setSigma i A' := by
  unfold RCIP.setSigma
  ref_all
macro_rules | `(tactic| ref_one) => `(tactic| (with_reducible apply RCIP.setSigma_ref))

theorem RCIP.sigmaNew_ref (n : ℕ) {B B' : Arr2} (hA : A ⊑ A') (hB : B ⊑ B') (hx : x ⊑ x') : RCIP.sigmaNew n A B x ⊑ RCIP.sigmaNew n A' B' x' := by
  unfold RCIP.sigmaNew
  ref_all
macro_rules | `(tactic| ref_one) => `(tactic| (with_reducible apply RCIP.sigmaNew_ref))

theorem RCIP.batchSigma_ref {B B' : Arr2} (hA : A ⊑ A') (hx : x ⊑ x') (hB : B ⊑ B') :
    RCIP.batchSigma A x B ⊑ RCIP.batchSigma A' x' B' := by
  unfold RCIP.batchSigma
  rw [rows_length hA]
  ref_all
macro_rules | `(tactic| ref_one) => `(tactic| (with_reducible apply RCIP.batchSigma_ref))

theorem RCIP.incNew_ref (i : ℕ) (hx : x ⊑ x') : RCIP.incNew x i ⊑ RCIP.incNew x' i := by
  unfold RCIP.incNew
  ref_all
macro_rules | `(tactic| ref_one) => `(tactic| (with_reducible apply RCIP.incNew_ref))

theorem RCIP.incOld_ref (i : ℕ) (hx : x ⊑ x') : RCIP.incOld x i ⊑ RCIP.incOld x' i := by
  unfold RCIP.incOld
  ref_all
macro_rules | `(tactic| ref_one) => `(tactic| (with_reducible apply RCIP.incOld_ref))

macro_rules | `(tactic| ref_one) => `(tactic| (with_reducible exact setupIfFirst_ref (fun _ _ h => RCIP.setup_ref h) (by assumption)))

theorem RCIP.incBody_ref (i : ℕ) (hx : x ⊑ x') : RCIP.incBody x i ⊑ RCIP.incBody x' i := by
  unfold RCIP.incBody
  ref_all
macro_rules | `(tactic| ref_one) => `(tactic| (with_reducible apply RCIP.incBody_ref))

theorem RCIP.batchStep_ref (l : List ℤ) (i : ℕ) (hA : A ⊑ A') : RCIP.batchStep A l i ⊑ RCIP.batchStep A' l i := by
  unfold RCIP.batchStep
  refine py_bind (py_lift (take_ref hA _)) fun B B' hB => ?_
  rw [rows_length hB]
  ref_all
macro_rules | `(tactic| ref_one) => `(tactic| (with_reducible apply RCIP.batchStep_ref))

theorem RCIP.batchDist_ref (h : CoreRef s t) (i j : ℕ) : RCIP.batchDist s i j ⊑ RCIP.batchDist t i j := by
  unfold RCIP.batchDist
  try simp only [h.n, h.nClusters, h.dim, h.nSamples]
  ref_all
macro_rules | `(tactic| ref_one) => `(tactic| (with_reducible apply RCIP.batchDist_ref))

theorem RCIP.paramBatch_ref (l : List ℤ) (hA : A ⊑ A') : RCIP.paramBatch A l ⊑ RCIP.paramBatch A' l := by
  unfold RCIP.paramBatch
  rw [hA.1]
  ref_all
  exact list_refl arr_refl _
macro_rules | `(tactic| ref_one) => `(tactic| (with_reducible apply RCIP.paramBatch_ref))

theorem RCIP.evaluate_ref  : RCIP.evaluate ⊑ RCIP.evaluate := by
  unfold RCIP.evaluate
  ref_all
macro_rules | `(tactic| ref_one) => `(tactic| (with_reducible apply RCIP.evaluate_ref))

theorem RCIPmod_ref : ModRef RCIPmod fun _ => True :=
  ⟨fun _ _ i h => RCIP.incBody_ref i h, fun _ _ l h => RCIP.paramBatch_ref l h, fun _ _ h _ e _ => of_ref RCIP.evaluate_ref h e⟩

end Verif
