import Verif.Proofs.NaNModel

/-! # CH, WB and XB respect `⊑` -/

set_option linter.unusedSimpArgs false

namespace Verif
open Py

variable {s t : Core} {x x' : Vec} {A A' : Arr2} {a a' : XR}

/-! ## CH -/

theorem CH.setup_ref (hx : x ⊑ x') : CH.setup x ⊑ CH.setup x' := by
  unfold CH.setup
  ref_all
macro_rules | `(tactic| ref_one) => `(tactic| (with_reducible apply CH.setup_ref))

theorem CH.sepEntry_ref (h : CoreRef s t) (i : ℕ) : CH.sepEntry s i ⊑ CH.sepEntry t i := by
  unfold CH.sepEntry
  try simp only [h.n, h.nClusters, h.dim, h.nSamples]
  ref_all
macro_rules | `(tactic| ref_one) => `(tactic| (with_reducible apply CH.sepEntry_ref))

theorem CH.finish_ref (n : ℕ) : CH.finish n ⊑ CH.finish n := by
  unfold CH.finish
  ref_all
macro_rules | `(tactic| ref_one) => `(tactic| (with_reducible apply CH.finish_ref))

theorem CH.incNew_ref (hx : x ⊑ x') : CH.incNew x ⊑ CH.incNew x' := by
  unfold CH.incNew
  ref_all
macro_rules | `(tactic| ref_one) => `(tactic| (with_reducible apply CH.incNew_ref))

theorem CH.incOld_ref (i : ℕ) (hx : x ⊑ x') : CH.incOld x i ⊑ CH.incOld x' i := by
  unfold CH.incOld
  ref_all
macro_rules | `(tactic| ref_one) => `(tactic| (with_reducible apply CH.incOld_ref))

macro_rules | `(tactic| ref_one) => `(tactic| (with_reducible exact setupOrMu_ref (fun _ _ h => CH.setup_ref h) (by assumption)))

theorem CH.incBody_ref (i : ℕ) (hx : x ⊑ x') : CH.incBody x i ⊑ CH.incBody x' i := by
  unfold CH.incBody
  ref_all
macro_rules | `(tactic| ref_one) => `(tactic| (with_reducible apply CH.incBody_ref))

theorem CH.batchStep_ref (l : List ℤ) (i : ℕ) (hA : A ⊑ A') : CH.batchStep A l i ⊑ CH.batchStep A' l i := by
  unfold CH.batchStep
  ref_all
macro_rules | `(tactic| ref_one) => `(tactic| (with_reducible apply CH.batchStep_ref))

theorem CH.paramBatch_ref (l : List ℤ) (hA : A ⊑ A') : CH.paramBatch A l ⊑ CH.paramBatch A' l := by
  unfold CH.paramBatch
  ref_all
macro_rules | `(tactic| ref_one) => `(tactic| (with_reducible apply CH.paramBatch_ref))

theorem CH.evaluate_ref  : CH.evaluate ⊑ CH.evaluate := by
  unfold CH.evaluate
  ref_all
macro_rules | `(tactic| ref_one) => `(tactic| (with_reducible apply CH.evaluate_ref))

theorem CHmod_ref : ModRef CHmod fun _ => True :=
  ⟨fun _ _ i h => CH.incBody_ref i h, fun _ _ l h => CH.paramBatch_ref l h, fun _ _ h _ e _ => of_ref CH.evaluate_ref h e⟩

/-! ## WB -/

theorem WB.setup_ref (hx : x ⊑ x') : WB.setup x ⊑ WB.setup x' := by
  unfold WB.setup
  ref_all
macro_rules | `(tactic| ref_one) => `(tactic| (with_reducible apply WB.setup_ref))

theorem WB.sepEntry_ref (h : CoreRef s t) (i : ℕ) : WB.sepEntry s i ⊑ WB.sepEntry t i := by
  unfold WB.sepEntry
  try simp only [h.n, h.nClusters, h.dim, h.nSamples]
  ref_all
macro_rules | `(tactic| ref_one) => `(tactic| (with_reducible apply WB.sepEntry_ref))

theorem WB.finish_ref (n : ℕ) : WB.finish n ⊑ WB.finish n := by
  unfold WB.finish
  ref_all
macro_rules | `(tactic| ref_one) => `(tactic| (with_reducible apply WB.finish_ref))

theorem WB.incNew_ref (hx : x ⊑ x') : WB.incNew x ⊑ WB.incNew x' := by
  unfold WB.incNew
  ref_all
macro_rules | `(tactic| ref_one) => `(tactic| (with_reducible apply WB.incNew_ref))

theorem WB.incOld_ref (i : ℕ) (hx : x ⊑ x') : WB.incOld x i ⊑ WB.incOld x' i := by
  unfold WB.incOld
  ref_all
macro_rules | `(tactic| ref_one) => `(tactic| (with_reducible apply WB.incOld_ref))

macro_rules | `(tactic| ref_one) => `(tactic| (with_reducible exact setupOrMu_ref (fun _ _ h => WB.setup_ref h) (by assumption)))

theorem WB.incBody_ref (i : ℕ) (hx : x ⊑ x') : WB.incBody x i ⊑ WB.incBody x' i := by
  unfold WB.incBody
  ref_all
macro_rules | `(tactic| ref_one) => `(tactic| (with_reducible apply WB.incBody_ref))

theorem WB.batchStep_ref (l : List ℤ) (i : ℕ) (hA : A ⊑ A') : WB.batchStep A l i ⊑ WB.batchStep A' l i := by
  unfold WB.batchStep
  ref_all
macro_rules | `(tactic| ref_one) => `(tactic| (with_reducible apply WB.batchStep_ref))

theorem WB.paramBatch_ref (l : List ℤ) (hA : A ⊑ A') : WB.paramBatch A l ⊑ WB.paramBatch A' l := by
  unfold WB.paramBatch
  ref_all
macro_rules | `(tactic| ref_one) => `(tactic| (with_reducible apply WB.paramBatch_ref))

theorem WB.evaluate_ref  : WB.evaluate ⊑ WB.evaluate := by
  unfold WB.evaluate
  ref_all
macro_rules | `(tactic| ref_one) => `(tactic| (with_reducible apply WB.evaluate_ref))

theorem WBmod_ref : ModRef WBmod fun _ => True :=
  ⟨fun _ _ i h => WB.incBody_ref i h, fun _ _ l h => WB.paramBatch_ref l h, fun _ _ h _ e _ => of_ref WB.evaluate_ref h e⟩

/-! ## XB -/

theorem XB.setup_ref (hx : x ⊑ x') : XB.setup x ⊑ XB.setup x' := by
  unfold XB.setup
  ref_all
macro_rules | `(tactic| ref_one) => `(tactic| (with_reducible apply XB.setup_ref))

theorem XB.dist_ref (h : CoreRef s t) (hx : x ⊑ x') (j : ℕ) : XB.dist s x j ⊑ XB.dist t x' j := by
  unfold XB.dist
  try simp only [h.n, h.nClusters, h.dim, h.nSamples]
  ref_all
macro_rules | `(tactic| ref_one) => `(tactic| (with_reducible apply XB.dist_ref))

theorem XB.incNew_ref (i : ℕ) (hx : x ⊑ x') : XB.incNew x i ⊑ XB.incNew x' i := by
  unfold XB.incNew
  ref_all
macro_rules | `(tactic| ref_one) => `(tactic| (with_reducible apply XB.incNew_ref))

theorem XB.incOld_ref (i : ℕ) (hx : x ⊑ x') : XB.incOld x i ⊑ XB.incOld x' i := by
  unfold XB.incOld
  ref_all
macro_rules | `(tactic| ref_one) => `(tactic| (with_reducible apply XB.incOld_ref))

macro_rules | `(tactic| ref_one) => `(tactic| (with_reducible exact setupOrMu_ref (fun _ _ h => XB.setup_ref h) (by assumption)))

theorem XB.incBody_ref (i : ℕ) (hx : x ⊑ x') : XB.incBody x i ⊑ XB.incBody x' i := by
  unfold XB.incBody
  ref_all
macro_rules | `(tactic| ref_one) => `(tactic| (with_reducible apply XB.incBody_ref))

theorem XB.batchStep_ref (l : List ℤ) (i : ℕ) (hA : A ⊑ A') : XB.batchStep A l i ⊑ XB.batchStep A' l i := by
  unfold XB.batchStep
  ref_all
macro_rules | `(tactic| ref_one) => `(tactic| (with_reducible apply XB.batchStep_ref))

theorem XB.batchDist_ref (h : CoreRef s t) (i j : ℕ) : XB.batchDist s i j ⊑ XB.batchDist t i j := by
  unfold XB.batchDist
  try simp only [h.n, h.nClusters, h.dim, h.nSamples]
  ref_all
macro_rules | `(tactic| ref_one) => `(tactic| (with_reducible apply XB.batchDist_ref))

theorem XB.paramBatch_ref (l : List ℤ) (hA : A ⊑ A') : XB.paramBatch A l ⊑ XB.paramBatch A' l := by
  unfold XB.paramBatch
  ref_all
macro_rules | `(tactic| ref_one) => `(tactic| (with_reducible apply XB.paramBatch_ref))

theorem XB.evaluate_ref  : XB.evaluate ⊑ XB.evaluate := by
  unfold XB.evaluate
  ref_all
macro_rules | `(tactic| ref_one) => `(tactic| (with_reducible apply XB.evaluate_ref))

theorem XBmod_ref : ModRef XBmod fun _ => True :=
  ⟨fun _ _ i h => XB.incBody_ref i h, fun _ _ l h => XB.paramBatch_ref l h, fun _ _ h _ e _ => of_ref XB.evaluate_ref h e⟩

end Verif
