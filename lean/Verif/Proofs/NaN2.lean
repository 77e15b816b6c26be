import Verif.Proofs.NaNModel

/-! # DB, GD43 and GD53 respect `⊑` -/

set_option linter.unusedSimpArgs false

namespace Verif
open Py

variable {s t : Core} {x x' : Vec} {A A' : Arr2} {a a' : XR}

/-! ## DB -/

theorem DB.setup_ref (hx : x ⊑ x') : DB.setup x ⊑ DB.setup x' := by
  unfold DB.setup
  ref_all
macro_rules | `(tactic| ref_one) => `(tactic| (with_reducible apply DB.setup_ref))

theorem DB.dist_ref (h : CoreRef s t) (hx : x ⊑ x') (j : ℕ) : DB.dist s x j ⊑ DB.dist t x' j := by
  unfold DB.dist
  try simp only [h.n, h.nClusters, h.dim, h.nSamples]
  ref_all
macro_rules | `(tactic| ref_one) => `(tactic| (with_reducible apply DB.dist_ref))

theorem DB.appendS_ref (ha : a ⊑ a') : DB.appendS a ⊑ DB.appendS a' := by
  unfold DB.appendS
  ref_all
macro_rules | `(tactic| ref_one) => `(tactic| (with_reducible apply DB.appendS_ref))

theorem DB.setS_ref (i : ℕ) (ha : a ⊑ a') : DB.setS i a ⊑ DB.setS i a' := by
  unfold DB.setS
  ref_all
macro_rules | `(tactic| ref_one) => `(tactic| (with_reducible apply DB.setS_ref))

theorem DB.ratio_ref (h : CoreRef s t) (i j : ℕ) : DB.ratio s i j ⊑ DB.ratio t i j := by
  unfold DB.ratio
  try simp only [h.n, h.nClusters, h.dim, h.nSamples]
  ref_all
macro_rules | `(tactic| ref_one) => `(tactic| (with_reducible apply DB.ratio_ref))

theorem DB.ratios_ref (h : CoreRef s t) : DB.ratios s ⊑ DB.ratios t := by
  unfold DB.ratios
  try simp only [h.n, h.nClusters, h.dim, h.nSamples]
  ref_all
macro_rules | `(tactic| ref_one) => `(tactic| (with_reducible apply DB.ratios_ref))

theorem DB.incNew_ref (i : ℕ) (hx : x ⊑ x') : DB.incNew x i ⊑ DB.incNew x' i := by
  unfold DB.incNew
  ref_all
macro_rules | `(tactic| ref_one) => `(tactic| (with_reducible apply DB.incNew_ref))

theorem DB.incOld_ref (i : ℕ) (hx : x ⊑ x') : DB.incOld x i ⊑ DB.incOld x' i := by
  unfold DB.incOld
  ref_all
macro_rules | `(tactic| ref_one) => `(tactic| (with_reducible apply DB.incOld_ref))

macro_rules | `(tactic| ref_one) => `(tactic| (with_reducible exact setupOrMu_ref (fun _ _ h => DB.setup_ref h) (by assumption)))

theorem DB.incBody_ref (i : ℕ) (hx : x ⊑ x') : DB.incBody x i ⊑ DB.incBody x' i := by
  unfold DB.incBody
  ref_all
macro_rules | `(tactic| ref_one) => `(tactic| (with_reducible apply DB.incBody_ref))

theorem DB.batchStep_ref (l : List ℤ) (i : ℕ) (hA : A ⊑ A') : DB.batchStep A l i ⊑ DB.batchStep A' l i := by
  unfold DB.batchStep
  ref_all
macro_rules | `(tactic| ref_one) => `(tactic| (with_reducible apply DB.batchStep_ref))

theorem DB.batchDist_ref (h : CoreRef s t) (i j : ℕ) : DB.batchDist s i j ⊑ DB.batchDist t i j := by
  unfold DB.batchDist
  try simp only [h.n, h.nClusters, h.dim, h.nSamples]
  ref_all
macro_rules | `(tactic| ref_one) => `(tactic| (with_reducible apply DB.batchDist_ref))

theorem DB.paramBatch_ref (l : List ℤ) (hA : A ⊑ A') : DB.paramBatch A l ⊑ DB.paramBatch A' l := by
  unfold DB.paramBatch
  ref_all
macro_rules | `(tactic| ref_one) => `(tactic| (with_reducible apply DB.paramBatch_ref))

theorem DB.evaluate_ref  : DB.evaluate ⊑ DB.evaluate := by
  unfold DB.evaluate
  refine py_get_bind fun s t h => ?_
  rw [h.nClusters]
  refine ite_ref' (py_bind (py_lift (DB.ratios_ref h)) fun R R' hR => ?_) (by ref_all)
  rw [hR.1]
  ref_all
macro_rules | `(tactic| ref_one) => `(tactic| (with_reducible apply DB.evaluate_ref))

theorem DBmod_ref : ModRef DBmod fun _ => True :=
  ⟨fun _ _ i h => DB.incBody_ref i h, fun _ _ l h => DB.paramBatch_ref l h, fun _ _ h _ e _ => of_ref DB.evaluate_ref h e⟩

/-! ## GD43 -/

theorem GD43.setup_ref (hx : x ⊑ x') : GD43.setup x ⊑ GD43.setup x' := by
  unfold GD43.setup
  ref_all
macro_rules | `(tactic| ref_one) => `(tactic| (with_reducible apply GD43.setup_ref))

theorem GD43.dist_ref (h : CoreRef s t) (hx : x ⊑ x') (j : ℕ) : GD43.dist s x j ⊑ GD43.dist t x' j := by
  unfold GD43.dist
  try simp only [h.n, h.nClusters, h.dim, h.nSamples]
  ref_all
macro_rules | `(tactic| ref_one) => `(tactic| (with_reducible apply GD43.dist_ref))

theorem GD43.maxScatter_ref (n : List ℕ) (hx : x ⊑ x') : GD43.maxScatter x n ⊑ GD43.maxScatter x' n := by
  unfold GD43.maxScatter
  exact bind_ref (bin_ref div_ref hx (vec_refl _)) fun _ _ h => amax_ref h
macro_rules | `(tactic| ref_one) => `(tactic| (with_reducible apply GD43.maxScatter_ref))

theorem GD43.minUpper_ref (k : ℕ) (hA : A ⊑ A') : GD43.minUpper k A ⊑ GD43.minUpper k A' := by
  unfold GD43.minUpper
  rw [rows_length hA, hA.1]
  ref_all
macro_rules | `(tactic| ref_one) => `(tactic| (with_reducible apply GD43.minUpper_ref))

theorem GD43.incNew_ref (i : ℕ) (hx : x ⊑ x') : GD43.incNew x i ⊑ GD43.incNew x' i := by
  unfold GD43.incNew
  ref_all
macro_rules | `(tactic| ref_one) => `(tactic| (with_reducible apply GD43.incNew_ref))

theorem GD43.incOld_ref (i : ℕ) (hx : x ⊑ x') : GD43.incOld x i ⊑ GD43.incOld x' i := by
  unfold GD43.incOld
  ref_all
macro_rules | `(tactic| ref_one) => `(tactic| (with_reducible apply GD43.incOld_ref))

macro_rules | `(tactic| ref_one) => `(tactic| (with_reducible exact setupOrMu_ref (fun _ _ h => GD43.setup_ref h) (by assumption)))

theorem GD43.incBody_ref (i : ℕ) (hx : x ⊑ x') : GD43.incBody x i ⊑ GD43.incBody x' i := by
  unfold GD43.incBody
  ref_all
macro_rules | `(tactic| ref_one) => `(tactic| (with_reducible apply GD43.incBody_ref))

theorem GD43.batchStep_ref (l : List ℤ) (i : ℕ) (hA : A ⊑ A') : GD43.batchStep A l i ⊑ GD43.batchStep A' l i := by
  unfold GD43.batchStep
  ref_all
macro_rules | `(tactic| ref_one) => `(tactic| (with_reducible apply GD43.batchStep_ref))

theorem GD43.batchDist_ref (h : CoreRef s t) (i j : ℕ) : GD43.batchDist s i j ⊑ GD43.batchDist t i j := by
  unfold GD43.batchDist
  try simp only [h.n, h.nClusters, h.dim, h.nSamples]
  ref_all
macro_rules | `(tactic| ref_one) => `(tactic| (with_reducible apply GD43.batchDist_ref))

theorem GD43.paramBatch_ref (l : List ℤ) (hA : A ⊑ A') : GD43.paramBatch A l ⊑ GD43.paramBatch A' l := by
  unfold GD43.paramBatch
  ref_all
macro_rules | `(tactic| ref_one) => `(tactic| (with_reducible apply GD43.paramBatch_ref))

theorem GD43.evaluate_ref  : GD43.evaluate ⊑ GD43.evaluate := by
  unfold GD43.evaluate
  ref_all
macro_rules | `(tactic| ref_one) => `(tactic| (with_reducible apply GD43.evaluate_ref))

theorem GD43mod_ref : ModRef GD43mod fun _ => True :=
  ⟨fun _ _ i h => GD43.incBody_ref i h, fun _ _ l h => GD43.paramBatch_ref l h, fun _ _ h _ e _ => of_ref GD43.evaluate_ref h e⟩

/-! ## GD53 -/

theorem GD53.setup_ref (hx : x ⊑ x') : GD53.setup x ⊑ GD53.setup x' := by
  unfold GD53.setup
  ref_all
macro_rules | `(tactic| ref_one) => `(tactic| (with_reducible apply GD53.setup_ref))

theorem GD53.dist_ref (h : CoreRef s t) (ha : a ⊑ a') {n n' : ℕ} (hn : n = n') (j : ℕ) : GD53.dist s a n j ⊑ GD53.dist t a' n' j := by
  subst hn
  unfold GD53.dist
  try simp only [h.n, h.nClusters, h.dim, h.nSamples]
  ref_all
macro_rules | `(tactic| ref_one) => `(tactic| (with_reducible apply GD53.dist_ref))

theorem GD53.incNew_ref (i : ℕ) (hx : x ⊑ x') : GD53.incNew x i ⊑ GD53.incNew x' i := by
  unfold GD53.incNew
  ref_all
macro_rules | `(tactic| ref_one) => `(tactic| (with_reducible apply GD53.incNew_ref))

theorem GD53.incOld_ref (i : ℕ) (hx : x ⊑ x') : GD53.incOld x i ⊑ GD53.incOld x' i := by
  unfold GD53.incOld
  ref_all
macro_rules | `(tactic| ref_one) => `(tactic| (with_reducible apply GD53.incOld_ref))

macro_rules | `(tactic| ref_one) => `(tactic| (with_reducible exact setupOrMu_ref (fun _ _ h => GD53.setup_ref h) (by assumption)))

theorem GD53.incBody_ref (i : ℕ) (hx : x ⊑ x') : GD53.incBody x i ⊑ GD53.incBody x' i := by
  unfold GD53.incBody
  ref_all
macro_rules | `(tactic| ref_one) => `(tactic| (with_reducible apply GD53.incBody_ref))

theorem GD53.batchStep_ref (l : List ℤ) (i : ℕ) (hA : A ⊑ A') : GD53.batchStep A l i ⊑ GD53.batchStep A' l i := by
  unfold GD53.batchStep
  ref_all
macro_rules | `(tactic| ref_one) => `(tactic| (with_reducible apply GD53.batchStep_ref))

theorem GD53.batchDist_ref (h : CoreRef s t) (i j : ℕ) : GD53.batchDist s i j ⊑ GD53.batchDist t i j := by
  unfold GD53.batchDist
  try simp only [h.n, h.nClusters, h.dim, h.nSamples]
  ref_all
macro_rules | `(tactic| ref_one) => `(tactic| (with_reducible apply GD53.batchDist_ref))

theorem GD53.paramBatch_ref (l : List ℤ) (hA : A ⊑ A') : GD53.paramBatch A l ⊑ GD53.paramBatch A' l := by
  unfold GD53.paramBatch
  ref_all
macro_rules | `(tactic| ref_one) => `(tactic| (with_reducible apply GD53.paramBatch_ref))

theorem GD53.evaluate_ref  : GD53.evaluate ⊑ GD53.evaluate := by
  unfold GD53.evaluate
  ref_all
macro_rules | `(tactic| ref_one) => `(tactic| (with_reducible apply GD53.evaluate_ref))

theorem GD53mod_ref : ModRef GD53mod fun _ => True :=
  ⟨fun _ _ i h => GD53.incBody_ref i h, fun _ _ l h => GD53.paramBatch_ref l h, fun _ _ h _ e _ => of_ref GD53.evaluate_ref h e⟩

end Verif
