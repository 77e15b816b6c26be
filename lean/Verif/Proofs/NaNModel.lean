import Verif.Proofs.NaN

/-! # The methods of the nine classes respect `⊑` -/

namespace Verif
open Py

macro_rules | `(tactic| ref_one) => `(tactic| ref_set)

section
variable {s t : Core} {x x' y y' z z' : Vec} {a a' : XR}

theorem runningMean_ref (n : ℕ) (hx : x ⊑ x') (hy : y ⊑ y') : runningMean n x y ⊑ runningMean n x' y' := by
  unfold runningMean; ref_all
macro_rules | `(tactic| ref_one) => `(tactic| (with_reducible apply runningMean_ref))

theorem compactnessNew_ref (n : ℕ) (ha : a ⊑ a') (hx : x ⊑ x') (hy : y ⊑ y') (hz : z ⊑ z') :
    compactnessNew a n x y z ⊑ compactnessNew a' n x' y' z' := by
  unfold compactnessNew; ref_all
macro_rules | `(tactic| ref_one) => `(tactic| (with_reducible apply compactnessNew_ref))

theorem gNew_ref (n : ℕ) (hx : x ⊑ x') (hy : y ⊑ y') (hz : z ⊑ z') : gNew n x y z ⊑ gNew n x' y' z' := by
  unfold gNew; ref_all
macro_rules | `(tactic| ref_one) => `(tactic| (with_reducible apply gNew_ref))

variable {f g : ℕ → Except PyErr XR}

theorem columnNew_ref (k : ℕ) (h : ∀ i, f i ⊑ g i) : columnNew k f ⊑ columnNew k g := by
  unfold columnNew
  exact bind_ref (mapE_same h) fun _ _ h => pure_ref (append_ref h (vec_refl _))
macro_rules | `(tactic| ref_one) => `(tactic| (with_reducible refine columnNew_ref _ fun _ => ?_))

theorem columnOld_ref (k i : ℕ) (h : ∀ i, f i ⊑ g i) : columnOld k i f ⊑ columnOld k i g := by
  unfold columnOld
  exact mapE_same fun j => ite_ref' (ok_ref (xr_refl _)) (h j)
macro_rules | `(tactic| ref_one) => `(tactic| (with_reducible refine columnOld_ref _ _ fun _ => ?_))

variable {D D' : Arr2}

theorem enlarge_ref (k : ℕ) (h : D ⊑ D') : enlarge k D ⊑ enlarge k D' := by
  unfold enlarge
  exact bind_ref (abroadcast_ref h rfl rfl) fun _ _ h => pure_ref (arr_mk rfl
    (append_ref (map_ref h.2 fun _ _ h => append_ref h (vec_refl _)) (list_refl vec_refl _)))
macro_rules | `(tactic| ref_one) => `(tactic| (with_reducible apply enlarge_ref))

theorem setCross_ref (i : ℕ) (h : D ⊑ D') (hx : x ⊑ x') (hy : y ⊑ y') : setCross D i x y ⊑ setCross D' i x' y' := by
  unfold setCross; ref_all
macro_rules | `(tactic| ref_one) => `(tactic| (with_reducible apply setCross_ref))

theorem distNew_ref (k i : ℕ) (h : D ⊑ D') (hf : ∀ i, f i ⊑ g i) : distNew k i D f ⊑ distNew k i D' g := by
  unfold distNew
  ref_all
  exact hf _
macro_rules | `(tactic| ref_one) => `(tactic| (with_reducible refine distNew_ref _ _ ?_ fun _ => ?_))

theorem appendN_ref (n : ℕ) : (appendN n : Py Core Unit) ⊑ appendN n := by unfold appendN; ref_all
macro_rules | `(tactic| ref_one) => `(tactic| (with_reducible apply appendN_ref))
theorem appendCP_ref (h : a ⊑ a') : appendCP a ⊑ appendCP a' := by unfold appendCP; ref_all
macro_rules | `(tactic| ref_one) => `(tactic| (with_reducible apply appendCP_ref))
theorem vstackV_ref (h : x ⊑ x') : vstackV x ⊑ vstackV x' := by unfold vstackV; ref_all
macro_rules | `(tactic| ref_one) => `(tactic| (with_reducible apply vstackV_ref))
theorem vstackG_ref (h : x ⊑ x') : vstackG x ⊑ vstackG x' := by unfold vstackG; ref_all
macro_rules | `(tactic| ref_one) => `(tactic| (with_reducible apply vstackG_ref))
theorem incClusters_ref : (incClusters : Py Core Unit) ⊑ incClusters := by
  unfold incClusters
  refine py_modify fun s t h => ?_
  exact { h with nClusters := by rw [h.nClusters] }
macro_rules | `(tactic| ref_one) => `(tactic| (with_reducible apply incClusters_ref))
theorem setN_ref (i : ℕ) {n n' : ℕ} (h : n = n') : (setN i n : Py Core Unit) ⊑ setN i n' := by unfold setN; subst h; ref_all
macro_rules | `(tactic| ref_one) => `(tactic| (with_reducible apply setN_ref))
theorem setV_ref (i : ℕ) (h : x ⊑ x') : setV i x ⊑ setV i x' := by unfold setV; ref_all
macro_rules | `(tactic| ref_one) => `(tactic| (with_reducible apply setV_ref))
theorem setCP_ref (i : ℕ) (h : a ⊑ a') : setCP i a ⊑ setCP i a' := by unfold setCP; ref_all
macro_rules | `(tactic| ref_one) => `(tactic| (with_reducible apply setCP_ref))
theorem setG_ref (i : ℕ) (h : x ⊑ x') : setG i x ⊑ setG i x' := by unfold setG; ref_all
macro_rules | `(tactic| ref_one) => `(tactic| (with_reducible apply setG_ref))
theorem setD_ref (i : ℕ) (h : x ⊑ x') : setD i x ⊑ setD i x' := by unfold setD; ref_all
macro_rules | `(tactic| ref_one) => `(tactic| (with_reducible apply setD_ref))

theorem baseSetup_ref (h : x ⊑ x') : Base.setup x ⊑ Base.setup x' := by
  unfold Base.setup
  rw [length_ref h]
  ref_all
macro_rules | `(tactic| ref_one) => `(tactic| (with_reducible apply baseSetup_ref))

theorem baseSetupBatch_ref (h : D ⊑ D') : Base.setupBatch D ⊑ Base.setupBatch D' := by
  unfold Base.setupBatch
  rw [rows_length h, h.1]
  ref_all
macro_rules | `(tactic| ref_one) => `(tactic| (with_reducible apply baseSetupBatch_ref))

theorem setupOrMu_ref {u : Vec → Py Core Unit} (hu : ∀ x x', x ⊑ x' → u x ⊑ u x') (h : x ⊑ x') : setupOrMu u x ⊑ setupOrMu u x' := by
  unfold setupOrMu
  ref_all
  exact hu _ _ h

theorem setupIfFirst_ref {u : Vec → Py Core Unit} (hu : ∀ x x', x ⊑ x' → u x ⊑ u x') (h : x ⊑ x') :
    setupIfFirst u x ⊑ setupIfFirst u x' := by
  unfold setupIfFirst
  ref_all
  exact hu _ _ h

instance : Ref OldStats := ⟨fun p q => p.nNew = q.nNew ∧ p.vNew ⊑ q.vNew ∧ p.cpNew ⊑ q.cpNew ∧ p.gNew ⊑ q.gNew⟩

theorem oldStats_ref (i : ℕ) (hx : x ⊑ x') (h : CoreRef s t) : oldStats x i s ⊑ oldStats x' i t := by
  unfold oldStats
  simp only [h.n]
  ref_all
  exact ⟨rfl, by assumption, by assumption, by assumption⟩
macro_rules | `(tactic| ref_one) => `(tactic| (with_reducible apply oldStats_ref))

theorem batchScatter_ref (hD : D ⊑ D') (hx : x ⊑ x') : batchScatter D x ⊑ batchScatter D' x' := by
  unfold batchScatter; ref_all
macro_rules | `(tactic| ref_one) => `(tactic| (with_reducible apply batchScatter_ref))

end

/-- The methods of a class respect `⊑`, the evaluation where `P` holds of the final state. -/
structure ModRef (M : Module) (P : Core → Prop) : Prop where
  inc : ∀ x x' i, x ⊑ x' → M.incBody x i ⊑ M.incBody x' i
  batch : ∀ A A' l, A ⊑ A' → M.paramBatch A l ⊑ M.paramBatch A' l
  evaluate : ∀ s t, CoreRef s t → ∀ s', M.evaluate s = .ok () s' → P s' → ∃ t', M.evaluate t = .ok () t' ∧ CoreRef s' t'

theorem of_ref {x y : Py Core Unit} (h : x ⊑ y) {s t s' : Core} (hs : CoreRef s t) (e : x s = .ok () s') :
    ∃ t', y t = .ok () t' ∧ CoreRef s' t' := by
  obtain ⟨_, t', h1, _, h2⟩ := h s t hs () s' e
  exact ⟨t', h1, h2⟩

theorem nNew_ref {p q : OldStats} (h : p ⊑ q) : p.nNew = q.nNew := h.1
theorem vNew_ref {p q : OldStats} (h : p ⊑ q) : p.vNew ⊑ q.vNew := h.2.1
theorem cpNew_ref {p q : OldStats} (h : p ⊑ q) : p.cpNew ⊑ q.cpNew := h.2.2.1
theorem gNew'_ref {p q : OldStats} (h : p ⊑ q) : p.gNew ⊑ q.gNew := h.2.2.2
macro_rules | `(tactic| ref_one) => `(tactic| (with_reducible apply nNew_ref))
macro_rules | `(tactic| ref_one) => `(tactic| (with_reducible apply vNew_ref))
macro_rules | `(tactic| ref_one) => `(tactic| (with_reducible apply cpNew_ref))
macro_rules | `(tactic| ref_one) => `(tactic| (with_reducible apply gNew'_ref))

end Verif
