import Verif.Props.AnyArithExact
import Mathlib.Analysis.Real.Pi.Bounds

/-!
# C67: rCIP and the number of features

rCIP.py:77 and 166 compute `1 / np.sqrt((2 * np.pi) ** dim)`.  `2 * np.pi` is a Python float and `dim` a Python int, so a power that is
too large for float64 raises OverflowError, instead of giving `inf` as numpy's own power does.
-/

namespace Verif.Gen
open Py

variable {F : Type} [Arith F] {d : ℕ}

/-- The power `(2 * np.pi) ** d` of Python floats: it raises exactly if it reaches `2 ^ 1024`, the first power of two that is not a
float64.  (The rounding at that border does not matter: no `d` comes near it, see `pow_border`.) -/
def Power64 (F : Type) [Arith F] : Prop := ∀ d : ℕ,
  if (2 : ℝ) ^ 1024 ≤ (2 * Real.pi) ^ d then Arith.normConst (F := F) d = .error .overflowError
  else ∃ k : F, Arith.normConst d = .ok k

set_option exponentiation.threshold 1100 in
theorem pow_border : 4 * (2 : ℝ) ^ 1024 ≤ (2 * Real.pi) ^ 387 ∧ (2 * Real.pi) ^ 386 ≤ (7 / 10) * (2 : ℝ) ^ 1024 := by
  have h1 : (628318 / 100000 : ℝ) ≤ 2 * Real.pi := by linarith [Real.pi_gt_d6]
  have h2 : 2 * Real.pi ≤ (628319 / 100000 : ℝ) := by linarith [Real.pi_lt_d6]
  have h0 : (0 : ℝ) ≤ 2 * Real.pi := by positivity
  constructor
  · exact le_trans (by norm_num) (pow_le_pow_left₀ (by norm_num) h1 387)
  · exact le_trans (pow_le_pow_left₀ h0 h2 386) (by norm_num)

set_option exponentiation.threshold 1100 in
theorem pow_iff (d : ℕ) : (2 : ℝ) ^ 1024 ≤ (2 * Real.pi) ^ d ↔ 387 ≤ d := by
  have h1 : (1 : ℝ) ≤ 2 * Real.pi := by linarith [Real.pi_gt_three]
  have h2 : (0 : ℝ) < (2 : ℝ) ^ 1024 := by positivity
  constructor
  · intro h
    by_contra hd
    have := le_trans (pow_le_pow_right₀ h1 (show d ≤ 386 by omega)) pow_border.2
    linarith
  · intro h
    exact le_trans (by linarith [pow_border.1]) (pow_le_pow_right₀ h1 h)

/-- **C67** fails: with 387 or more features, an rCIP object that has seen no sample raises OverflowError for every sample and label,
and has still seen no sample afterwards: no sequence of samples is ever accepted. -/
theorem C67_rCIP_overflow (hF : Power64 F) {x : List F} (hx : 387 ≤ x.length) (c : ℤ) (o : Obj F)
    (ho : o.core.nSamples = 0) :
    ∃ o', getCvi (mod F .rCIP) (.d1 x) (.int c) o = .err .overflowError o' ∧ o'.core.nSamples = 0 := by
  have hk : Arith.normConst (F := F) x.length = .error .overflowError := by
    have := hF x.length
    rwa [if_pos ((pow_iff _).mpr hx)] at this
  have h0 : x.length ≠ 0 := by omega
  have hs : ∀ s : Core F, s.nSamples = 0 → ∃ s', RCIP.setup x s = .ok () s' ∧ s'.nSamples = 0 ∧ s'.dim = x.length := by
    intro s hs
    refine ⟨{ s with
      dim := x.length
      v := Arr2.zeros 0 x.length
      G := some (Arr2.zeros 0 x.length)
      isSetup := true
      sigma := []
      sigmaShape := (x.length, x.length)
      deltaTerm := ridge x.length }, ?_, hs, rfl⟩
    rw [RCIP.setup]
    refine bind_ok_of rfl (modify_bind (get_bind ?_))
    refine lift_bind (a := ridge x.length) ?_ rfl
    exact if_neg h0
  have hb : ∀ (s : Core F) (i : ℕ), s.nSamples = 0 →
      ∃ s', RCIP.incBody x i s = .err .overflowError s' ∧ s'.nSamples = 0 := by
    intro s i h
    obtain ⟨s1, h1, h2, h3⟩ := hs s h
    refine ⟨s1, ?_, h2⟩
    rw [RCIP.incBody]
    refine get_bind (bind_ok_of (s1 := s1) (a := ()) ?_ (get_bind (lift_err ?_)))
    · rw [setupIfFirst]
      exact get_bind (by rw [if_pos h]; exact h1)
    · rw [h3, hk]
  obtain ⟨s', h1, h2⟩ := hb o.core (o.labelMap.getInternalLabel c).1 ho
  refine ⟨⟨(o.labelMap.getInternalLabel c).2, s'⟩, ?_, h2⟩
  have e : (mod F .rCIP).update (.d1 x) (.int c) o = .err .overflowError ⟨(o.labelMap.getInternalLabel c).2, s'⟩ := by
    simp only [Module.update, Module.paramInc]
    rw [if_neg (by simp [mod, RCIPmod])]
    show onCore (RCIP.incBody x _) _ = _
    simp only [onCore, h1, Res.mapState]
  rw [getCvi, bind_apply, e]
  rfl

/-- Batch mode: a fresh object rejects every batch, whatever the labels. -/
theorem C67_rCIP_overflow_batch (hF : Power64 F) {a : Arr2 F} (ha : 387 ≤ a.cols) {l : List ℤ} (hl : (LabelArg.arr l).numUnique > 1)
    (o : Obj F) (ho : o.core.isSetup = false) :
    ∃ o', getCvi (mod F .rCIP) (.d2 a) (.arr l) o = .err .overflowError o' := by
  have hk : Arith.normConst (F := F) a.cols = .error .overflowError := by
    have := hF a.cols
    rwa [if_pos ((pow_iff _).mpr ha)] at this
  have h0 : a.cols ≠ 0 := by omega
  have hb : ∃ s', RCIP.paramBatch a l o.core = .err .overflowError s' := by
    refine ⟨{ o.core with
      nSamples := a.rows.length
      dim := a.cols
      isSetup := true
      deltaTerm := ridge a.cols }, ?_⟩
    rw [RCIP.paramBatch]
    refine bind_ok_of rfl ?_
    refine lift_bind (a := ridge a.cols) (if_neg h0) (modify_bind ?_)
    exact lift_err hk
  obtain ⟨s', h1⟩ := hb
  refine ⟨⟨o.labelMap, s'⟩, ?_⟩
  have e : (mod F .rCIP).update (.d2 a) (.arr l) o = .err .overflowError ⟨o.labelMap, s'⟩ := by
    simp only [Module.update]
    rw [if_pos ho, if_neg (by simpa using hl), if_neg (by simp [mod, RCIPmod])]
    show onCore (RCIP.paramBatch a l) o = _
    simp only [onCore, h1, Res.mapState]
  rw [getCvi, bind_apply, e]
  rfl

/-- What remains of **C67**: with 1 to 386 features no sequence of samples meets the overflow; an exception can only come from
`np.linalg.det` or `np.linalg.inv` of the sum of the covariances of two clusters of the samples so far. -/
theorem C67_rCIP_features_partial (hF : Power64 F) (hi : InvShape F d) (h1 : 0 < d) (hd : d ≤ 386) (S : Samples F) (hS : S.Dim d) :
    (∃ vs, (feed (mod F .rCIP) S (mod F .rCIP).fresh).val = .ok vs ∧ List.Forall₂ (Returns d .rCIP) S.inits.tail vs) ∨
      ∃ e, (feed (mod F .rCIP) S (mod F .rCIP).fresh).val = .error e ∧
        ∃ P, P <+: S ∧ ∃ A : Arr2 F, Summed d P A ∧ (Arith.det A = .error e ∨ Arith.inv A = .error e) := by
  obtain ⟨k, hk⟩ : ∃ k : F, Arith.normConst d = .ok k := by
    have := hF d
    rwa [if_neg (by rw [pow_iff]; omega)] at this
  rcases C62_rCIP hi S hS with h | ⟨e, h, P, hP, ⟨h0, -⟩ | hE | hE⟩
  · exact Or.inl h
  · omega
  · rw [hk] at hE; cases hE
  · exact Or.inr ⟨e, h, P, hP, hE⟩

/-! The hypotheses can be met: exact arithmetic, but with the power of float64. -/

/-- The floats of the exact model. -/
def XR64 : Type := XR

open Classical in
noncomputable instance : Arith XR64 :=
  { (inferInstanceAs (Arith XR) : Arith XR) with
    normConst := fun d => if (2 : ℝ) ^ 1024 ≤ (2 * Real.pi) ^ d then .error .overflowError
      else .ok (XR.fin 1 / XR.sqrt (.fin ((2 * Real.pi) ^ d))) }

theorem XR64.power : Power64 XR64 := by
  intro d
  by_cases h : (2 : ℝ) ^ 1024 ≤ (2 * Real.pi) ^ d
  · rw [if_pos h]; exact if_pos h
  · rw [if_neg h]; exact ⟨_, if_neg h⟩

theorem XR64.invShape (d : ℕ) : InvShape XR64 d := fun A B => XR.invShape d A B

/-- The zero vector of 387 features. -/
example (c : ℤ) : ∃ o', getCvi (mod XR64 .rCIP) (.d1 (List.replicate 387 0)) (.int c) (mod XR64 .rCIP).fresh =
    .err .overflowError o' ∧ o'.core.nSamples = 0 :=
  C67_rCIP_overflow XR64.power List.length_replicate.ge c _ rfl

example : ∃ o', getCvi (mod XR64 .rCIP) (.d2 ⟨400, [List.replicate 400 0, List.replicate 400 0]⟩) (.arr [0, 1]) (mod XR64 .rCIP).fresh =
    .err .overflowError o' :=
  C67_rCIP_overflow_batch XR64.power (by simp) (by decide) _ rfl

/-- One sample of 386 features: there are no two clusters, so nothing is raised. -/
example : ∃ vs, (feed (mod XR64 .rCIP) [(List.replicate 386 0, 7)] (mod XR64 .rCIP).fresh).val = .ok vs ∧
    List.Forall₂ (Returns 386 .rCIP) [[((List.replicate 386 0 : List XR64), 7)]] vs := by
  have hS : Samples.Dim 386 [((List.replicate 386 0 : List XR64), (7 : ℤ))] := by
    intro p hp; rw [List.mem_singleton.mp hp]; exact List.length_replicate
  rcases C67_rCIP_features_partial XR64.power (XR64.invShape 386) (by simp) (by simp) _ hS with h | ⟨e, -, P, hP, A, ⟨a, ha, b, hb, hab, -⟩, -⟩
  · exact h
  · obtain ⟨x, hx⟩ := (mem_order P).mp ha
    obtain ⟨y, hy⟩ := (mem_order P).mp hb
    have h1 := congrArg Prod.snd (List.mem_singleton.mp (hP.subset hx))
    have h2 := congrArg Prod.snd (List.mem_singleton.mp (hP.subset hy))
    exact absurd (h1.trans h2.symm) hab

end Verif.Gen
