import Verif.Model.Common
import Verif.Api
import Mathlib.Tactic.FieldSimp
import Mathlib.Tactic.Ring
import Mathlib.Tactic.Linarith
import Mathlib.Tactic.Positivity

/-!
# Encoding of real data as numpy arrays

`enc x` is the 1-D array with the (finite) entries of the point `x`.
-/

namespace Verif

open Spec

variable {d : ℕ}

@[simp] theorem enc_length (x : Pt d) : (enc x).length = d := by simp [enc]

theorem enc_congr {x y : Pt d} (h : ∀ i, x i = y i) : enc x = enc y := by
  have : x = y := funext h
  rw [this]

theorem zipWith_ofFn {α β γ : Type} {n : ℕ} (f : α → β → γ) (g : Fin n → α) (h : Fin n → β) :
    List.zipWith f (List.ofFn g) (List.ofFn h) = List.ofFn fun i => f (g i) (h i) := by
  apply List.ext_getElem
  · simp
  · intro i h1 h2; simp

theorem bin_enc (f : XR → XR → XR) (g : ℝ → ℝ → ℝ) (h : ∀ a b, f (.fin a) (.fin b) = .fin (g a b)) (x y : Pt d) :
    Vec.bin f (enc x) (enc y) = .ok (enc fun i => g (x i) (y i)) := by
  simp [Vec.bin, enc, zipWith_ofFn, h]

@[simp] theorem add_enc (x y : Pt d) : Vec.add (enc x) (enc y) = .ok (enc fun i => x i + y i) :=
  bin_enc _ (· + ·) (fun _ _ => rfl) x y

@[simp] theorem sub_enc (x y : Pt d) : Vec.sub (enc x) (enc y) = .ok (enc fun i => x i - y i) :=
  bin_enc _ (· - ·) (fun a b => XR.fin_sub a b) x y

@[simp] theorem smul_enc (a : ℝ) (x : Pt d) : Vec.smul (.fin a) (enc x) = enc fun i => a * x i := by
  simp only [Vec.smul, enc, List.map_ofFn]; rfl

theorem sum_ofFn_fin {n : ℕ} (f : Fin n → ℝ) : (List.ofFn fun i => XR.fin (f i)).sum = XR.fin (∑ i, f i) := by
  have : (List.ofFn fun i => XR.fin (f i)) = (List.ofFn fun i => f i).map fun r => XR.fin r := by
    simp [List.map_ofFn, Function.comp_def]
  rw [this, XR.sum_fin, List.map_id', List.sum_ofFn]

@[simp] theorem inner_enc (x y : Pt d) : Vec.inner (enc x) (enc y) = .ok (.fin (∑ i, x i * y i)) := by
  simp [Vec.inner, enc, zipWith_ofFn, sum_ofFn_fin]

@[simp] theorem sumSq_enc (x : Pt d) : Vec.sumSq (enc x) = .fin (∑ i, x i ^ 2) := by
  simp [Vec.sumSq, enc, List.map_ofFn, Function.comp_def, sum_ofFn_fin]

@[simp] theorem sqDist_enc (x y : Pt d) : Vec.sqDist (enc x) (enc y) = .ok (.fin (dist2 x y)) := by
  simp [Vec.sqDist, dist2]

theorem zeros_eq_enc (n : ℕ) : Vec.zeros n = enc (fun _ : Fin n => (0 : ℝ)) := by
  simp [Vec.zeros, enc, List.ofFn_const, XR.zero_def]

@[simp] theorem broadcastTo_enc (x : Pt d) : Vec.broadcastTo d (enc x) = .ok (enc x) := by
  simp [Vec.broadcastTo]

@[simp] theorem runningMean_enc (n : ℕ) (v x : Pt d) :
    runningMean n (enc v) (enc x) = .ok (enc fun i => (1 - 1 / (n : ℝ)) * v i + 1 / (n : ℝ) * x i) := by
  simp only [runningMean, smul_enc, add_enc]

theorem enc_getD (x : Pt d) (j : Fin d) : (enc x).getD j 0 = .fin (x j) := by
  simp [enc]

theorem enc_injective : Function.Injective (enc : Pt d → Vec) := by
  intro x y h
  funext i
  have := congrArg (fun l : Vec => l.getD i 0) h
  simp only [enc_getD] at this
  exact XR.fin.inj this

@[simp] theorem encRows_cols (l : List (Pt d)) : (encRows l).cols = d := rfl
@[simp] theorem encRows_rows (l : List (Pt d)) : (encRows l).rows = l.map enc := rfl

theorem range_map_eq_ofFn {α : Type} (n : ℕ) (f : ℕ → α) : (List.range n).map f = List.ofFn fun i : Fin n => f i := by
  apply List.ext_getElem <;> simp

/-- Column means of a non-empty array. -/
theorem mean0_encRows (l : List (Pt d)) (h : l ≠ []) : (encRows l).mean0 = enc (meanOf l) := by
  have hl : (l.length : ℝ) ≠ 0 := by
    have := List.length_pos_iff.mpr h
    positivity
  rw [Arr2.mean0, encRows_cols, range_map_eq_ofFn, enc]
  congr 1
  funext j
  simp only [encRows_rows, List.map_map, List.length_map]
  have : (l.map ((fun r : Vec => r.getD (j : ℕ) 0) ∘ enc)) = l.map fun p => XR.fin (p j) := by
    apply List.map_congr_left
    intro p _
    exact enc_getD p j
  rw [this, XR.sum_fin, XR.fin_div_of_ne _ hl, meanOf]

/-- Column means of an empty array: NaN. -/
theorem mean0_nil : (encRows ([] : List (Pt d))).mean0 = List.replicate d .nan := by
  rw [Arr2.mean0, encRows_cols, range_map_eq_ofFn]
  simp [XR.zero_def, XR.fin_div, List.ofFn_const]

/-! ## Facts about means and distances -/

theorem dist2_nonneg (x y : Pt d) : 0 ≤ dist2 x y := Finset.sum_nonneg fun _ _ => sq_nonneg _

theorem dist2_comm (x y : Pt d) : dist2 x y = dist2 y x := by
  unfold dist2; congr 1; funext i; ring

theorem dist2_self (x : Pt d) : dist2 x x = 0 := by simp [dist2]

theorem dist2_eq_zero {x y : Pt d} : dist2 x y = 0 ↔ x = y := by
  constructor
  · intro h
    funext i
    have := (Finset.sum_eq_zero_iff_of_nonneg (fun i _ => sq_nonneg (x i - y i))).mp h i (Finset.mem_univ _)
    have := pow_eq_zero_iff (two_ne_zero) |>.mp this
    linarith
  · rintro rfl; exact dist2_self x

theorem sum_sub_mean (l : List (Pt d)) (h : l ≠ []) (i : Fin d) :
    (l.map fun p => p i - meanOf l i).sum = 0 := by
  have hl : (l.length : ℝ) ≠ 0 := by
    have := List.length_pos_iff.mpr h
    positivity
  have : (l.map fun p => p i - meanOf l i).sum + (l.map fun _ => meanOf l i).sum = (l.map fun p => p i).sum := by
    rw [← List.sum_map_add]; simp
  have h2 : (l.map fun _ => meanOf l i).sum = (l.map fun p => p i).sum := by
    rw [List.map_const', List.sum_replicate, nsmul_eq_mul, meanOf, mul_div_cancel₀ _ hl]
  linarith

/-- `Σ (p_i - m_i) (w_i)` -/
theorem list_sum_finset {ι : Type} {α : Type} (l : List α) (s : Finset ι) (f : α → ι → ℝ) :
    (l.map fun p => ∑ i ∈ s, f p i).sum = ∑ i ∈ s, (l.map fun p => f p i).sum := by
  induction l with
  | nil => simp
  | cons a l ih => simp [ih, Finset.sum_add_distrib]

/-- The parallel-axis (König–Huygens) identity. -/
theorem sum_dist2 (l : List (Pt d)) (h : l ≠ []) (w : Pt d) :
    (l.map fun p => dist2 p w).sum = (l.map fun p => dist2 p (meanOf l)).sum + l.length * dist2 (meanOf l) w := by
  unfold dist2
  rw [list_sum_finset, list_sum_finset, Finset.mul_sum, ← Finset.sum_add_distrib]
  apply Finset.sum_congr rfl
  intro i _
  have h0 := sum_sub_mean l h i
  have : ∀ p : Pt d, (p i - w i) ^ 2 =
      (p i - meanOf l i) ^ 2 + ((meanOf l i - w i) ^ 2 + 2 * (meanOf l i - w i) * (p i - meanOf l i)) := by
    intro p; ring
  rw [List.map_congr_left fun p _ => this p]
  rw [List.sum_map_add, List.sum_map_add, List.sum_map_mul_left, h0]
  simp

theorem meanOf_append_singleton (l : List (Pt d)) (x : Pt d) (i : Fin d) :
    meanOf (l ++ [x]) i =
      (1 - 1 / ((l.length + 1 : ℕ) : ℝ)) * meanOf l i + 1 / ((l.length + 1 : ℕ) : ℝ) * x i := by
  unfold meanOf
  rcases List.eq_nil_or_concat l with h | ⟨l', a, h⟩
  · subst h; simp
  · have hl : (l.length : ℝ) ≠ 0 := by subst h; simp; positivity
    have hl' : (l.length : ℝ) + 1 ≠ 0 := by positivity
    simp only [List.map_append, List.sum_append, List.length_append, List.map_cons, List.map_nil, List.sum_cons,
      List.sum_nil, List.length_cons, List.length_nil]
    push_cast
    field_simp
    ring

theorem meanOf_singleton (x : Pt d) : meanOf [x] = x := by
  funext i; simp [meanOf]

end Verif
