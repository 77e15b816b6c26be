import Verif.Proofs.Similar

/-!
# Data sets with every sample repeated equally often
-/

namespace Verif
open Spec

variable {d : ℕ}

theorem sum_flatten_replicate {α : Type} (m : ℕ) (l : List α) (f : α → ℝ) :
    ((List.replicate m l).flatten.map f).sum = m * (l.map f).sum := by
  induction m with
  | zero => simp
  | succ m ih =>
    rw [List.replicate_succ, List.flatten_cons, List.map_append, List.sum_append, ih]
    push_cast; ring

theorem meanOf_flatten_replicate {m : ℕ} (hm : 0 < m) (l : List (Pt d)) :
    meanOf (List.replicate m l).flatten = meanOf l := by
  funext i
  have hm' : (m : ℝ) ≠ 0 := by positivity
  rw [meanOf, meanOf, sum_flatten_replicate]
  simp only [List.length_flatten, List.map_replicate, List.sum_replicate, smul_eq_mul, Nat.cast_mul]
  rw [mul_div_mul_left _ _ hm']

namespace Repeats
variable {m : ℕ} {S : Stream d}

theorem cluster_passes (c : ℤ) : cluster (List.replicate m S).flatten c = (List.replicate m (cluster S c)).flatten := by
  induction m with
  | zero => rfl
  | succ m ih =>
    rw [List.replicate_succ, List.flatten_cons, List.replicate_succ, List.flatten_cons, ← ih]
    simp [cluster]

theorem labels_passes (hm : 0 < m) : labels (List.replicate m S).flatten = labels S := by
  ext c
  simp only [labels, List.mem_toFinset, List.mem_map, List.mem_flatten, List.mem_replicate]
  constructor
  · rintro ⟨p, ⟨l, ⟨_, rfl⟩, hp⟩, rfl⟩; exact ⟨p, hp, rfl⟩
  · rintro ⟨p, hp, rfl⟩; exact ⟨p, ⟨S, ⟨hm.ne', rfl⟩, hp⟩, rfl⟩

section
variable {T : Stream d} (hm : 0 < m) (h : T = (List.replicate m S).flatten)
include h

theorem length : T.length = m * S.length := by simp [h]
theorem size (c : ℤ) : size T c = m * Spec.size S c := by
  rw [Spec.size, h, cluster_passes]; simp [Spec.size]

include hm
theorem labels : Spec.labels T = Spec.labels S := by rw [h, labels_passes hm]
theorem numClusters : numClusters T = Spec.numClusters S := by rw [Spec.numClusters, labels hm h]; rfl
theorem centroid (c : ℤ) : centroid T c = Spec.centroid S c := by
  rw [Spec.centroid, h, cluster_passes, meanOf_flatten_replicate hm]; rfl
theorem mean : mean T = Spec.mean S := by
  have : (List.replicate m S).flatten.map Prod.fst = (List.replicate m (S.map Prod.fst)).flatten := by
    rw [List.map_flatten, List.map_replicate]
  rw [Spec.mean, h, this, meanOf_flatten_replicate hm]; rfl
theorem centroidMean : centroidMean T = Spec.centroidMean S := by
  funext i
  simp only [Spec.centroidMean, numClusters hm h, labels hm h, centroid hm h]
theorem scatter (c : ℤ) : scatter T c = m * Spec.scatter S c := by
  rw [Spec.scatter, centroid hm h, h, cluster_passes, sum_flatten_replicate]; rfl
theorem sep (a b : ℤ) : sep T a b = Spec.sep S a b := by rw [Spec.sep, centroid hm h, centroid hm h]; rfl
theorem cross (a b : ℤ) : crossScatter T a b = crossScatter S a b := by
  have hm' : (m : ℝ) ≠ 0 := by positivity
  rw [crossScatter, centroid hm h, size h, h, cluster_passes, sum_flatten_replicate, Nat.cast_mul, mul_div_mul_left _ _ hm']
  rfl
theorem meanScatter (c : ℤ) : meanScatter T c = Spec.meanScatter S c := by
  have hm' : (m : ℝ) ≠ 0 := by positivity
  rw [Spec.meanScatter, scatter hm h, size h, Nat.cast_mul, mul_div_mul_left _ _ hm']; rfl
theorem WGSS : WGSS T = m * Spec.WGSS S := by
  simp only [Spec.WGSS, labels hm h, scatter hm h, Finset.mul_sum]
theorem BGSS : BGSS T = m * Spec.BGSS S := by
  simp only [Spec.BGSS, labels hm h, size h, centroid hm h, mean hm h, Finset.mul_sum, Nat.cast_mul, mul_assoc]
theorem pairValues (f : ℤ → ℤ → ℝ) : pairValues T f = Spec.pairValues S f := by
  simp only [Spec.pairValues, labels hm h]
theorem otherValues (c : ℤ) (f : ℤ → ℝ) : otherValues T c f = Spec.otherValues S c f := by
  simp only [Spec.otherValues, labels hm h]
theorem maxSize : maxSize T = m * Spec.maxSize S := by
  rw [Spec.maxSize, Spec.maxSize, labels hm h, Finset.apply_sup_eq_sup_comp_of_linearOrder (fun n => m * n)
    (fun a b hab => Nat.mul_le_mul_left m hab) (by simp)]
  exact Finset.sup_congr rfl fun c _ => size h c

theorem CH (hk : Spec.numClusters S < S.length) : Spec.CH T =
    Spec.CH S * .fin ((m * S.length - Spec.numClusters S) / (S.length - Spec.numClusters S)) := by
  have hm' : (m : ℝ) ≠ 0 := by positivity
  have hn : ((S.length : ℝ) - Spec.numClusters S) ≠ 0 := by
    have : (Spec.numClusters S : ℝ) < S.length := by exact_mod_cast hk
    linarith
  have h1 : m * S.length ≠ Spec.numClusters S := by nlinarith
  have hpos : (0 : ℝ) < (m * S.length - Spec.numClusters S) / (S.length - Spec.numClusters S) := by
    have a : (Spec.numClusters S : ℝ) < S.length := by exact_mod_cast hk
    have b : (1 : ℝ) ≤ m := by exact_mod_cast hm
    have c : (0 : ℝ) ≤ Spec.numClusters S := by positivity
    apply div_pos <;> nlinarith
  simp only [Spec.CH, numClusters hm h, WGSS hm h, BGSS hm h, length h]
  by_cases k : Spec.numClusters S ≤ 1
  · simp [k]
  · rw [if_neg k, if_neg k]
    by_cases hw : Spec.WGSS S = 0
    · by_cases hb : Spec.BGSS S = 0
      · simp [hw, hb]
      · simp [hw, hb, hm', h1, hk.ne']
        show _ = XR.infOfSign _
        rw [XR.infOfSign, if_pos hpos]
    · rw [if_pos (by simp [hw, hm']), if_pos hw, XR.fin_mul, mul_div_mul_left _ _ hm', Nat.cast_mul]
      congr 1
      field_simp

theorem WB : Spec.WB T = Spec.WB S := by
  have hm' : (m : ℝ) ≠ 0 := by positivity
  simp only [Spec.WB, numClusters hm h, WGSS hm h, BGSS hm h, mul_ne_zero_iff, ne_eq, hm', not_false_iff, true_and,
    mul_div_mul_left _ _ hm']

theorem XB : Spec.XB T = Spec.XB S := by
  have hm' : (m : ℝ) ≠ 0 := by positivity
  simp only [Spec.XB, numClusters hm h, WGSS hm h, length h, pairValues hm h, funext₂ (sep hm h), Nat.cast_mul, mul_assoc]
  rw [ratio_mul hm']

theorem DB : Spec.DB T = Spec.DB S := by
  simp only [Spec.DB, numClusters hm h, labels hm h, sep hm h, meanScatter hm h, otherValues hm h]

theorem GD43 : Spec.GD43 T = Spec.GD43 S := by
  simp only [Spec.GD43, numClusters hm h, labels hm h, sep hm h, meanScatter hm h, pairValues hm h]

theorem GD53 : Spec.GD53 T = Spec.GD53 S := by
  have hm' : (m : ℝ) ≠ 0 := by positivity
  simp only [Spec.GD53, numClusters hm h, labels hm h, scatter hm h, size h, meanScatter hm h, pairValues hm h, ← mul_add,
    Nat.cast_mul, mul_div_mul_left _ _ hm']

theorem PS : Spec.PS T = Spec.PS S := by
  have hm' : (m : ℝ) ≠ 0 := by positivity
  simp only [Spec.PS, Spec.beta, numClusters hm h, labels hm h, centroid hm h, centroidMean hm h, sep hm h, otherValues hm h,
    size h, maxSize hm h, Nat.cast_mul, mul_div_mul_left _ _ hm']
  congr!

theorem cSIL : Spec.cSIL T = Spec.cSIL S := by
  simp only [Spec.cSIL, silOther, numClusters hm h, labels hm h, cross hm h, otherValues hm h]
  congr!

theorem value {I : Index} (h1 : I ≠ .CH) (h2 : I ≠ .rCIP) : Spec.value I T = Spec.value I S := by
  cases I
  · exact absurd rfl h1
  · exact WB hm h
  · exact XB hm h
  · exact DB hm h
  · exact GD43 hm h
  · exact GD53 hm h
  · exact PS hm h
  · exact absurd rfl h2
  · exact cSIL hm h

end
end Repeats
end Verif
