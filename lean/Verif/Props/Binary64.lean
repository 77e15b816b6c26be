import Verif.Props.Accuracy
import Verif.Gen.B64Plain
import Verif.Gen.B64Moderate

/-!
# C73: centroids and compactnesses in IEEE-754 binary64

`B64` (`Gen/B64.lean`) is binary64 with gradual underflow, overflow, infinities, NaN and signed zeros.  The order in which numpy adds and
whether it fuses a multiplication with an addition are left open (`Lib`, `Lib.Dots`).  binary64 satisfies the standard model, so C68 and C69
give bounds without further assumptions.
-/

namespace Verif.Gen
open Py B64

variable {L : Lib} {d : ℕ} {M : ℝ}

/-- **C73**: binary64 satisfies the standard model with `u = 2 ^ -53`, `η = 2 ^ -1075` and the largest finite number
`(2 ^ 53 - 1) * 2 ^ 971`; inner products of `d` features, computed in any order, have relative error `2 * d * u`. -/
theorem C73_standard (hL : L.Dots d) (hd : d ≤ 2 ^ 50) {N : ℕ} (hN : N < 2 ^ 53) :
    StandardDot (F64 L) val Fin ((2 : ℝ) ^ (-53 : ℤ)) ((2 : ℝ) ^ (-1075 : ℤ)) ((2 ^ 53 - 1) * (2 : ℝ) ^ (971 : ℤ)) N
      (2 * d * (2 : ℝ) ^ (-53 : ℤ)) d := by
  have := F64.standardDot hL hN hd
  rwa [η_eq, Ω_eq] at this

/-- **C73**, centroids: for features up to `2 ^ 1000` and up to `2 ^ 50` samples, whatever numpy's library does. -/
theorem C73_centroid (I : Index) (hi : I = .rCIP → InvShape (F64 L) d) (S : Samples (F64 L)) (hS : S.Dim d)
    (hM0 : 0 ≤ M) (hM : M ≤ (2 : ℝ) ^ (1000 : ℤ)) (hx : ∀ p ∈ S, ∀ a ∈ p.1, Fin a ∧ |val a| ≤ M) {vs : List (F64 L)}
    {o : Obj (F64 L)} (h : feed (mod (F64 L) I) S (mod (F64 L) I).fresh = .ok vs o) {c : ℤ} (hc : ∃ x, (x, c) ∈ S)
    (hN : (own S c).length ≤ 2 ^ 50) {j : ℕ} (hj : j < d) :
    ∃ v a, o.centroid c = some v ∧ v[j]? = some a ∧ Fin a ∧
      |val a - ((own S c).map fun x => val (x.getD j 0)).sum / (own S c).length| ≤
        ((own S c).length - 1) * ((2 : ℝ) ^ (-51 : ℤ) * M + 3 * (2 : ℝ) ^ (-1075 : ℤ)) := by
  have hΩ : 4 * M + (6 * (2 ^ 50 : ℕ) + 3) * η ≤ Ω := by
    have h1 : (2 : ℝ) ^ (1003 : ℤ) ≤ Ω := le_Ω (by norm_num)
    have h2 : (2 : ℝ) ^ (1003 : ℤ) = 8 * (2 : ℝ) ^ (1000 : ℤ) := by
      rw [show (1003 : ℤ) = 3 + 1000 by norm_num, zpow_add₀ (by norm_num)]; norm_num only [zpow_ofNat]
    have h3 : η ≤ (2 : ℝ) ^ (-60 : ℤ) := by rw [η_eq]; exact two_zpow_le (by norm_num)
    have h4 : (1 : ℝ) ≤ (2 : ℝ) ^ (1000 : ℤ) := one_le_zpow₀ (by norm_num) (by norm_num)
    have h5 : (6 * ((2 ^ 50 : ℕ) : ℝ) + 3) * η ≤ (6 * ((2 ^ 50 : ℕ) : ℝ) + 3) * (2 : ℝ) ^ (-60 : ℤ) :=
      mul_le_mul_of_nonneg_left h3 (by positivity)
    have h6 : (6 * ((2 ^ 50 : ℕ) : ℝ) + 3) * (2 : ℝ) ^ (-60 : ℤ) ≤ 1 := by norm_num
    have h7 := h5.trans h6
    rw [h2] at h1
    clear h2 h3 h5 h6
    generalize (2 : ℝ) ^ (1000 : ℤ) = X at *
    linarith
  obtain ⟨v, a, h1, h2, h3, h4⟩ := C68_centroid (F64.standard L (N := 2 ^ 50) (by norm_num)) u_pos.le
    (by unfold u; norm_num) η_pos.le (by unfold u; norm_num) hM0 hΩ I hi S hS hx h hc hN hj
  refine ⟨v, a, h1, h2, h3, h4.trans (le_of_eq ?_)⟩
  rw [η_eq, show (2 : ℝ) ^ (-51 : ℤ) = 4 * u by unfold u; norm_num]

/-- **C73**, compactnesses: for features up to `M`, between `2 ^ -400` and `2 ^ 450`, and up to `2 ^ 44` numbers in all, in whatever order
inner products are added. -/
theorem C73_compactness (hL : L.Dots d) (hd : 1 ≤ d) (I : Index) (hI : Common6 I) (S : Samples (F64 L)) (hS : S.Dim d)
    (hM0 : (2 : ℝ) ^ (-400 : ℤ) ≤ M) (hM : M ≤ (2 : ℝ) ^ (450 : ℤ)) (hx : ∀ p ∈ S, ∀ a ∈ p.1, Fin a ∧ |val a| ≤ M)
    {vs : List (F64 L)} {o : Obj (F64 L)} (h : feed (mod (F64 L) I) S (mod (F64 L) I).fresh = .ok vs o) {c : ℤ}
    (hc : ∃ x, (x, c) ∈ S) (hN : d * (own S c).length ≤ 2 ^ 44) :
    ∃ a, o.compactness c = some a ∧ Fin a ∧
      |val a - ∑ j ∈ Finset.range d, ((own S c).map fun x =>
          (val (x.getD j 0) - ((own S c).map fun x => val (x.getD j 0)).sum / (own S c).length) ^ 2).sum| ≤
        (2 : ℝ) ^ (-45 : ℤ) * (d * (own S c).length * M) ^ 2 := by
  have hne : own S c ≠ [] := fun e => (own_eq_nil S).mp e ((mem_order S).mpr hc)
  have hp : 1 ≤ (own S c).length := List.length_pos_iff.mpr hne
  generalize hn : (own S c).length = n at *
  have hdl : d ≤ 2 ^ 44 := (Nat.le_mul_of_pos_right d hp).trans hN
  have hnl : n ≤ 2 ^ 44 := (Nat.le_mul_of_pos_left n hd).trans hN
  have hP := moderate hd hp hN hM0 hM
  obtain ⟨a, h1, h2, h3⟩ := C69_compactness (F64.standardDot hL (N := n) (by omega) (by omega)) hP hd I hI S hS hx h hc hn.le
  refine ⟨a, h1, h2, ?_⟩
  rw [hn] at h3
  refine h3.trans (le_of_eq ?_)
  rw [show (2 : ℝ) ^ (-45 : ℤ) = 256 * u by unfold u; norm_num]
  ring

/-! ## An example -/

/-- A finite number of magnitude at most 1. -/
def leOne : B64 → Bool
  | .fin _ m => decide (m ≤ unit)
  | _ => false

theorem leOne_spec {a : B64} (h : leOne a = true) : Fin a ∧ |val a| ≤ 1 := by
  match a, h with
  | .fin s m, h =>
    refine ⟨trivial, ?_⟩
    have hm : (m : ℝ) ≤ unit := by exact_mod_cast (show m ≤ unit by simpa [leOne] using h)
    rw [val_fin, signed_cast, abs_mul, abs_mul, abs_sgn, one_mul, abs_of_pos lam_pos, Nat.abs_cast, ← unit_mul]
    exact mul_le_mul_of_nonneg_right hm lam_pos.le

/-- Three samples in cluster 0 and one in cluster 1; two features. -/
def points : Samples (F64 .plain) :=
  [([lit 1 10, lit 2 3], 0), ([lit 7 10, lit 1 7], 1), ([lit 3 10, lit 9 10], 0), ([lit 1 10, lit 1 3], 0)]

theorem points_dim : points.Dim 2 := by
  intro p hp
  simp only [points, List.mem_cons, List.not_mem_nil, or_false] at hp
  rcases hp with rfl | rfl | rfl | rfl <;> rfl

theorem points_le : ∀ p ∈ points, ∀ a ∈ p.1, Fin a ∧ |val a| ≤ 1 := by
  have h : (points.all fun p => p.1.all leOne) = true := by decide +kernel
  intro p hp a ha
  exact leOne_spec (List.all_eq_true.mp (List.all_eq_true.mp h p hp) a ha)

example {vs : List (F64 .plain)} {o : Obj (F64 .plain)}
    (h : feed (mod (F64 .plain) .XB) points (mod (F64 .plain) .XB).fresh = .ok vs o) :
    (∃ v a, o.centroid 0 = some v ∧ v[1]? = some a ∧ Fin a ∧
      |val a - ((own points 0).map fun x => val (x.getD 1 0)).sum / 3| ≤ 1 / 10 ^ 14) ∧
    ∃ a, o.compactness 0 = some a ∧ Fin a ∧
      |val a - ∑ j ∈ Finset.range 2, ((own points 0).map fun x =>
          (val (x.getD j 0) - ((own points 0).map fun x => val (x.getD j 0)).sum / 3) ^ 2).sum| ≤ 2 / 10 ^ 12 := by
  have hc : ∃ x, (x, (0 : ℤ)) ∈ points := ⟨_, List.mem_cons_self⟩
  have hl : (own points 0).length = 3 := rfl
  obtain ⟨v, a, h1, h2, h3, h4⟩ := C73_centroid (M := 1) .XB (by simp) points points_dim zero_le_one
    (one_le_zpow₀ (by norm_num) (by norm_num)) points_le h hc (by rw [hl]; norm_num) (j := 1) (by norm_num)
  obtain ⟨b, k1, k2, k3⟩ := C73_compactness (M := 1) (Lib.plain_dots 2) (by norm_num) .XB (by simp [Common6]) points points_dim
    (zpow_le_one_of_nonpos₀ (by norm_num) (by norm_num)) (one_le_zpow₀ (by norm_num) (by norm_num)) points_le h hc
    (by rw [hl]; norm_num)
  rw [hl] at h4 k3
  refine ⟨⟨v, a, h1, h2, h3, ?_⟩, b, k1, k2, ?_⟩
  · refine h4.trans ?_
    have : (2 : ℝ) ^ (-1075 : ℤ) ≤ (2 : ℝ) ^ (-60 : ℤ) := two_zpow_le (by norm_num)
    generalize (2 : ℝ) ^ (-1075 : ℤ) = y at this
    norm_num at this ⊢
    linarith
  · refine k3.trans ?_
    norm_num

end Verif.Gen
