import Verif.Props.BatchAccuracy
import Verif.Gen.B64Cov

/-!
# C84: the covariances of rCIP are accurate

rCIP keeps, for each cluster, the covariance of its samples plus `10 ** (-12 / d)` on the diagonal (`Spec.regCov`), updated sample by
sample or computed at once.  With numbers of absolute value at most `M`, every entry is within `104 γ N (M² + 2 δ) + κ δ` of the exact
one, where `δ = 10 ** (-12 / d)`; in binary64 within `2 ^ -45 * d * n * (M² + 2 δ)`.
-/

namespace Verif.Gen
open Py Rounding

/-- A square array whose entries are finite and within `e` of those of the matrix `R`. -/
def CovClose {F : Type} [Arith F] (val : F → ℝ) (fin : F → Prop) {d : ℕ} (e : ℝ) (A : Arr2 F) (R : Matrix (Fin d) (Fin d) ℝ) : Prop :=
  A.cols = d ∧ A.rows.length = d ∧ (∀ r ∈ A.rows, r.length = d) ∧
    ∀ i j : Fin d, fin ((A.rows.getD i []).getD j 0) ∧ |val ((A.rows.getD i []).getD j 0) - R i j| ≤ e

section
variable {F : Type} [Arith F] {d : ℕ} {val : F → ℝ} {fin : F → Prop} {u η Ω κ M γ e : ℝ} {N : ℕ} {S : Samples F}

theorem CovClose.of {A : Arr2 F} {c : ℤ} (h : CovNear val fin d e A (own S c)) : CovClose val fin e A (Spec.regCov (real val d S) c) := by
  refine ⟨h.1.1, h.1.2.1, h.1.2.2, fun i j => ?_⟩
  obtain ⟨h1, h2⟩ := h.2 i i.2 j j.2
  refine ⟨h1, le_of_eq_of_le ?_ h2⟩
  rw [Spec.regCov, Matrix.add_apply, cov_real_eq, Matrix.smul_apply, Matrix.one_apply]
  by_cases hij : i = j
  · rw [if_pos hij, if_pos (congrArg _ hij), smul_eq_mul, mul_one]; rfl
  · rw [if_neg hij, if_neg (fun e => hij (Fin.ext e)), smul_zero]; rfl

/-- **C84** (incremental): after samples have been fed to rCIP without an exception, the covariance recorded for each label is accurate. -/
theorem C84_incremental (h : Setting F val fin u η Ω M γ N d) (V : StandardCov F val fin u η Ω κ N d) (hκ : 0 ≤ κ) (hκ1 : κ ≤ 1)
    (hΩ : 100 ≤ Ω) (hi : InvShape F d) (D : Inputs val fin M N d S) {vs : List F} {o : Obj F}
    (hf : feed (mod F .rCIP) S (mod F .rCIP).fresh = .ok vs o) {x : List F} {c : ℤ} (hc : (x, c) ∈ S) :
    ∃ A, o.page c = some A ∧
      CovClose val fin (104 * (γ * N * (M ^ 2 + 2 * delta d)) + κ * delta d) A (Spec.regCov (real val d S) c) := by
  obtain ⟨-, -, -, -, h5⟩ := (C63_own_samples .rCIP (fun _ => hi) S D.dim (List.ne_nil_of_mem hc) hf).1 c ⟨x, hc⟩
  exact ⟨_, h5 rfl, .of (h.covNear V hκ hκ1 hΩ (Inputs.own_ne ((mem_order S).mpr ⟨x, hc⟩)) D.own_dim D.own_bound
    (Inputs.own_le.trans D.length))⟩

/-- **C84** (batch): after one call with all samples without an exception, the covariance stored at position `c` is accurate. -/
theorem C84_batch (h : Setting F val fin u η Ω M γ N d) (V : StandardCov F val fin u η Ω κ N d) (B : StandardBatch F val fin u Ω N d)
    (hκ : 0 ≤ κ) (hκ1 : κ ≤ 1) (hΩ : 100 ≤ Ω) (hi : InvShape F d) (D : Inputs val fin M N d S)
    (hk : 2 ≤ Spec.numClusters (real val d S)) (hc : Spec.Consecutive (real val d S)) {o o' : Obj F} (ho : o.core.isSetup = false)
    {r : F} (hr : batchCall d .rCIP S [] o = .ok r o') {c : ℕ} (hck : c < Spec.numClusters (real val d S)) :
    ∃ A, o'.core.sigma[c]? = some A ∧
      CovClose val fin (104 * (γ * N * (M ^ 2 + 2 * delta d)) + κ * delta d) A (Spec.regCov (real val d S) c) := by
  have hmem : (c : ℤ) ∈ order S := by
    have := (hc c).mpr ⟨by omega, by omega⟩
    rwa [labels_real, List.mem_toFinset] at this
  rw [numClusters_real] at hk hck
  rcases C70_rCIP hi S [] D.dim (by simp) (by omega) o ho with ⟨r', s, h1, -, h3⟩ | ⟨e, h1, -⟩
  · rw [hr] at h1
    injection h1 with h4 h5
    subst h5
    refine ⟨(Batch.gauss d (part S c)).sigma, ?_, .of (h.batchCovNear V B hκ hκ1 hΩ (Inputs.own_ne hmem) D.own_dim D.own_bound
      (Inputs.own_le.trans D.length))⟩
    rw [h3.pages rfl]
    simp [hck]
  · rw [hr] at h1
    cases h1

end

/-! ## binary64 -/

open B64
variable {L : Lib} {d : ℕ} {M : ℝ}

theorem cov_bound64 {n : ℕ} (hd : 1 ≤ d) (hn : 1 ≤ n) : 104 * (2 * d * u * n * (M ^ 2 + 2 * delta d)) + (2 : ℝ) ^ (-47 : ℤ) * delta d ≤
    (2 : ℝ) ^ (-45 : ℤ) * (d * n * (M ^ 2 + 2 * delta d)) := by
  have e47 : (2 : ℝ) ^ (-47 : ℤ) = 64 * u := by unfold u; norm_num
  have e45 : (2 : ℝ) ^ (-45 : ℤ) = 256 * u := by unfold u; norm_num
  rw [e45, e47]
  have hu := u_pos
  have hδ := delta_pos d
  have hd' : (1 : ℝ) ≤ d := by exact_mod_cast hd
  have hn' : (1 : ℝ) ≤ n := by exact_mod_cast hn
  have h1 : (1 : ℝ) ≤ d * n := by nlinarith
  have h2 : 2 * delta d ≤ d * n * (M ^ 2 + 2 * delta d) := by
    have := mul_le_mul_of_nonneg_right h1 (show 0 ≤ M ^ 2 + 2 * delta d by positivity)
    nlinarith [sq_nonneg M]
  have h3 := mul_le_mul_of_nonneg_left h2 hu.le
  have h4 : 0 ≤ u * (d * n * (M ^ 2 + 2 * delta d)) := by positivity
  linarith

theorem CovClose.mono {F : Type} [Arith F] {val : F → ℝ} {fin : F → Prop} {e e' : ℝ} {A : Arr2 F} {R : Matrix (_root_.Fin d) (_root_.Fin d) ℝ}
    (h : CovClose val fin e A R) (he : e ≤ e') : CovClose val fin e' A R :=
  ⟨h.1, h.2.1, h.2.2.1, fun i j => ⟨(h.2.2.2 i j).1, (h.2.2.2 i j).2.trans he⟩⟩

theorem hundred_le_Ω : (100 : ℝ) ≤ Ω := le_trans (by norm_num) (le_Ω (e := 7) (by norm_num))

/-- **C84** (incremental, binary64). -/
theorem C84_incremental64 (hL : L.Dots d) (hs : L.Sums) (hp : L.Products) (hδ : L.DeltaNear d) (hi : InvShape (F64 L) d) (hd : 1 ≤ d)
    (S : Samples (F64 L)) (hS : S.Dim d) (hN : d * S.length ≤ 2 ^ 44) (hM0 : (2 : ℝ) ^ (-400 : ℤ) ≤ M) (hM : M ≤ (2 : ℝ) ^ (450 : ℤ))
    (hx : ∀ p ∈ S, ∀ a ∈ p.1, Fin a ∧ |val a| ≤ M) {vs : List (F64 L)} {o : Obj (F64 L)}
    (hf : feed (mod (F64 L) .rCIP) S (mod (F64 L) .rCIP).fresh = .ok vs o) {x : List (F64 L)} {c : ℤ} (hc : (x, c) ∈ S) :
    ∃ A, o.page c = some A ∧ CovClose (F := F64 L) val Fin ((2 : ℝ) ^ (-45 : ℤ) * (d * S.length * (M ^ 2 + 2 * delta d))) A
      (Spec.regCov (real (F := F64 L) val d S) c) := by
  have hn := List.length_pos_of_mem hc
  have hN' := (Nat.le_mul_of_pos_left S.length hd).trans hN
  obtain ⟨A, h1, h2⟩ := C84_incremental (setting64 hL hs hd hn hN hM0 hM) (F64.standardCov hp hδ hd (by omega)) (by positivity)
    (zpow_le_one_of_nonpos₀ (by norm_num) (by norm_num)) hundred_le_Ω hi ⟨hS, hx, le_rfl⟩ hf hc
  exact ⟨A, h1, h2.mono (cov_bound64 hd hn)⟩

/-- **C84** (batch, binary64). -/
theorem C84_batch64 (hL : L.Dots d) (hs : L.Sums) (hb : L.BatchSums d) (hp : L.Products) (hδ : L.DeltaNear d) (hi : InvShape (F64 L) d)
    (hd : 1 ≤ d) (S : Samples (F64 L)) (hS : S.Dim d) (hN : d * S.length ≤ 2 ^ 44) (hM0 : (2 : ℝ) ^ (-400 : ℤ) ≤ M)
    (hM : M ≤ (2 : ℝ) ^ (450 : ℤ)) (hx : ∀ p ∈ S, ∀ a ∈ p.1, Fin a ∧ |val a| ≤ M)
    (hk : 2 ≤ Spec.numClusters (real (F := F64 L) val d S)) (hc : Spec.Consecutive (real (F := F64 L) val d S))
    {o o' : Obj (F64 L)} (ho : o.core.isSetup = false) {r : F64 L} (hr : batchCall d .rCIP S [] o = .ok r o') {c : ℕ}
    (hck : c < Spec.numClusters (real (F := F64 L) val d S)) :
    ∃ A, o'.core.sigma[c]? = some A ∧ CovClose (F := F64 L) val Fin ((2 : ℝ) ^ (-45 : ℤ) * (d * S.length * (M ^ 2 + 2 * delta d))) A
      (Spec.regCov (real (F := F64 L) val d S) c) := by
  have hn := List.length_pos_iff.mpr (order_ne hk)
  have hN' := (Nat.le_mul_of_pos_left S.length hd).trans hN
  obtain ⟨A, h1, h2⟩ := C84_batch (setting64 hL hs hd hn hN hM0 hM) (F64.standardCov hp hδ hd (by omega))
    (F64.standardBatch hb (by omega) (by omega)) (by positivity)
    (zpow_le_one_of_nonpos₀ (by norm_num) (by norm_num)) hundred_le_Ω hi ⟨hS, hx, le_rfl⟩ hk hc ho hr hck
  exact ⟨A, h1, h2.mono (cov_bound64 hd hn)⟩

end Verif.Gen
