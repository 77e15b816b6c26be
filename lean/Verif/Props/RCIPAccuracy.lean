import Verif.Props.PSAccuracy
import Verif.Props.CovAccuracy
import Verif.Gen.SmallRCIP

/-!
# C85: rCIP does not raise, and its value is accurate

rCIP inverts the sum of two covariances, which is ill-conditioned as soon as the clusters are flat: its smallest eigenvalue is then
`2 * 10 ** (-12 / d)`.  If the rounding errors are small against that number (`Small`), and `np.linalg.det`, `np.linalg.inv` are
numerically stable (`StandardLinalg`), then no exception is raised and the value is within `174 * θ * peaks` of the exact one, where
`peaks` is the value that rCIP would have if all centroids were the same.
-/

namespace Verif.Gen
open Py Rounding

section
variable {F : Type} [Arith F] {d : ℕ} {val : F → ℝ} {fin : F → Prop} {u η Ω M γ κ κ' θ : ℝ} {N K : ℕ} {S : Samples F}

variable (h : Setting F val fin u η Ω M γ N d) (V : StandardCov F val fin u η Ω κ' N d) (B : StandardBatch F val fin u Ω N d)
  (E : StandardExp F val fin u κ N) (G : StandardLinalg F val fin u η Ω κ d) (hκ : 0 ≤ κ') (hκ1 : κ' ≤ 1) (hi : InvShape F d)
  (P : Small u η Ω M γ κ κ' θ N d) (D : Inputs val fin M N d S)
include h V G hκ hκ1 hi P D

/-- **C85**: feeding samples to rCIP raises no exception, and returns for each prefix what the specification says. -/
theorem C85_no_error :
    ∃ vs, (feed (mod F .rCIP) S (mod F .rCIP).fresh).val = .ok vs ∧ List.Forall₂ (Returns d .rCIP) S.inits.tail vs := by
  have hΩ : (100 : ℝ) ≤ Ω := le_trans (by norm_num) P.range3
  rcases C62_rCIP hi S D.dim with h1 | ⟨e, -, T, hT, h2⟩
  · exact h1
  · exfalso
    have DT : Inputs val fin M N d T := ⟨fun p hp => D.dim p (hT.subset hp), fun p hp => D.bound p (hT.subset hp), hT.length_le.trans D.length⟩
    rcases h2 with ⟨h2, -⟩ | h2 | ⟨A, ⟨a, ha, b, hb, -, rfl⟩, h2⟩
    · have := h.d1; omega
    · obtain ⟨k, hk, -⟩ := G.normConst P.range2
      rw [hk] at h2
      cases h2
    · obtain ⟨-, ⟨x, hx⟩, y, hy⟩ := h.pair_ok hκ1 hΩ (h.good hκ hκ1 hΩ DT V ha) (h.good hκ hκ1 hΩ DT V hb) G P
      rcases h2 with h2 | h2
      · rw [hx] at h2; cases h2
      · rw [hy] at h2; cases h2

include B E
variable (hsum : Sums val fin u Ω K (Arith.npSum : List F → F)) (hK : Spec.numClusters (real val d S) ^ 2 ≤ K) (hKu : K * u ≤ θ)
  (hKΩ : 10 ^ 7 * (K : ℝ) ≤ Ω)
include hsum hK hKu hKΩ

omit hi in
/-- Every value that the specification allows is accurate. -/
theorem returns_near {r : F} (hr : Returns d .rCIP S r) :
    ∃ y, Spec.rCIP (real val d S) = .fin y ∧ fin r ∧ |val r - y| ≤ 174 * θ * peaks (real val d S) := by
  have hΩ : (100 : ℝ) ≤ Ω := le_trans (by norm_num) P.range3
  obtain ⟨g, hg, hr⟩ := hr
  have hmem : ∀ c, c ∈ order S ↔ c ∈ Spec.labels (real val d S) := fun c => by rw [labels_real, List.mem_toFinset]
  rw [numClusters_real] at hK
  have hθ0 : 0 ≤ θ := le_trans (mul_nonneg (Nat.cast_nonneg _) h.moderate.u0) hKu
  have key : ∀ p ∈ pairs (order S), fin (g p.1 p.2) ∧ |val (g p.1 p.2) - Spec.cip (real val d S) p.1 p.2| ≤
      168 * θ * Spec.gauss (Spec.regCov (real val d S) p.1 + Spec.regCov (real val d S) p.2) 0 := by
    intro p hp
    obtain ⟨ha, hb⟩ := mem_pairs hp
    have h1 := (hg p.1 ha).2 p.2 hb (pairs_ne (order_nodup S) hp)
    have h0 := mul_nonneg hθ0 (peak_nonneg (real val d S) p.1 p.2 0)
    split at h1
    · obtain ⟨f, e⟩ := h.pair_near hκ1 hΩ (h.good hκ hκ1 hΩ D V ha) (h.good hκ hκ1 hΩ D V hb) G P B.one E.exp h1
      exact ⟨f, by linarith⟩
    · obtain ⟨f, e⟩ := h.pair_near hκ1 hΩ (h.good hκ hκ1 hΩ D V hb) (h.good hκ hκ1 hΩ D V ha) G P B.one E.exp h1
      rw [cip_comm, add_comm (Spec.regCov _ p.2)] at e
      exact ⟨f, by linarith⟩
  obtain ⟨y, y1, y2, y3⟩ := sum_overlaps h.d1 hsum (order_nodup S) hmem hK h.moderate.u0 hKu P.θ1 hKΩ key
  refine ⟨y, y1, ?_⟩
  split at hr
  · rename_i hk
    have hp : pairs (order S) = [] := by
      match order S, hk with
      | [], _ => rfl
      | [a], _ => rfl
    have h0 : Spec.rCIP (real val d S) = .fin 0 ∧ peaks (real val d S) = 0 := by
      rw [Spec.rCIP, peaks, ← sum_peaks _ (order_nodup S) hmem _ (cip_comm _), ← sum_peaks _ (order_nodup S) hmem
        (fun a b => Spec.gauss (Spec.regCov (real val d S) a + Spec.regCov (real val d S) b) 0) (fun a b => by rw [add_comm]), hp]
      exact ⟨rfl, rfl⟩
    rw [h0.1] at y1
    obtain rfl := XR.fin.inj y1
    rw [hr, h0.2, h.full.zero.2]
    exact ⟨h.full.zero.1, by simp⟩
  · rw [hr]
    exact ⟨y2, y3⟩

/-- **C85** (incremental): the last value is accurate. -/
theorem C85_rCIP (hne : S ≠ []) : Within val fin d .rCIP S (174 * θ * peaks (real val d S)) := by
  obtain ⟨vs, h1, h2⟩ := C85_no_error h V G hκ hκ1 hi P D
  have hl : S.inits.tail.getLast? = some S := by rw [getLast?_inits_tail, if_neg hne]
  obtain ⟨r, hr, h3⟩ : ∃ r, vs.getLast? = some r ∧ Returns d .rCIP S r := by
    clear h1
    revert hl
    generalize S.inits.tail = T at h2
    intro hl
    induction h2 with
    | nil => cases hl
    | @cons a b l l' hab hll ih =>
      cases hll with
      | nil =>
        simp only [List.getLast?_singleton, Option.some.injEq] at hl
        subst hl
        exact ⟨b, rfl, hab⟩
      | @cons a' b' l l' h3 h4 =>
        rw [List.getLast?_cons_cons] at hl ⊢
        exact ih hl
  obtain ⟨y, y1, y2, y3⟩ := returns_near h V B E G hκ hκ1 P D hsum hK hKu hKΩ h3
  refine ⟨vs.dropLast, r, y, ?_, y2, y1, y3⟩
  rw [List.dropLast_append_getLast? r hr]
  exact h1

/-- **C85** (batch): one call raises no exception, and its value is accurate. -/
theorem C85_rCIP_batch (hk : 2 ≤ Spec.numClusters (real val d S)) (hc : Spec.Consecutive (real val d S)) (o : Obj F)
    (ho : o.core.isSetup = false) : BatchWithin val fin d .rCIP S o (174 * θ * peaks (real val d S)) := by
  have hΩ : (100 : ℝ) ≤ Ω := le_trans (by norm_num) P.range3
  rw [numClusters_real] at hk hK
  obtain ⟨k, hkk⟩ : ∃ k, k = (order S).length := ⟨_, rfl⟩
  have hmem : ∀ i < k, (i : ℤ) ∈ order S := fun i hi => by
    rw [← (Rounding.labels_perm hc).mem_iff, labelRange, List.mem_map, ← hkk]
    exact ⟨i, List.mem_range.mpr hi, rfl⟩
  rcases C70_rCIP hi S [] D.dim (by simp) (by omega) o ho with ⟨r, s, h1, ⟨g, hg, hr⟩, -⟩ | ⟨e, -, h2, -⟩
  · rw [← hkk] at hg hr hK
    have hθ0 : 0 ≤ θ := le_trans (mul_nonneg (Nat.cast_nonneg _) h.moderate.u0) hKu
    have hlab : ∀ c, c ∈ labelRange k ↔ c ∈ Spec.labels (real val d S) := fun c => by
      rw [labels_real, List.mem_toFinset, hkk]
      exact (Rounding.labels_perm hc).mem_iff
    have hn : (labelRange k).Nodup := by
      rw [hkk]
      exact (Rounding.labels_perm hc).nodup_iff.mpr (order_nodup S)
    have ep : pairs (labelRange k) = (pairs (List.range k)).map fun p => ((p.1 : ℤ), (p.2 : ℤ)) := pairs_map _ _
    have key : ∀ p ∈ pairs (labelRange k), fin (Batch.both g p.1.toNat p.2.toNat) ∧
        |val (Batch.both g p.1.toNat p.2.toNat) - Spec.cip (real val d S) p.1 p.2| ≤
        168 * θ * Spec.gauss (Spec.regCov (real val d S) p.1 + Spec.regCov (real val d S) p.2) 0 := by
      intro p hp
      rw [ep] at hp
      obtain ⟨⟨i, j⟩, hij, rfl⟩ := List.mem_map.mp hp
      obtain ⟨i1, i2⟩ := mem_triu hij
      simp only at i1 i2
      have h3 := hg i j i1 i2
      have h0 := peak_nonneg (real val d S) i j 0
      obtain ⟨f, e⟩ := h.pair_near hκ1 hΩ (h.goodBatch hκ hκ1 hΩ D B V (hmem i (i1.trans i2))) (h.goodBatch hκ hκ1 hΩ D B V (hmem j i2)) G P
        B.one E.exp h3
      have e1 : Batch.both g (i : ℤ).toNat (j : ℤ).toNat = g i j + 0 := by
        rw [Int.toNat_natCast, Int.toNat_natCast, Batch.both, if_pos i1, if_neg (by omega)]
      show fin (Batch.both g (i : ℤ).toNat (j : ℤ).toNat) ∧ |val (Batch.both g (i : ℤ).toNat (j : ℤ).toNat) - Spec.cip (real val d S) i j| ≤ _
      rw [e1]
      have e2 := abs_le_of_err e
      have e3 := cip_le_peak (real val d S) i j
      rw [abs_of_nonneg (show 0 ≤ Spec.cip (real val d S) i j from peak_nonneg ..)] at e2
      have e4 := peak_le h.d1 (real val d S) i j
      have e5 := mul_le_mul_of_nonneg_right P.θ1 h0
      have e6 : |val (g i j)| ≤ 3 * Spec.gauss (Spec.regCov (real val d S) i + Spec.regCov (real val d S) j) 0 := by linarith
      have hΩ8 := P.range3
      obtain ⟨f2, e7⟩ := h.full.add (g i j) 0 f h.full.zero.1 (by rw [h.full.zero.2, add_zero]; linarith)
      rw [h.full.zero.2, add_zero] at e7
      refine ⟨f2, ?_⟩
      have e8 := mul_le_mul (P.uγ.trans P.γθ) e6 (abs_nonneg _) hθ0
      have e9 := abs_add_le (val (g i j + 0) - val (g i j)) (val (g i j) - Spec.cip (real val d S) i j)
      rw [sub_add_sub_cancel] at e9
      have := mul_nonneg hθ0 h0
      linarith
    obtain ⟨y, y1, y2, y3⟩ := sum_overlaps (g := fun p => Batch.both g p.1.toNat p.2.toNat) h.d1 hsum hn hlab
      (by rw [labelRange, List.length_map, List.length_range]; exact hK) h.moderate.u0 hKu P.θ1 hKΩ key
    rw [ep, List.map_map] at y2 y3
    refine ⟨r, s, y, h1, ?_, y1, ?_⟩
    · rw [hr]; exact y2
    · rw [hr]; exact y3
  · exfalso
    rcases h2 with ⟨h2, -⟩ | h2 | ⟨A, ⟨i, j, i1, i2, rfl⟩, h2⟩
    · have := h.d1; omega
    · obtain ⟨k, hk, -⟩ := G.normConst P.range2
      rw [hk] at h2
      cases h2
    · obtain ⟨-, ⟨x, hx⟩, y, hy⟩ := h.pair_ok hκ1 hΩ (h.goodBatch hκ hκ1 hΩ D B V (hmem i (by omega)))
        (h.goodBatch hκ hκ1 hΩ D B V (hmem j (by omega))) G P
      rcases h2 with h2 | h2
      · exact absurd (hx.symm.trans h2) (by simp)
      · exact absurd (hy.symm.trans h2) (by simp)

end

/-! ## binary64 -/

section
open B64
variable {L : Lib} {d : ℕ} {M κ θ : ℝ}

theorem sums64 (hs : L.Sums) {K : ℕ} (hK : K ≤ 2 ^ 50) : Sums (F := F64 L) val Fin u Ω K (Arith.npSum : List (F64 L) → F64 L) :=
  fun l hl hf hΩ => SumOf.near (hs l) (hl.trans hK) hf hΩ

variable (hL : L.Dots d) (hs : L.Sums) (hb : L.BatchSums d) (hp : L.Products) (hδ : L.DeltaNear d) (he : L.ExpNear κ) (hl : L.Linalg κ d)
  (hκ : 0 ≤ κ) (hi : InvShape (F64 L) d) (hd : 1 ≤ d) (S : Samples (F64 L)) (hS : S.Dim d) (hne : S ≠ []) (hM0 : (2 : ℝ) ^ (-400 : ℤ) ≤ M)
  (hx : ∀ p ∈ S, ∀ a ∈ p.1, Fin a ∧ |val a| ≤ M) (hf : Fits d S.length M κ θ)
  (hk : Spec.numClusters (real (F := F64 L) val d S) ^ 2 * (2 : ℝ) ^ (-53 : ℤ) ≤ θ)
include hL hs hb hp hδ he hl hκ hi hd hS hne hM0 hx hf hk

/-- **C85** (incremental, binary64): rCIP does not raise, and its value is accurate. -/
theorem C85_rCIP64 : Within (F := F64 L) val Fin d .rCIP S (174 * θ * peaks (real (F := F64 L) val d S)) := by
  have hn := List.length_pos_iff.mpr hne
  obtain ⟨h1, h2⟩ := hf.sizes hd hn
  have hn36 : S.length ≤ 2 ^ 36 := (Nat.le_mul_of_pos_left S.length hd).trans h1
  have hd36 : d ≤ 2 ^ 36 := (Nat.le_mul_of_pos_right d hn).trans h1
  have hM : M ≤ (2 : ℝ) ^ (450 : ℤ) := h2.trans (by
    rw [← zpow_natCast]
    exact two_zpow_le (by norm_num))
  have hM' : 0 ≤ M := le_trans (by positivity) hM0
  have hK : ((Spec.numClusters (real (F := F64 L) val d S) ^ 2 : ℕ) : ℝ) * u ≤ θ := by
    rw [Nat.cast_pow]
    exact hk
  have hK46 : ((Spec.numClusters (real (F := F64 L) val d S) ^ 2 : ℕ) : ℝ) ≤ 2 ^ 46 :=
    le_of_u_mul (e := 7) (by norm_num) (by have := hf.θ1; linarith)
  exact C85_rCIP (setting64 hL hs hd hn (h1.trans (show 2 ^ 36 ≤ 2 ^ 44 by norm_num)) hM0 hM) (F64.standardCov hp hδ hd (by omega))
    (F64.standardBatch hb (by omega) (by omega)) (F64.standardExp he (by omega))
    (F64.standardLinalg hl (by omega)) (by positivity) (zpow_le_one_of_nonpos₀ (by norm_num) (by norm_num)) hi
    (hf.small hd hn hM' hκ) ⟨hS, hx, le_rfl⟩ (sums64 hs (le_trans (by exact_mod_cast hK46) (by norm_num))) le_rfl hK
    (le_trans (mul_le_mul_of_nonneg_left hK46 (by norm_num)) (le_trans (by norm_num) (le_Ω (e := 100) (by norm_num)))) hne

/-- **C85** (batch, binary64). -/
theorem C85_rCIP64_batch (hk2 : 2 ≤ Spec.numClusters (real (F := F64 L) val d S)) (hc : Spec.Consecutive (real (F := F64 L) val d S))
    (o : Obj (F64 L)) (ho : o.core.isSetup = false) :
    BatchWithin (F := F64 L) val Fin d .rCIP S o (174 * θ * peaks (real (F := F64 L) val d S)) := by
  have hn := List.length_pos_iff.mpr hne
  obtain ⟨h1, h2⟩ := hf.sizes hd hn
  have hn36 : S.length ≤ 2 ^ 36 := (Nat.le_mul_of_pos_left S.length hd).trans h1
  have hd36 : d ≤ 2 ^ 36 := (Nat.le_mul_of_pos_right d hn).trans h1
  have hM : M ≤ (2 : ℝ) ^ (450 : ℤ) := h2.trans (by
    rw [← zpow_natCast]
    exact two_zpow_le (by norm_num))
  have hM' : 0 ≤ M := le_trans (by positivity) hM0
  have hK : ((Spec.numClusters (real (F := F64 L) val d S) ^ 2 : ℕ) : ℝ) * u ≤ θ := by
    rw [Nat.cast_pow]
    exact hk
  have hK46 : ((Spec.numClusters (real (F := F64 L) val d S) ^ 2 : ℕ) : ℝ) ≤ 2 ^ 46 :=
    le_of_u_mul (e := 7) (by norm_num) (by have := hf.θ1; linarith)
  exact C85_rCIP_batch (setting64 hL hs hd hn (h1.trans (show 2 ^ 36 ≤ 2 ^ 44 by norm_num)) hM0 hM) (F64.standardCov hp hδ hd (by omega))
    (F64.standardBatch hb (by omega) (by omega)) (F64.standardExp he (by omega))
    (F64.standardLinalg hl (by omega)) (by positivity) (zpow_le_one_of_nonpos₀ (by norm_num) (by norm_num)) hi
    (hf.small hd hn hM' hκ) ⟨hS, hx, le_rfl⟩ (sums64 hs (le_trans (by exact_mod_cast hK46) (by norm_num))) le_rfl hK
    (le_trans (mul_le_mul_of_nonneg_left hK46 (by norm_num)) (le_trans (by norm_num) (le_Ω (e := 100) (by norm_num)))) hk2 hc o ho

/-- **C85**: incremental and batch values agree up to twice the error. -/
theorem C85_rCIP64_agree (hk2 : 2 ≤ Spec.numClusters (real (F := F64 L) val d S)) (hc : Spec.Consecutive (real (F := F64 L) val d S))
    (o : Obj (F64 L)) (ho : o.core.isSetup = false) :
    ∃ vs a b s, (feed (mod (F64 L) .rCIP) S (mod (F64 L) .rCIP).fresh).val = .ok (vs ++ [a]) ∧
      batchCall d .rCIP S [] o = .ok b { o with core := s } ∧ Fin a ∧ Fin b ∧
      |val a - val b| ≤ 348 * θ * peaks (real (F := F64 L) val d S) := by
  obtain ⟨vs, a, y, a1, a2, a3, a4⟩ := C85_rCIP64 hL hs hb hp hδ he hl hκ hi hd S hS hne hM0 hx hf hk
  obtain ⟨b, s, z, b1, b2, b3, b4⟩ := C85_rCIP64_batch hL hs hb hp hδ he hl hκ hi hd S hS hne hM0 hx hf hk hk2 hc o ho
  obtain rfl : y = z := by rw [a3] at b3; exact XR.fin.inj b3
  refine ⟨vs, a, b, s, a1, b1, a2, b2, ?_⟩
  have h1 := abs_sub (val a - y) (val b - y)
  rw [sub_sub_sub_cancel_right] at h1
  linarith

end

end Verif.Gen
