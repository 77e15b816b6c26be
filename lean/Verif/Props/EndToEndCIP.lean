import Verif.Props.EndToEnd
import Verif.Props.RCIPCorners

/-!
# C102: the text of rCIP in double precision
-/

namespace Verif.Source
open Gen

variable {d : ℕ} {L : Lib} {M κ θ : ℝ}

section
variable (hL : L.Dots d) (hs : L.Sums) (hb : L.BatchSums d) (hp : L.Products) (hδ : L.DeltaNear d) (he : L.ExpNear κ) (hl : L.Linalg κ d)
  (hκ : 0 ≤ κ) (hi : InvShape (F64 L) d) (hd : 1 ≤ d) (S : Samples (F64 L)) (hS : S.Dim d) (hne : S ≠ []) (hM0 : (2 : ℝ) ^ (-400 : ℤ) ≤ M)
  (hx : ∀ p ∈ S, ∀ a ∈ p.1, B64.Fin a ∧ |B64.val a| ≤ M) (hf : Fits d S.length M κ θ)
  (hk : Spec.numClusters (real (F := F64 L) B64.val d S) ^ 2 * (2 : ℝ) ^ (-53 : ℤ) ≤ θ) (K : Lits (F64 L)) (hK : LitLaws K)
include hL hs hb hp hδ he hl hκ hi hd hS hne hM0 hx hf hk hK

/-- **C102** (binary64, rCIP, incremental): under the conditions of C85 and with the two constants computed as the text says, the text of rCIP
does not raise, and its last value is accurate. -/
theorem C102_rCIP (m : LabelMap) (s : Core (F64 L)) :
    ∃ vs r y, (runStream K .rCIP S ⟨m, blank .rCIP s⟩).val = .ok (vs ++ [.flt r]) ∧ B64.Fin r ∧
      Spec.rCIP (real (F := F64 L) B64.val d S) = .fin y ∧ |B64.val r - y| ≤ 174 * θ * peaks (real (F := F64 L) B64.val d S) := by
  obtain ⟨vs, r, y, h1, h2, h3, h4⟩ := C85_rCIP64 hL hs hb hp hδ he hl hκ hi hd S hS hne hM0 hx hf hk
  refine ⟨vs.map .flt, r, y, ?_, h2, h3, h4⟩
  have ha := C97_agree K .rCIP (fun _ => hK) S m s
  cases hr : feed (mod (F64 L) .rCIP) S (mod (F64 L) .rCIP).fresh with
  | ok ys o =>
    rw [hr] at ha h1
    rw [ha, Except.ok.inj h1, List.map_append]
    rfl
  | err e o => rw [hr] at h1; cases h1

/-- **C102** (binary64, rCIP, batch). -/
theorem C102_rCIP_batch (hk2 : 2 ≤ Spec.numClusters (real (F := F64 L) B64.val d S))
    (hc : Spec.Consecutive (real (F := F64 L) B64.val d S)) (m : LabelMap) (s : Core (F64 L)) :
    ∃ r y, (textBatch K d .rCIP S [] ⟨m, blank .rCIP s⟩).val = .ok [.flt r] ∧ B64.Fin r ∧
      Spec.rCIP (real (F := F64 L) B64.val d S) = .fin y ∧ |B64.val r - y| ≤ 174 * θ * peaks (real (F := F64 L) B64.val d S) := by
  obtain ⟨r, s', y, h1, h2, h3, h4⟩ := C85_rCIP64_batch hL hs hb hp hδ he hl hκ hi hd S hS hne hM0 hx hf hk hk2 hc
    (mod (F64 L) .rCIP).fresh (fresh_isSetup .rCIP)
  refine ⟨r, y, ?_, h2, h3, h4⟩
  have ha := C98_call K .rCIP (fun _ => hK) (.d2 ⟨d, allRows S []⟩) (allRows_dim hS (by simp)) (.arr (S.map Prod.snd))
    (mod (F64 L) .rCIP).fresh (counted_fresh _)
  rw [Gen.batchCall] at h1
  rw [h1] at ha
  rw [textBatch_eq, ha]
  rfl

end

/-! ## A library that meets all conditions -/

theorem const_near {u η x y z k : ℝ} (hu0 : 0 < u) (hu1 : u ≤ 1 / 1000) (hx : 36 ≤ x) (hx2 : x ≤ 49) (hη : η ≤ u / 7)
    (h1 : |y - x| ≤ 2 * u * x) (h2 : |z - √y| ≤ 2 * u * √y) (h3 : |k - 1 / z| ≤ u * |1 / z| + η) :
    |k - 1 / √x| ≤ 8 * u * (1 / √x) := by
  obtain ⟨-, h4⟩ := Perturb.sqrt_near (by linarith) (by linarith) h1
  have w6 : 6 ≤ √x := Real.le_sqrt_of_sq_le (by linarith)
  have w7 : √x ≤ 7 := Real.sqrt_le_iff.mpr ⟨by norm_num, by linarith⟩
  generalize √x = w at *
  generalize √y = v at *
  have hw0 : 0 < w := by linarith
  have hv : v ≤ w * (1 + 2 * u) := by linarith [(abs_le.mp h4).2]
  have huv : u * v ≤ u * (w * (1 + 2 * u)) := mul_le_mul_of_nonneg_left hv hu0.le
  have huw : 0 < u * w := by positivity
  have huu : u * w * u ≤ u * w * (1 / 1000) := mul_le_mul_of_nonneg_left hu1 huw.le
  have hz : |z - w| ≤ 5 * u * w := by
    have := abs_add_le (z - v) (v - w)
    rw [sub_add_sub_cancel] at this
    nlinarith
  have huw1 : u * w ≤ 1 / 1000 * w := mul_le_mul_of_nonneg_right hu1 hw0.le
  have hz1 : w * (199 / 200) ≤ z := by linarith [(abs_le.mp hz).1]
  have hz0 : 0 < z := by linarith
  have hq : 1 / z ≤ 200 / 199 * (1 / w) := by
    rw [div_le_iff₀ hz0]
    have : 200 / 199 * (1 / w) * (w * (199 / 200)) = 1 := by field_simp
    have h5 := mul_le_mul_of_nonneg_left hz1 (show 0 ≤ 200 / 199 * (1 / w) by positivity)
    linarith
  have h6 : |1 / z - 1 / w| ≤ 5 * u * (1 / z) := by
    have e : 1 / z - 1 / w = -((z - w) * (1 / (z * w))) := by field_simp; ring
    rw [e, abs_neg, abs_mul, abs_of_pos (show 0 < 1 / (z * w) by positivity)]
    have := mul_le_mul_of_nonneg_right hz (show 0 ≤ 1 / (z * w) by positivity)
    have e2 : 5 * u * w * (1 / (z * w)) = 5 * u * (1 / z) := by field_simp
    rwa [e2] at this
  rw [abs_of_pos (show 0 < 1 / z by positivity)] at h3
  have h7 := abs_add_le (k - 1 / z) (1 / z - 1 / w)
  rw [sub_add_sub_cancel] at h7
  have h8 := mul_le_mul_of_nonneg_left hq (show 0 ≤ 6 * u by linarith)
  have h9 : 1 / 7 ≤ 1 / w := one_div_le_one_div_of_le hw0 w7
  have h10 := mul_le_mul_of_nonneg_left h9 hu0.le
  have h11 : 0 < u * (1 / w) := by positivity
  nlinarith

/-- `Lib.rounded`, but with the two constants computed as the text says, from rounded powers. -/
noncomputable def computed : Lib := { Lib.rounded with
  delta := fun d => B64.cut ((10 : ℝ) ^ B64.val (B64.div (B64.neg (B64.ofNat 12)) (B64.ofNat d)))
  normConst := fun d => .ok (B64.div (B64.ofNat 1) (B64.sqrt (B64.cut ((2 * Real.pi) ^ d)))) }

/-- The literals and the powers. -/
noncomputable def computedLits : Lits (F64 computed) :=
  b64Lits computed (fun _ b => .ok (B64.cut ((10 : ℝ) ^ B64.val b))) (fun _ d => .ok (B64.cut ((2 * Real.pi) ^ d)))

theorem computedLits_laws : LitLaws computedLits := b64Lits_laws _ _ _ (fun _ _ => rfl) (fun _ => rfl)

theorem computed_delta : computed.DeltaNear 2 := by
  have e : B64.div (B64.neg (B64.ofNat 12)) (B64.ofNat 2) = B64.neg (B64.ofNat 6) := by decide +kernel
  have ev : B64.val (B64.neg (B64.ofNat 6)) = -(12 : ℝ) / ((2 : ℕ) : ℝ) := by
    rw [B64.val_neg, (B64.ofNat_val (n := 6) (by norm_num)).2]; norm_num
  have h : computed.delta 2 = Lib.rounded.delta 2 := by
    show B64.cut ((10 : ℝ) ^ B64.val (B64.div (B64.neg (B64.ofNat 12)) (B64.ofNat 2))) = B64.cut _
    rw [e, ev]
  have hr := Lib.rounded_delta (d := 2) (by norm_num)
  unfold Lib.DeltaNear at hr ⊢
  rw [h]
  exact hr

theorem computed_const : ∃ k, computed.normConst 2 = .ok k ∧ B64.Fin k ∧
    |B64.val k - 1 / √((2 * Real.pi) ^ 2)| ≤ (2 : ℝ) ^ (-50 : ℤ) * (1 / √((2 * Real.pi) ^ 2)) := by
  have hp3 := Real.pi_gt_three
  have hp4 := Real.pi_lt_d2
  have hx : 36 ≤ (2 * Real.pi) ^ 2 := by nlinarith
  have hx2 : (2 * Real.pi) ^ 2 ≤ 49 := by nlinarith
  have hΩ : (2 : ℝ) ^ (10 : ℤ) ≤ B64.Ω := B64.le_Ω (by norm_num)
  have hΩ' : (1024 : ℝ) ≤ B64.Ω := le_trans (by norm_num) hΩ
  refine ⟨_, rfl, ?_⟩
  have hu : B64.u = (2 : ℝ) ^ (-53 : ℤ) := rfl
  have hu0 := B64.u_pos
  have hu1 : B64.u ≤ 1 / 1000 := by rw [hu]; norm_num
  have hlam : B64.lam ≤ B64.u := B64.two_zpow_le (by norm_num)
  have hη : B64.η ≤ B64.u / 7 := by
    have : B64.η ≤ (2 : ℝ) ^ (-56 : ℤ) := by rw [B64.η_eq]; exact B64.two_zpow_le (by norm_num)
    refine this.trans ?_
    rw [hu]; norm_num
  generalize (2 * Real.pi) ^ 2 = x at *
  obtain ⟨f1, e1⟩ := B64.cut_error (x := x) (by rw [abs_of_pos (by linarith)]; linarith)
  rw [abs_of_pos (by linarith : 0 < x)] at e1
  have e1' : |B64.val (B64.cut x) - x| ≤ 2 * B64.u * x := by
    have := mul_le_mul_of_nonneg_left hx hu0.le
    linarith
  have hux : B64.u * x ≤ 1 / 1000 * x := mul_le_mul_of_nonneg_right hu1 (by linarith)
  have hy0 : 1 ≤ B64.val (B64.cut x) := by linarith [(abs_le.mp e1').1]
  have hy1 : B64.val (B64.cut x) ≤ 64 := by linarith [(abs_le.mp e1').2]
  obtain ⟨f2, e2⟩ := B64.sqrt_error f1 (by linarith) (by linarith)
  have hs1 : 1 ≤ √(B64.val (B64.cut x)) := Real.one_le_sqrt.mpr hy0
  have hz : 1 / 2 ≤ B64.val (B64.sqrt (B64.cut x)) := by
    have := mul_le_mul_of_nonneg_right hu1 (by linarith : 0 ≤ √(B64.val (B64.cut x)))
    linarith [(abs_le.mp e2).1]
  have h1 := B64.ofNat_val (n := 1) (by norm_num)
  have h1v : B64.val (B64.ofNat 1) = 1 := by rw [h1.2]; norm_num
  obtain ⟨f3, e3⟩ := B64.div_error h1.1.isFin f2 (by linarith) (by
    rw [h1v, abs_of_pos (by positivity), div_le_iff₀ (by linarith)]
    nlinarith)
  rw [h1v] at e3
  refine ⟨f3.isFin, ?_⟩
  have := const_near hu0 hu1 hx hx2 hη e1' e2 e3
  rwa [show 8 * B64.u = (2 : ℝ) ^ (-50 : ℤ) by rw [hu]; norm_num] at this

theorem linalg_mono {κ κ' : ℝ} {L : Lib} (h : L.Linalg κ d) (hκ : κ ≤ κ') (hd : 1 ≤ d)
    (hn : ∃ k, L.normConst d = .ok k ∧ B64.Fin k ∧ |B64.val k - 1 / √((2 * Real.pi) ^ d)| ≤ κ' * (1 / √((2 * Real.pi) ^ d))) :
    L.Linalg κ' d where
  vm := h.vm
  normConst _ := hn
  det A β hA hβ hΩ hT := by
    have hb : 0 ≤ β := (abs_nonneg _).trans (hβ 0 hd 0 hd).2
    have hm := mul_le_mul_of_nonneg_right hκ hb
    obtain ⟨D, h1, h2, T, h3, h4⟩ := h.det A β hA hβ hΩ fun T hn => hT T fun i j => (hn i j).trans hm
    exact ⟨D, h1, h2, T, fun i j => (h3 i j).trans hm, h4.trans (mul_le_mul_of_nonneg_right hκ (abs_nonneg _))⟩
  inv A β c hA hβ hΩ h1 hc hT := by
    have hb : 0 ≤ β := (abs_nonneg _).trans (hβ 0 hd 0 hd).2
    have hm := mul_le_mul_of_nonneg_right hκ hb
    obtain ⟨X, h2, h3, h4⟩ := h.inv A β c hA hβ hΩ h1 hc fun T hn => hT T fun i j => (hn i j).trans hm
    refine ⟨X, h2, h3, fun j => ?_⟩
    obtain ⟨T, h5, h6⟩ := h4 j
    exact ⟨T, fun i j => (h5 i j).trans hm, fun i => ⟨(h6 i).1, (h6 i).2.trans (mul_le_mul_of_nonneg_right hκ (by linarith))⟩⟩

theorem linalg_congr {L L' : Lib} (h : L.Linalg κ d) (h1 : L'.vm = L.vm) (h2 : L'.det = L.det) (h3 : L'.inv = L.inv)
    (hn : ∃ k, L'.normConst d = .ok k ∧ B64.Fin k ∧ |B64.val k - 1 / √((2 * Real.pi) ^ d)| ≤ κ * (1 / √((2 * Real.pi) ^ d))) :
    L'.Linalg κ d where
  vm := by rw [h1]; exact h.vm
  normConst _ := hn
  det := by rw [h2]; exact h.det
  inv := by rw [h3]; exact h.inv

theorem computed_linalg : computed.Linalg ((2 : ℝ) ^ (-50 : ℤ)) 2 := by
  have hr := Lib.rounded_linalg (d := 2) (by norm_num)
  have hle : (2 : ℝ) ^ (-51 : ℤ) ≤ (2 : ℝ) ^ (-50 : ℤ) := B64.two_zpow_le (by norm_num)
  have hΩ : (2 * Real.pi) ^ 2 ≤ B64.Ω := by
    have hp4 := Real.pi_lt_d2
    have hp3 := Real.pi_gt_three
    have h1 : (2 * Real.pi) ^ 2 ≤ 1024 := by nlinarith
    have h2 : (2 : ℝ) ^ (10 : ℤ) ≤ B64.Ω := B64.le_Ω (by norm_num)
    exact h1.trans (le_trans (by norm_num) h2)
  obtain ⟨k, k1, k2, k3⟩ := hr.normConst hΩ
  have h := linalg_mono hr hle (by norm_num) ⟨k, k1, k2, k3.trans (mul_le_mul_of_nonneg_right hle (by positivity))⟩
  exact linalg_congr h rfl rfl rfl computed_const

theorem dots_congr {L L' : Lib} (h : L.Dots d) (e : L'.dot = L.dot) : L'.Dots d := by unfold Lib.Dots at *; rw [e]; exact h
theorem sums_congr {L L' : Lib} (h : L.Sums) (e : L'.npSum = L.npSum) : L'.Sums := by unfold Lib.Sums at *; rw [e]; exact h
theorem batchSums_congr {L L' : Lib} (h : L.BatchSums d) (e : L'.colSum = L.colSum) (e' : L'.sum2 = L.sum2) : L'.BatchSums d := by
  unfold Lib.BatchSums at *; rw [e, e']; exact h
theorem products_congr {L L' : Lib} (h : L.Products) (e : L'.mm = L.mm) : L'.Products := by unfold Lib.Products at *; rw [e]; exact h
theorem expNear_congr {L L' : Lib} {κ' : ℝ} (h : L.ExpNear κ) (e : L'.exp = L.exp) (hκ : κ ≤ κ') : L'.ExpNear κ' := by
  intro a h1 h2
  rw [e]
  exact ⟨(h a h1 h2).1, (h a h1 h2).2.trans hκ⟩
theorem invShape_congr {L L' : Lib} (h : InvShape (F64 L) d) (e : L'.inv = L.inv) : InvShape (F64 L') d := by
  intro A B hA hB
  refine h A B hA ?_
  have hB' : L'.inv A = .ok B := hB
  rw [e] at hB'
  exact hB'

theorem corners_fits' : Fits 2 4 1 ((2 : ℝ) ^ (-50 : ℤ)) ((2 : ℝ) ^ (-12 : ℤ)) := by
  have hδ : Rounding.delta 2 = (10 : ℝ) ^ (-6 : ℤ) := delta_two
  have hs : √(6 * (1 ^ 2 + (10 : ℝ) ^ (-6 : ℤ)) / (10 : ℝ) ^ (-6 : ℤ)) ≤ 2500 := Real.sqrt_le_iff.mpr ⟨by norm_num, by norm_num⟩
  refine ⟨by rw [hδ]; norm_num, ?_, by norm_num, corners_fits.range⟩
  rw [hδ]
  refine (mul_le_mul_of_nonneg_left hs (by positivity)).trans ?_
  norm_num

/-- The four corners of a square in two clusters: the text of rCIP, run in double precision sample by sample, returns the index
`1 / (2 π v) * exp (-1 / (4 v))` with `v = 1 / 2 + 2 * 10 ^ -6`, up to `174 * 2 ^ -12` of its greatest possible value. -/
theorem C102_rCIP_corners (m : LabelMap) (s : Core (F64 computed)) :
    ∃ vs r, (runStream computedLits .rCIP (corners computed) ⟨m, blank .rCIP s⟩).val = .ok (vs ++ [.flt r]) ∧ B64.Fin r ∧
      |B64.val r - 1 / (2 * Real.pi * cornerVar) * Real.exp (-1 / (4 * cornerVar))| ≤
        174 * (2 : ℝ) ^ (-12 : ℤ) * (1 / (2 * Real.pi * cornerVar)) := by
  have hn : Spec.numClusters (real (F := F64 computed) B64.val 2 (corners computed)) = 2 := by
    rw [corners_real, Spec.numClusters, cornerPts_labels, Finset.card_pair (by norm_num)]
  obtain ⟨vs, r, y, h1, h2, h3, h4⟩ := C102_rCIP (L := computed) (M := 1) (dots_congr (Lib.rounded_dots 2) rfl)
    (sums_congr Lib.rounded_sums rfl) (batchSums_congr (Lib.rounded_batchSums 2) rfl rfl) (products_congr Lib.rounded_products rfl)
    computed_delta (expNear_congr Lib.withExp_near rfl (B64.two_zpow_le (by norm_num))) computed_linalg (by positivity)
    (invShape_congr (Lib.rounded_invShape 2) rfl) (by norm_num) (corners computed) corners_dim (by simp [corners, cornerNats])
    (zpow_le_one_of_nonpos₀ (by norm_num) (by norm_num)) corners_le corners_fits' (by rw [hn]; norm_num) computedLits computedLits_laws m s
  rw [corners_real] at h3 h4
  rw [cornerPts_peaks] at h4
  obtain rfl := XR.fin.inj (cornerPts_rCIP.symm.trans h3)
  exact ⟨vs, r, h1, h2, h4⟩

end Verif.Source
