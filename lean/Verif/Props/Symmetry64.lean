import Verif.Props.RCIPAccuracy
import Verif.Props.SilAccuracy
import Verif.Props.Negative64
import Verif.Proofs.Similar

/-!
# C89: in binary64 the value depends on order, origin, orientation and unit of the data only through rounding

C21–C25 in floats.  The exact data sets of `S` and `T` are related by a similarity of the feature space (an isometry may also map into a
space with more features), and the samples come in any order.  Then the values that are returned differ by at most
`2 ^ -42 * (d * n / β + d' * n / β')`, relatively.
-/

namespace Verif
open Spec

theorem Similar.trans {d d' d'' : ℕ} {q q' : ℝ} {X : Stream d} {Y : Stream d'} {Z : Stream d''} (h : Similar q X Y) (h' : Similar q' Y Z) :
    Similar (q' * q) X Z where
  pos := mul_pos h'.pos h.pos
  labels := h'.labels.trans h.labels
  length := h'.length.trans h.length
  size c := (h'.size c).trans (h.size c)
  scatter c hc := by rw [h'.scatter c (h.labels ▸ hc), h.scatter c hc, mul_assoc]
  sep a ha b hb := by rw [h'.sep a (h.labels ▸ ha) b (h.labels ▸ hb), h.sep a ha b hb, mul_assoc]
  toMean c hc := by rw [h'.toMean c (h.labels ▸ hc), h.toMean c hc, mul_assoc]
  toBar c hc := by rw [h'.toBar c (h.labels ▸ hc), h.toBar c hc, mul_assoc]
  cross a ha b hb := by rw [h'.cross a (h.labels ▸ ha) b (h.labels ▸ hb), h.cross a ha b hb, mul_assoc]

end Verif

namespace Verif.Gen
open Py Rounding

theorem Separated.similar {d d' : ℕ} {q β M β' M' : ℝ} {X : Spec.Stream d} {Y : Spec.Stream d'} (h : Similar q X Y) {I : Index}
    (hβ : β' * (d' * M' ^ 2) ≤ q * (β * (d * M ^ 2))) (hI : Separated β M I X) : Separated β' M' I Y := by
  have hn : β' * (Y.length * (d' * M' ^ 2)) ≤ q * (β * (X.length * (d * M ^ 2))) := by
    rw [h.length]
    have := mul_le_mul_of_nonneg_left hβ (Nat.cast_nonneg (α := ℝ) X.length)
    linarith
  have hq := h.pos.le
  have hs : sInf (Spec.pairValues Y (Spec.sep Y)) = q * sInf (Spec.pairValues X (Spec.sep X)) := by
    rw [pairValues_smul h.labels q h.sep, Real.sInf_smul_of_nonneg hq, smul_eq_mul]
  cases I
  case CH => exact ⟨h.WGSS ▸ hn.trans (mul_le_mul_of_nonneg_left hI.1 hq), h.BGSS ▸ hn.trans (mul_le_mul_of_nonneg_left hI.2 hq)⟩
  case WB => exact ⟨h.WGSS ▸ hn.trans (mul_le_mul_of_nonneg_left hI.1 hq), h.BGSS ▸ hn.trans (mul_le_mul_of_nonneg_left hI.2 hq)⟩
  case XB => exact ⟨h.WGSS ▸ hn.trans (mul_le_mul_of_nonneg_left hI.1 hq), hs ▸ hβ.trans (mul_le_mul_of_nonneg_left hI.2 hq)⟩
  case DB =>
    intro a ha b hb hab
    rw [h.labels] at ha hb
    obtain ⟨h1, h2⟩ := hI a ha b hb hab
    rw [h.sep a ha b hb, h.meanScatter a ha, h.meanScatter b hb]
    have h3 := mul_le_mul_of_nonneg_left h1 hq
    have h4 := mul_le_mul_of_nonneg_left h2 hq
    exact ⟨hβ.trans h3, by linarith⟩
  case GD43 => exact ⟨hs ▸ hβ.trans (mul_le_mul_of_nonneg_left hI.1 hq), h.maxScatter ▸ hβ.trans (mul_le_mul_of_nonneg_left hI.2 hq)⟩
  case GD53 =>
    intro a ha b hb hab
    rw [h.labels] at ha hb
    rw [h.scatter a ha, h.scatter b hb, h.size, h.size, ← mul_add, mul_div_assoc]
    exact hβ.trans (mul_le_mul_of_nonneg_left (hI a ha b hb hab) hq)
  all_goals exact hI.elim

open B64
variable {L : Lib} {d d' : ℕ} {M β M' β' : ℝ}

/-- The conditions of C77 and C79 on the samples: features up to `M`, between `2 ^ -400` and `2 ^ 450`, `2 ^ 44` numbers in all, two or more
clusters, and `β` not too small. -/
structure InRange (L : Lib) (d : ℕ) (M β : ℝ) (S : Samples (F64 L)) : Prop where
  dots : L.Dots d
  sums : L.Sums
  batch : L.BatchSums d
  d1 : 1 ≤ d
  dim : S.Dim d
  count : d * S.length ≤ 2 ^ 44
  low : (2 : ℝ) ^ (-400 : ℤ) ≤ M
  high : M ≤ (2 : ℝ) ^ (450 : ℤ)
  bound : ∀ p ∈ S, ∀ a ∈ p.1, Fin a ∧ |val a| ≤ M
  clusters : 2 ≤ Spec.numClusters (real (F := F64 L) val d S)
  margin : (2 : ℝ) ^ (-42 : ℤ) * (d * S.length) ≤ β

/-- The exact data set of `T` is that of `S`, up to the order of the samples and the map `x ↦ A x + b` of the feature space. -/
def Moved (A : Matrix (_root_.Fin d') (_root_.Fin d) ℝ) (b : Spec.Pt d') (S T : Samples (F64 L)) : Prop :=
  (mapPts (affine A b) (real (F := F64 L) val d S)).Perm (real (F := F64 L) val d' T)

theorem Moved.similar {A : Matrix (_root_.Fin d') (_root_.Fin d) ℝ} {b : Spec.Pt d'} {S T : Samples (F64 L)} (h : Moved A b S T) {q : ℝ} (hq : 0 < q)
    (hA : A.transpose * A = q • (1 : Matrix (_root_.Fin d) (_root_.Fin d) ℝ)) :
    Similar q (real (F := F64 L) val d S) (real (F := F64 L) val d' T) := by
  have := (similar_affine (S := real (F := F64 L) val d S) (b := b) hq hA).trans (similar_perm h)
  rwa [one_mul] at this

/-- Two numbers near the same positive number. -/
theorem near_each {a b y e e' : ℝ} (hy : 0 < y) (he : 0 ≤ e) (he0 : 0 ≤ e') (he' : 2 * e' ≤ 1) (h1 : |a - y| ≤ e * y) (h2 : |b - y| ≤ e' * y) :
    0 < b ∧ |a - b| ≤ 2 * (e + e') * b := by
  have h3 := mul_le_mul_of_nonneg_right he' hy.le
  have hb : y ≤ 2 * b := by linarith [(abs_le.mp h2).1]
  have h4 := abs_sub (a - y) (b - y)
  rw [sub_sub_sub_cancel_right] at h4
  have h5 := mul_le_mul_of_nonneg_left hb (add_nonneg he he0)
  exact ⟨by linarith, by linarith⟩

theorem InRange.err {S : Samples (F64 L)} (h : InRange L d M β S) : 0 ≤ (2 : ℝ) ^ (-43 : ℤ) * (d * S.length) / β ∧
    2 * ((2 : ℝ) ^ (-43 : ℤ) * (d * S.length) / β) ≤ 1 := by
  have hn : 1 ≤ S.length := List.length_pos_iff.mpr (order_ne h.clusters)
  have hdn : 0 < (d : ℝ) * S.length := by
    have hd' : (1 : ℝ) ≤ d := by exact_mod_cast h.d1
    have hn' : (1 : ℝ) ≤ S.length := by exact_mod_cast hn
    positivity
  have hm := h.margin
  have h42 : (2 : ℝ) ^ (-42 : ℤ) = 2 * (2 : ℝ) ^ (-43 : ℤ) := by norm_num
  rw [h42] at hm
  have hp : 0 < (2 : ℝ) ^ (-43 : ℤ) := by positivity
  generalize (2 : ℝ) ^ (-43 : ℤ) = c at *
  have hβ0 : 0 < β := lt_of_lt_of_le (by positivity) hm
  exact ⟨by positivity, by rw [mul_div_assoc', div_le_one hβ0]; linarith⟩

theorem double_err {x y β β' : ℝ} : 2 * ((2 : ℝ) ^ (-43 : ℤ) * x / β + (2 : ℝ) ^ (-43 : ℤ) * y / β') = (2 : ℝ) ^ (-42 : ℤ) * (x / β + y / β') := by
  have h42 : (2 : ℝ) ^ (-42 : ℤ) = 2 * (2 : ℝ) ^ (-43 : ℤ) := by norm_num
  rw [h42]
  ring

/-- **C89** (incremental): the last values for two streams that are similar data sets in any order. -/
theorem C89_incremental (I : Index) {S T : Samples (F64 L)} (hS : InRange L d M β S) (hT : InRange L d' M' β' T)
    (hI : Separated β M I (real (F := F64 L) val d S)) {A : Matrix (_root_.Fin d') (_root_.Fin d) ℝ} {b : Spec.Pt d'} {q : ℝ} (hq : 0 < q)
    (hA : A.transpose * A = q • (1 : Matrix (_root_.Fin d) (_root_.Fin d) ℝ)) (hg : I ≠ .GD43 ∨ q = 1) (h : Moved A b S T)
    (hβ : β' * (d' * M' ^ 2) ≤ q * (β * (d * M ^ 2))) :
    ∃ vs v ws w, (feed (mod (F64 L) I) S (mod (F64 L) I).fresh).val = .ok (vs ++ [v]) ∧
      (feed (mod (F64 L) I) T (mod (F64 L) I).fresh).val = .ok (ws ++ [w]) ∧ 0 < val w ∧
      |val v - val w| ≤ (2 : ℝ) ^ (-42 : ℤ) * (d * S.length / β + d' * T.length / β') * val w := by
  have hs := h.similar hq hA
  obtain ⟨vs, v, y, v1, -, v2, v3, v4⟩ := C77_binary64 hS.dots hS.sums hS.d1 I S hS.dim hS.count hS.low hS.high hS.bound hS.clusters hS.margin hI
  obtain ⟨ws, w, z, w1, -, w2, -, w4⟩ := C77_binary64 hT.dots hT.sums hT.d1 I T hT.dim hT.count hT.low hT.high hT.bound hT.clusters hT.margin
    (hI.similar hs hβ)
  have hr : I ≠ .rCIP := by rintro rfl; exact hI.elim
  obtain rfl : y = z := by rw [hs.value hr hg, v2] at w2; exact XR.fin.inj w2
  obtain ⟨h1, h2⟩ := near_each v3 hS.err.1 hT.err.1 hT.err.2 v4 w4
  exact ⟨vs, v, ws, w, v1, w1, h1, double_err ▸ h2⟩

/-- **C89** (batch): one call with each of two data sets that are similar, the rows in any order. -/
theorem C89_batch (I : Index) {S T : Samples (F64 L)} (hS : InRange L d M β S) (hT : InRange L d' M' β' T)
    (hI : Separated β M I (real (F := F64 L) val d S)) {A : Matrix (_root_.Fin d') (_root_.Fin d) ℝ} {b : Spec.Pt d'} {q : ℝ} (hq : 0 < q)
    (hA : A.transpose * A = q • (1 : Matrix (_root_.Fin d) (_root_.Fin d) ℝ)) (hg : I ≠ .GD43 ∨ q = 1) (h : Moved A b S T)
    (hβ : β' * (d' * M' ^ 2) ≤ q * (β * (d * M ^ 2))) (hc : Spec.Consecutive (real (F := F64 L) val d S))
    (o : Obj (F64 L)) (ho : o.core.isSetup = false) :
    ∃ v s w t, batchCall d I S [] o = .ok v { o with core := s } ∧ batchCall d' I T [] o = .ok w { o with core := t } ∧ 0 < val w ∧
      |val v - val w| ≤ (2 : ℝ) ^ (-42 : ℤ) * (d * S.length / β + d' * T.length / β') * val w := by
  have hs := h.similar hq hA
  have hc' : Spec.Consecutive (real (F := F64 L) val d' T) := by
    intro c
    rw [hs.numClusters, hs.labels]
    exact hc c
  obtain ⟨v, s, y, v1, -, v2, v3, v4⟩ := C79_batch64 hS.dots hS.sums hS.batch hS.d1 I S hS.dim hS.count hS.low hS.high hS.bound hS.clusters hc
    hS.margin hI o ho
  obtain ⟨w, t, z, w1, -, w2, -, w4⟩ := C79_batch64 hT.dots hT.sums hT.batch hT.d1 I T hT.dim hT.count hT.low hT.high hT.bound hT.clusters hc'
    hT.margin (hI.similar hs hβ) o ho
  have hr : I ≠ .rCIP := by rintro rfl; exact hI.elim
  obtain rfl : y = z := by rw [hs.value hr hg, v2] at w2; exact XR.fin.inj w2
  obtain ⟨h1, h2⟩ := near_each v3 hS.err.1 hT.err.1 hT.err.2 v4 w4
  exact ⟨v, s, w, t, v1, w1, h1, double_err ▸ h2⟩

/-- Two numbers near the same number. -/
theorem near_both {a b y e e' : ℝ} (h1 : |a - y| ≤ e) (h2 : |b - y| ≤ e') : |a - b| ≤ e + e' := by
  have h4 := abs_sub (a - y) (b - y)
  rw [sub_sub_sub_cancel_right] at h4
  linarith

section
variable {S T : Samples (F64 L)} (hS : InRange L d M β S) (hT : InRange L d' M' β' T) {A : Matrix (_root_.Fin d') (_root_.Fin d) ℝ}
  {b : Spec.Pt d'} {q : ℝ} (hq : 0 < q) (hA : A.transpose * A = q • (1 : Matrix (_root_.Fin d) (_root_.Fin d) ℝ)) (h : Moved A b S T)
  (hβ : β' * (d' * M' ^ 2) ≤ q * (β * (d * M ^ 2)))
include hS hT hq hA h hβ

/-- **C89** for PS, incrementally. -/
theorem C89_PS {κ : ℝ} (he : L.ExpNear κ) (hκ : 2 * κ ≤ 1) (hI : β * (d * M ^ 2) ≤ Spec.beta (real (F := F64 L) val d S)) :
    ∃ vs v ws w, (feed (mod (F64 L) .PS) S (mod (F64 L) .PS).fresh).val = .ok (vs ++ [v]) ∧
      (feed (mod (F64 L) .PS) T (mod (F64 L) .PS).fresh).val = .ok (ws ++ [w]) ∧ Fin v ∧ Fin w ∧
      |val v - val w| ≤ Spec.numClusters (real (F := F64 L) val d S) * ((2 : ℝ) ^ (-42 : ℤ) * (d * S.length / β + d' * T.length / β') + 2 * κ) := by
  have hs := h.similar hq hA
  obtain ⟨vs, v, y, v1, v2, v3, v4⟩ := C82_PS64 hS.dots hS.sums hS.batch he hκ hS.d1 S hS.dim hS.count hS.low hS.high hS.bound hS.clusters
    hS.margin hI
  obtain ⟨ws, w, z, w1, w2, w3, w4⟩ := C82_PS64 hT.dots hT.sums hT.batch he hκ hT.d1 T hT.dim hT.count hT.low hT.high hT.bound hT.clusters
    hT.margin (hs.beta ▸ hβ.trans (mul_le_mul_of_nonneg_left hI hq.le))
  obtain rfl : y = z := by rw [hs.value (by simp) (by simp), v3] at w3; exact XR.fin.inj w3
  refine ⟨vs, v, ws, w, v1, w1, v2, w2, (near_both v4 w4).trans (le_of_eq ?_)⟩
  rw [hs.numClusters]
  ring

/-- **C89** for batches of PS. -/
theorem C89_PS_batch {κ : ℝ} (he : L.ExpNear κ) (hκ : 2 * κ ≤ 1) (hI : β * (d * M ^ 2) ≤ Spec.beta (real (F := F64 L) val d S))
    (hc : Spec.Consecutive (real (F := F64 L) val d S)) (o : Obj (F64 L)) (ho : o.core.isSetup = false) :
    ∃ v s w t, batchCall d .PS S [] o = .ok v { o with core := s } ∧ batchCall d' .PS T [] o = .ok w { o with core := t } ∧ Fin v ∧ Fin w ∧
      |val v - val w| ≤ Spec.numClusters (real (F := F64 L) val d S) * ((2 : ℝ) ^ (-42 : ℤ) * (d * S.length / β + d' * T.length / β') + 2 * κ) := by
  have hs := h.similar hq hA
  obtain ⟨v, s, y, v1, v2, v3, v4⟩ := C82_PS64_batch hS.dots hS.sums hS.batch he hκ hS.d1 S hS.dim hS.count hS.low hS.high hS.bound hS.clusters
    hc hS.margin hI o ho
  obtain ⟨w, t, z, w1, w2, w3, w4⟩ := C82_PS64_batch hT.dots hT.sums hT.batch he hκ hT.d1 T hT.dim hT.count hT.low hT.high hT.bound hT.clusters
    (fun c => by rw [hs.numClusters, hs.labels]; exact hc c) hT.margin (hs.beta ▸ hβ.trans (mul_le_mul_of_nonneg_left hI hq.le)) o ho
  obtain rfl : y = z := by rw [hs.value (by simp) (by simp), v3] at w3; exact XR.fin.inj w3
  refine ⟨v, s, w, t, v1, w1, v2, w2, (near_both v4 w4).trans (le_of_eq ?_)⟩
  rw [hs.numClusters]
  ring

/-- **C89** for batches of cSIL. -/
theorem C89_cSIL_batch (hr : L.RowSums) (hI : SilApart (real (F := F64 L) val d S) (β * (d * M ^ 2)))
    (hc : Spec.Consecutive (real (F := F64 L) val d S)) (o : Obj (F64 L)) (ho : o.core.isSetup = false) :
    ∃ v s w t, batchCall d .cSIL S [] o = .ok v { o with core := s } ∧ batchCall d' .cSIL T [] o = .ok w { o with core := t } ∧ Fin v ∧ Fin w ∧
      |val v - val w| ≤ (2 : ℝ) ^ (-43 : ℤ) * (d * S.length / β + d' * T.length / β') := by
  have hs := h.similar hq hA
  have hI' : SilApart (real (F := F64 L) val d' T) (β' * (d' * M' ^ 2)) := by
    intro c hc
    rw [hs.labels] at hc
    rw [hs.cross c hc c hc, hs.silOther c hc, ← mul_max_of_nonneg _ _ hq.le]
    exact hβ.trans (mul_le_mul_of_nonneg_left (hI c hc) hq.le)
  obtain ⟨v, s, y, v1, v2, v3, v4⟩ := C83_cSIL64_batch hS.dots hS.sums hS.batch hr hS.d1 S hS.dim hS.count hS.low hS.high hS.bound hS.clusters
    hc hS.margin hI o ho
  obtain ⟨w, t, z, w1, w2, w3, w4⟩ := C83_cSIL64_batch hT.dots hT.sums hT.batch hr hT.d1 T hT.dim hT.count hT.low hT.high hT.bound hT.clusters
    (fun c => by rw [hs.numClusters, hs.labels]; exact hc c) hT.margin hI' o ho
  obtain rfl : y = z := by rw [hs.value (by simp) (by simp), v3] at w3; exact XR.fin.inj w3
  refine ⟨v, s, w, t, v1, w1, v2, w2, (near_both v4 w4).trans (le_of_eq ?_)⟩
  ring

end

theorem real_perm {S T : Samples (F64 L)} (h : S.Perm T) : (real (F := F64 L) val d S).Perm (real (F := F64 L) val d T) := h.map _

theorem peaks_perm {X Y : Spec.Stream d} (h : X.Perm Y) : peaks Y = peaks X := by
  have e : ∀ c, Spec.regCov Y c = Spec.regCov X c := fun c => by rw [Spec.regCov, Spec.regCov, cov_perm h]
  simp only [peaks, Verif.labels_perm h, e]

/-- **C89** for rCIP: the same samples in another order. -/
theorem C89_rCIP {κ θ : ℝ} (hL : L.Dots d) (hs : L.Sums) (hb : L.BatchSums d) (hp : L.Products) (hδ : L.DeltaNear d) (he : L.ExpNear κ)
    (hl : L.Linalg κ d) (hκ : 0 ≤ κ) (hi : InvShape (F64 L) d) (hd : 1 ≤ d) (S T : Samples (F64 L)) (hS : S.Dim d) (hne : S ≠ [])
    (hM0 : (2 : ℝ) ^ (-400 : ℤ) ≤ M) (hx : ∀ p ∈ S, ∀ a ∈ p.1, Fin a ∧ |val a| ≤ M) (hf : Fits d S.length M κ θ)
    (hk : Spec.numClusters (real (F := F64 L) val d S) ^ 2 * (2 : ℝ) ^ (-53 : ℤ) ≤ θ) (h : S.Perm T) :
    ∃ vs v ws w, (feed (mod (F64 L) .rCIP) S (mod (F64 L) .rCIP).fresh).val = .ok (vs ++ [v]) ∧
      (feed (mod (F64 L) .rCIP) T (mod (F64 L) .rCIP).fresh).val = .ok (ws ++ [w]) ∧ Fin v ∧ Fin w ∧
      |val v - val w| ≤ 348 * θ * peaks (real (F := F64 L) val d S) := by
  have hr := real_perm (d := d) h
  obtain ⟨vs, v, y, v1, v2, v3, v4⟩ := C85_rCIP64 hL hs hb hp hδ he hl hκ hi hd S hS hne hM0 hx hf hk
  obtain ⟨ws, w, z, w1, w2, w3, w4⟩ := C85_rCIP64 hL hs hb hp hδ he hl hκ hi hd T (fun p hp => hS p (h.mem_iff.mpr hp))
    (fun e => hne (by subst e; exact List.perm_nil.mp h)) hM0 (fun p hp => hx p (h.mem_iff.mpr hp)) (h.length_eq ▸ hf)
    (by rw [Spec.numClusters, Verif.labels_perm hr]; exact hk)
  obtain rfl : y = z := by rw [value_perm .rCIP hr, v3] at w3; exact XR.fin.inj w3
  refine ⟨vs, v, ws, w, v1, w1, v2, w2, (near_both v4 w4).trans (le_of_eq ?_)⟩
  rw [peaks_perm hr]
  ring

/-- **C89**: the same samples in another order, for the six common indices. -/
theorem C89_order (I : Index) {S T : Samples (F64 L)} (hS : InRange L d M β S) (hI : Separated β M I (real (F := F64 L) val d S))
    (h : S.Perm T) :
    ∃ vs v ws w, (feed (mod (F64 L) I) S (mod (F64 L) I).fresh).val = .ok (vs ++ [v]) ∧
      (feed (mod (F64 L) I) T (mod (F64 L) I).fresh).val = .ok (ws ++ [w]) ∧ 0 < val w ∧
      |val v - val w| ≤ (2 : ℝ) ^ (-41 : ℤ) * (d * S.length) / β * val w := by
  have hr := real_perm (d := d) h
  have hT : InRange L d M β T := ⟨hS.dots, hS.sums, hS.batch, hS.d1, fun p hp => hS.dim p (h.mem_iff.mpr hp), h.length_eq ▸ hS.count, hS.low,
    hS.high, fun p hp => hS.bound p (h.mem_iff.mpr hp), by rw [Spec.numClusters, Verif.labels_perm hr]; exact hS.clusters,
    h.length_eq ▸ hS.margin⟩
  have hm : Moved (1 : Matrix (_root_.Fin d) (_root_.Fin d) ℝ) 0 S T := by
    rw [Moved]
    have e : affine (1 : Matrix (_root_.Fin d) (_root_.Fin d) ℝ) 0 = id := by
      funext x i
      simp [affine, Matrix.one_apply]
    rw [e, mapPts]
    simpa using hr
  obtain ⟨vs, v, ws, w, h1, h2, h3, h4⟩ := C89_incremental I hS hT hI one_pos (by simp) (.inr rfl) hm (by rw [one_mul])
  refine ⟨vs, v, ws, w, h1, h2, h3, h4.trans (le_of_eq ?_)⟩
  have h41 : (2 : ℝ) ^ (-41 : ℤ) = 2 * (2 : ℝ) ^ (-42 : ℤ) := by norm_num
  rw [h41, ← h.length_eq]
  ring

/-! ## An example -/

/-- `3, 4` and `6, 7`. -/
def mirroredNats : List (ℕ × ℤ) := [(3, 1), (4, 1), (6, 0), (7, 0)]

/-- The four points `x` of `quads` as `(7 - x, 5)`, in another order. -/
def mirrored : Samples (F64 .plain) := mirroredNats.map fun p => ([B64.ofNat p.1, B64.ofNat 5], p.2)

theorem mirroredNats_le : ∀ p ∈ mirroredNats, p.1 ≤ 7 := by decide

theorem pair_val {a b : B64} {r s : ℝ} (h1 : val a = r) (h2 : val b = s) (z : B64) (i : _root_.Fin 2) : val ([a, b].getD i z) = ![r, s] i := by
  fin_cases i
  · exact h1
  · exact h2

theorem mirrored_real : real (F := F64 .plain) val 2 mirrored = mirroredNats.map fun p => (![(p.1 : ℝ), 5], p.2) := by
  refine (List.map_map (l := mirroredNats)).trans (List.map_congr_left fun p hp => ?_)
  have h := mirroredNats_le p hp
  have h2 : val (B64.ofNat 5) = 5 := by
    have := (ofNat_val (n := 5) (by norm_num)).2
    rw [this, Nat.cast_ofNat]
  exact Prod.ext (funext fun i => pair_val (ofNat_val (n := p.1) (by omega)).2 h2 _ i) rfl

theorem quads_moved : Moved (L := .plain) !![-1; 0] ![7, 5] quads mirrored := by
  rw [Moved, quads_real, mirrored_real]
  have e : mapPts (affine !![-1; 0] ![7, 5]) quadPts = [(![7, 5], 0), (![4, 5], 1), (![6, 5], 0), (![3, 5], 1)] := by
    have h : ∀ r : ℝ, affine !![-1; 0] ![7, 5] (fun _ => r) = ![7 - r, 5] := by
      intro r
      funext i
      fin_cases i
      · simp [affine]; ring
      · simp [affine]
    simp only [mapPts, quadPts, quadNats, List.map_cons, List.map_nil, h]
    norm_num
  rw [e]
  have h : ((mirroredNats.map fun p => (![(p.1 : ℝ), 5], p.2)) : Spec.Stream 2) = [(![3, 5], 1), (![4, 5], 1), (![6, 5], 0), (![7, 5], 0)] := by
    simp [mirroredNats]
  rw [h]
  generalize (![7, 5] : _root_.Fin 2 → ℝ) = a
  generalize (![6, 5] : _root_.Fin 2 → ℝ) = b
  generalize (![4, 5] : _root_.Fin 2 → ℝ) = c
  generalize (![3, 5] : _root_.Fin 2 → ℝ) = d
  have h1 : ([(a, 0), (c, 1), (b, 0), (d, 1)] : Spec.Stream 2).Perm ([(d, 1)] ++ [(a, 0), (c, 1), (b, 0)]) :=
    (List.perm_append_comm (l₁ := [(a, 0), (c, 1), (b, 0)]) (l₂ := [(d, 1)]))
  refine h1.trans (List.Perm.cons _ ?_)
  refine (List.Perm.swap _ _ _).trans (List.Perm.cons _ ?_)
  exact List.Perm.swap _ _ _

theorem quads_inRange : InRange .plain 1 4 (1 / 64) quads where
  dots := Lib.plain_dots 1
  sums := Lib.plain_sums
  batch := Lib.plain_batchSums 1
  d1 := le_rfl
  dim := quads_dim
  count := by
    rw [show quads.length = 4 from rfl]
    norm_num
  low := le_trans (zpow_le_one_of_nonpos₀ (by norm_num) (by norm_num)) (by norm_num)
  high := by
    have : (2 : ℝ) ^ (2 : ℤ) ≤ (2 : ℝ) ^ (450 : ℤ) := two_zpow_le (by norm_num)
    exact le_trans (by norm_num) this
  bound := quads_le
  clusters := by rw [quads_real, Spec.numClusters, quadPts_labels]; simp
  margin := by
    rw [show quads.length = 4 from rfl]
    norm_num

theorem mirrored_inRange : InRange .plain 2 7 (1 / 400) mirrored where
  dots := Lib.plain_dots 2
  sums := Lib.plain_sums
  batch := Lib.plain_batchSums 2
  d1 := by norm_num
  dim := by
    intro p hp
    obtain ⟨q, -, rfl⟩ := List.mem_map.mp hp
    rfl
  count := by
    rw [show mirrored.length = 4 from rfl]
    norm_num
  low := le_trans (zpow_le_one_of_nonpos₀ (by norm_num) (by norm_num)) (by norm_num)
  high := by
    have : (2 : ℝ) ^ (3 : ℤ) ≤ (2 : ℝ) ^ (450 : ℤ) := two_zpow_le (by norm_num)
    exact le_trans (by norm_num) this
  bound := by
    have h : ∀ m : ℕ, m ≤ 7 → Fin (B64.ofNat m) ∧ |val (B64.ofNat m)| ≤ 7 := by
      intro m hm
      have h := ofNat_val (n := m) (by omega)
      refine ⟨h.1.isFin, ?_⟩
      rw [h.2, Nat.abs_cast]
      exact_mod_cast hm
    intro p hp a ha
    obtain ⟨q, hq, rfl⟩ := List.mem_map.mp hp
    rcases List.mem_cons.mp ha with e | e
    · rw [e]
      exact h _ (mirroredNats_le q hq)
    · rw [List.mem_singleton.mp e]
      exact h _ (by norm_num)
  clusters := by
    rw [mirrored_real]
    simp [Spec.numClusters, Spec.labels, mirroredNats]
  margin := by
    rw [show mirrored.length = 4 from rfl]
    norm_num

/-- The six indices of the four points and of their mirror image with a second, constant feature, in another order. -/
theorem quads_mirrored {I : Index} (hI : Common6 I) :
    ∃ vs v ws w, (feed (mod (F64 .plain) I) quads (mod (F64 .plain) I).fresh).val = .ok (vs ++ [v]) ∧
      (feed (mod (F64 .plain) I) mirrored (mod (F64 .plain) I).fresh).val = .ok (ws ++ [w]) ∧ 0 < val w ∧
      |val v - val w| ≤ (2 : ℝ) ^ (-30 : ℤ) * val w := by
  obtain ⟨vs, v, ws, w, h1, h2, h3, h4⟩ := C89_incremental I quads_inRange mirrored_inRange (quads_real ▸ quadPts_separated hI) one_pos
    (by ext i j; fin_cases i; fin_cases j; simp [Matrix.mul_apply]) (.inr rfl) quads_moved (by norm_num)
  refine ⟨vs, v, ws, w, h1, h2, h3, h4.trans (mul_le_mul_of_nonneg_right ?_ h3.le)⟩
  rw [show quads.length = 4 from rfl, show mirrored.length = 4 from rfl]
  norm_num

/-! ## Rounding does make a difference -/

/-- Two clusters of three and four numbers. -/
def seven : List (ℕ × ℤ) := [(0, 0), (20, 1), (1, 0), (24, 1), (6, 0), (29, 1), (13, 1)]

theorem seven_value {I : Index} (hI : Common6 I) :
    value (F := F64 .plain) 1 I (seven.map fun p => ([B64.ofNat p.1], p.2)) ≠
      value (F := F64 .plain) 1 I (seven.reverse.map fun p => ([B64.ofNat p.1], p.2)) := by
  rcases hI with rfl | rfl | rfl | rfl | rfl | rfl <;> decide +kernel

/-- **C89**: bit for bit the values may depend on the order of the samples. -/
theorem C89_bits (I : Index) (hI : Common6 I) : ∃ S T : Samples (F64 .plain), S.Dim 1 ∧ S.Perm T ∧ ∃ vs v ws w,
    (feed (mod (F64 .plain) I) S (mod (F64 .plain) I).fresh).val = .ok (vs ++ [v]) ∧
    (feed (mod (F64 .plain) I) T (mod (F64 .plain) I).fresh).val = .ok (ws ++ [w]) ∧ v ≠ w := by
  have hd : ∀ l : List (ℕ × ℤ), Samples.Dim 1 (F := F64 .plain) (l.map fun p => ([B64.ofNat p.1], p.2)) := by
    intro l p hp
    obtain ⟨q, -, rfl⟩ := List.mem_map.mp hp
    rfl
  obtain ⟨vs, hv⟩ := run_last (ne_of_common hI).1 (hd seven) (by simp [seven])
  obtain ⟨ws, hw⟩ := run_last (ne_of_common hI).1 (hd seven.reverse) (by simp [seven])
  have hn := seven_value hI
  generalize value (F := F64 .plain) 1 I (seven.map fun p => ([B64.ofNat p.1], p.2)) = v at hv hn
  generalize value (F := F64 .plain) 1 I (seven.reverse.map fun p => ([B64.ofNat p.1], p.2)) = w at hw hn
  exact ⟨_, _, hd seven, (List.reverse_perm seven).symm.map _, vs, v, ws, w, hv, hw, hn⟩

end Verif.Gen
