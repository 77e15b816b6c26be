import Verif.Gen.RoundingGD
import Verif.Api

/-!
# Error of the values of the six common indices

For any statistics of the clusters that are accurate, in incremental or batch mode: `formula` has what both modes have in common.
-/

namespace Verif.Gen
open Rounding

variable {F : Type} [Arith F] {d : ℕ} {val : F → ℝ} {fin : F → Prop} {u η Ω M γ β : ℝ} {N : ℕ} {S : Samples F}

/-- The value of an index, from labels, statistics, mean of all samples, a summation, table of distances, quotients (DB) and the number of
samples. -/
def formula (ks : List ℤ) (st : ℤ → Stat F) (m : List F) (sum : List F → F) (t q : ℤ → ℤ → F) (n : ℕ) : Index → F
  | .CH => Arith.pySum (ks.map fun c => Arith.ofNat (st c).n * sum ((List.zipWith (· - ·) (st c).v m).map Arith.sq)) /
      Arith.pySum (ks.map fun c => (st c).cp) * Arith.chFactor n ks.length
  | .WB => Arith.pySum (ks.map fun c => (st c).cp) /
      Arith.pySum (ks.map fun c => Arith.ofNat (st c).n * sum ((List.zipWith (· - ·) (st c).v m).map Arith.sq)) * Arith.ofNat ks.length
  | .XB => Arith.pySum (ks.map fun c => (st c).cp) / (Arith.ofNat n * low ((pairs ks).map fun p => t p.1 p.2))
  | .DB => Arith.npSum (ks.map fun b => high (ks.map fun a => q a b)) / Arith.ofNat ks.length
  | .GD43 | .GD53 => low ((pairs ks).map fun p => t p.1 p.2) /
      (Arith.two * high (ks.map fun c => (st c).cp / Arith.ofNat (st c).n))
  | _ => 0

/-- The number `r` is finite and has relative error at most `err`, and the index it stands for is a positive number. -/
def Accurate (val : F → ℝ) (fin : F → Prop) (d : ℕ) (I : Index) (S : Samples F) (err : ℝ) (r : F) : Prop :=
  fin r ∧ ∃ y, Spec.value I (real val d S) = .fin y ∧ 0 < y ∧ |val r - y| ≤ err * y

/-- The quantities that are divided are not much smaller than they could be. -/
def Separated (β M : ℝ) {d : ℕ} : Index → Spec.Stream d → Prop
  | .CH, X | .WB, X => β * (X.length * (d * M ^ 2)) ≤ Spec.WGSS X ∧ β * (X.length * (d * M ^ 2)) ≤ Spec.BGSS X
  | .XB, X => β * (X.length * (d * M ^ 2)) ≤ Spec.WGSS X ∧ β * (d * M ^ 2) ≤ sInf (Spec.pairValues X (Spec.sep X))
  | .DB, X => ∀ a ∈ Spec.labels X, ∀ b ∈ Spec.labels X, a ≠ b →
      β * (d * M ^ 2) ≤ Spec.sep X a b ∧ 2 * (β * (d * M ^ 2)) ≤ Spec.meanScatter X a + Spec.meanScatter X b
  | .GD43, X => β * (d * M ^ 2) ≤ sInf (Spec.pairValues X (Spec.sep X)) ∧
      β * (d * M ^ 2) ≤ sSup {r | ∃ c ∈ Spec.labels X, r = Spec.meanScatter X c}
  | .GD53, X => ∀ a ∈ Spec.labels X, ∀ b ∈ Spec.labels X, a ≠ b →
      β * (d * M ^ 2) ≤ (Spec.scatter X a + Spec.scatter X b) / ((Spec.size X a : ℝ) + Spec.size X b)
  | _, _ => False

theorem Accurate.mono {I : Index} {e e' : ℝ} {r : F} (h : Accurate val fin d I S e r) (he : e ≤ e') : Accurate val fin d I S e' r := by
  obtain ⟨h1, y, h2, h3, h4⟩ := h
  exact ⟨h1, y, h2, h3, h4.trans (mul_le_mul_of_nonneg_right he h3.le)⟩

theorem order_ne {S : Samples F} (hk : 2 ≤ Spec.numClusters (real val d S)) : S ≠ [] := by
  rintro rfl
  simp [numClusters_real, order] at hk

/-! ## In incremental mode -/

theorem value_formula {I : Index} (hI : Common6 I) (hk : 1 < (order S).length) :
    value d I S = formula (order S) (stat S) (mu S) Arith.pySum (table I S) (quotients S) S.length I := by
  rcases hI with rfl | rfl | rfl | rfl | rfl | rfl <;> (rw [value, if_neg (by omega)]; rfl)

/-- DB's matrix -/
theorem isQuotients_inc : IsQuotients (order S) (stat S) (fun c => spread (stat S c)) (quotients S) := by
  refine ⟨fun a _ => ?_, fun a ha b hb hab => ?_⟩
  · rw [quotients, if_neg (lt_irrefl _)]
  · have hne : (order S).idxOf a ≠ (order S).idxOf b := fun e => hab ((List.idxOf_inj ha).mp e)
    have ht : ∀ x y, x ≠ y → ∃ c e, (c = x ∧ e = y ∨ c = y ∧ e = x) ∧ table .DB S x y = between .DB (stat S c) (stat S e) := by
      intro x y hxy
      rw [table, if_neg hxy]
      split
      · exact ⟨x, y, .inl ⟨rfl, rfl⟩, rfl⟩
      · exact ⟨y, x, .inr ⟨rfl, rfl⟩, rfl⟩
    rcases lt_or_gt_of_ne hne with hlt | hlt
    · obtain ⟨c, e, hce, he⟩ := ht b a hab.symm
      refine ⟨a, b, c, e, _, .inl ⟨rfl, rfl⟩, hce.symm, .inl he, .inr (.inr ?_)⟩
      rw [quotients, if_neg (by omega), if_pos hlt, quotient]
    · obtain ⟨c, e, hce, he⟩ := ht a b hab
      refine ⟨b, a, c, e, _, .inr ⟨rfl, rfl⟩, hce, .inl he, .inr (.inl ?_)⟩
      rw [quotients, if_pos hlt, if_neg (by omega), quotient]

namespace Rounding

section
variable {ks : List ℤ} {st : ℤ → Stat F} {w : List F} {sum : List F → F} {t q : ℤ → ℤ → F}
  (h : Setting F val fin u η Ω M γ N d) (hu : 0 < u) (hη : η ≤ u ^ 2) (hΩ : 1 ≤ u * Ω) (hM : 0 < M) (D : Inputs val fin M N d S)
  (T : Tables val fin M (γ * N) d S ks st w)
  (hk : 2 ≤ Spec.numClusters (real val d S)) (hβ : 1000 * (γ * N) ≤ β)
include h hu hη hΩ hM D T hk hβ

/-- CH -/
theorem Setting.near_CH (hsum : Sums val fin u Ω d sum) (hW : β * (S.length * (d * M ^ 2)) ≤ Spec.WGSS (real val d S))
    (hB : β * (S.length * (d * M ^ 2)) ≤ Spec.BGSS (real val d S)) :
    Accurate val fin d .CH S (430 * (γ * N / β)) (formula ks st w sum t q S.length .CH) := by
  have hne := order_ne hk
  have hn : 0 < (S.length : ℝ) := by exact_mod_cast List.length_pos_iff.mpr hne
  have hd : 0 < (d : ℝ) := by exact_mod_cast h.d1
  have hT : 0 < S.length * (d * M ^ 2) := by positivity
  obtain ⟨fB, eB, B4⟩ := h.bgss D T hsum
  obtain ⟨fW, eW, W4⟩ := h.wgss D T
  have hε := h.eps.2.2.1
  have hβ4 : β ≤ 4 := le_of_mul_le_mul_right (hW.trans W4) hT
  obtain ⟨hβ0, -⟩ := h.beta hu hβ hβ4
  have hW0 : 0 < Spec.WGSS (real val d S) := (mul_pos hβ0 hT).trans_le hW
  have hB0 : 0 < Spec.BGSS (real val d S) := (mul_pos hβ0 hT).trans_le hB
  rw [numClusters_real, ← T.length] at hk
  have hlt := (T.length ▸ clusters_lt hW0.ne')
  have hkn : ks.length ≤ N := hlt.le.trans D.length
  have hv1 : formula ks st w sum t q S.length .CH = Arith.pySum (ks.map fun c =>
      Arith.ofNat (st c).n * sum ((List.zipWith (· - ·) (st c).v w).map Arith.sq)) / Arith.pySum (ks.map fun c => (st c).cp) *
      Arith.chFactor S.length ks.length := by
    rw [formula]
  obtain ⟨ff, ef⟩ := h.full.chFactor S.length ks.length hk hlt.le D.length
  have hk2 : (2 : ℝ) ≤ ks.length := by exact_mod_cast hk
  have hlt' : (ks.length : ℝ) + 1 ≤ S.length := by exact_mod_cast hlt
  have hSN : (S.length : ℝ) ≤ N := by exact_mod_cast D.length
  obtain ⟨f1, e1⟩ := h.quotient hu hη hΩ hT hβ fB fW ff (eB.trans (by linarith [mul_nonneg hε hT.le]))
    (eW.trans (by linarith [mul_nonneg hε hT.le])) hB hW B4 W4 ef
    (by
      rw [mul_div_assoc', le_div_iff₀ (by linarith), one_mul]
      have := mul_le_mul_of_nonneg_left (show 1 ≤ (S.length : ℝ) - ks.length by linarith) (show (0 : ℝ) ≤ N by positivity)
      linarith)
    (by
      rw [div_le_iff₀ (by linarith)]
      have := mul_le_mul_of_nonneg_left (show 1 ≤ (ks.length : ℝ) - 1 by linarith) (show (0 : ℝ) ≤ N by positivity)
      linarith)
  rw [← hv1] at f1 e1
  refine ⟨f1, _, ?_, ?_, e1⟩
  · show Spec.CH (real val d S) = _
    rw [Spec.CH, numClusters_real, ← T.length, if_neg (by omega), if_pos hW0.ne', length_real]
  · have : 0 < ((S.length : ℝ) - ks.length) / ((ks.length : ℝ) - 1) := div_pos (by linarith) (by linarith)
    positivity

/-- WB -/
theorem Setting.near_WB (hsum : Sums val fin u Ω d sum) (hW : β * (S.length * (d * M ^ 2)) ≤ Spec.WGSS (real val d S))
    (hB : β * (S.length * (d * M ^ 2)) ≤ Spec.BGSS (real val d S)) :
    Accurate val fin d .WB S (430 * (γ * N / β)) (formula ks st w sum t q S.length .WB) := by
  have hne := order_ne hk
  have hn : 0 < (S.length : ℝ) := by exact_mod_cast List.length_pos_iff.mpr hne
  have hd : 0 < (d : ℝ) := by exact_mod_cast h.d1
  have hT : 0 < S.length * (d * M ^ 2) := by positivity
  obtain ⟨fB, eB, B4⟩ := h.bgss D T hsum
  obtain ⟨fW, eW, W4⟩ := h.wgss D T
  have hε := h.eps.2.2.1
  have hβ4 : β ≤ 4 := le_of_mul_le_mul_right (hW.trans W4) hT
  obtain ⟨hβ0, -⟩ := h.beta hu hβ hβ4
  have hW0 : 0 < Spec.WGSS (real val d S) := (mul_pos hβ0 hT).trans_le hW
  have hB0 : 0 < Spec.BGSS (real val d S) := (mul_pos hβ0 hT).trans_le hB
  rw [numClusters_real, ← T.length] at hk
  have hkn : ks.length ≤ N := T.length ▸ Inputs.clusters_le.trans D.length
  have hv1 : formula ks st w sum t q S.length .WB = Arith.pySum (ks.map fun c => (st c).cp) / Arith.pySum (ks.map fun c =>
      Arith.ofNat (st c).n * sum ((List.zipWith (· - ·) (st c).v w).map Arith.sq)) *
      Arith.ofNat ks.length := by
    rw [formula]
  obtain ⟨ff, ef⟩ := h.full.ofNat _ hkn
  have hk2 : (2 : ℝ) ≤ ks.length := by exact_mod_cast hk
  have hN1 : (1 : ℝ) ≤ N := by exact_mod_cast h.N1
  obtain ⟨f1, e1⟩ := h.quotient hu hη hΩ hT hβ fW fB ff (eW.trans (by linarith [mul_nonneg hε hT.le]))
    (eB.trans (by linarith [mul_nonneg hε hT.le])) hW hB W4 B4 (r := ks.length) (by rw [ef, sub_self, abs_zero]; positivity)
    (by
      have := mul_le_mul_of_nonneg_right hN1 (show (0 : ℝ) ≤ ks.length by positivity)
      linarith) (by exact_mod_cast hkn)
  rw [← hv1] at f1 e1
  refine ⟨f1, _, ?_, by positivity, e1⟩
  show Spec.WB (real val d S) = _
  rw [Spec.WB, numClusters_real, ← T.length, if_neg (by omega), if_pos hB0.ne']

/-- XB -/
theorem Setting.near_XB (ht : IsTable .XB ks st t) (hW : β * (S.length * (d * M ^ 2)) ≤ Spec.WGSS (real val d S))
    (hL : β * (d * M ^ 2) ≤ sInf (Spec.pairValues (real val d S) (Spec.sep (real val d S)))) :
    Accurate val fin d .XB S (430 * (γ * N / β)) (formula ks st w sum t q S.length .XB) := by
  have hne := order_ne hk
  have hn : 0 < (S.length : ℝ) := by exact_mod_cast List.length_pos_iff.mpr hne
  have hd : 0 < (d : ℝ) := by exact_mod_cast h.d1
  have hdM : 0 < d * M ^ 2 := by positivity
  have hT : 0 < S.length * (d * M ^ 2) := by positivity
  obtain ⟨fW, eW, W4⟩ := h.wgss D T
  have hε := h.eps.2.2.1
  have hβ4 : β ≤ 4 := le_of_mul_le_mul_right (hW.trans W4) hT
  obtain ⟨hβ0, -, hx0, -⟩ := h.beta hu hβ hβ4
  have hW0 : 0 < Spec.WGSS (real val d S) := (mul_pos hβ0 hT).trans_le hW
  rw [numClusters_real, ← T.length] at hk
  obtain ⟨f1, e1, l0, l4⟩ := h.least T (I := .XB) (by simp) ht (by omega)
  have hv1 : formula ks st w sum t q S.length .XB = Arith.pySum (ks.map fun c => (st c).cp) /
      (Arith.ofNat S.length * low ((pairs ks).map fun p => t p.1 p.2)) := by
    rw [formula]
  obtain ⟨f2, e2⟩ := h.scaled (List.length_pos_iff.mpr hne) D.length f1 e1 l0 l4
  have hL0 := (mul_pos hβ0 hdM).trans_le hL
  generalize hl : sInf (Spec.pairValues (real val d S) (Spec.sep (real val d S))) = l at *
  obtain ⟨f3, e3, -⟩ := h.ratio hu hη hΩ hT hβ fW f2 (eW.trans (by linarith [mul_nonneg hε hT.le]))
    (e2.trans (by linarith [mul_nonneg hε hT.le])) hW (by
      have := mul_le_mul_of_nonneg_left hL hn.le
      linarith) W4 (by
      have := mul_le_mul_of_nonneg_left l4 hn.le
      linarith)
  rw [← hv1] at f3 e3
  have hy : 0 < Spec.WGSS (real val d S) / (S.length * l) := by positivity
  refine ⟨f3, _, ?_, hy, e3.trans (mul_le_mul_of_nonneg_right (by linarith) hy.le)⟩
  show Spec.XB (real val d S) = _
  rw [Spec.XB, numClusters_real, ← T.length, if_neg (by omega), Spec.ratio, hl, length_real, if_pos (by positivity)]

/-- GD53 -/
theorem Setting.near_GD53 (ht : IsTable .GD53 ks st t)
    (hP : ∀ a ∈ Spec.labels (real val d S), ∀ b ∈ Spec.labels (real val d S), a ≠ b →
      β * (d * M ^ 2) ≤ (Spec.scatter (real val d S) a + Spec.scatter (real val d S) b) /
        ((Spec.size (real val d S) a : ℝ) + Spec.size (real val d S) b)) :
    Accurate val fin d .GD53 S (430 * (γ * N / β)) (formula ks st w sum t q S.length .GD53) := by
  have hne := order_ne hk
  have hd : 0 < (d : ℝ) := by exact_mod_cast h.d1
  have hT : 0 < d * M ^ 2 := by positivity
  have hε := h.eps.2.2.1
  rw [numClusters_real, ← T.length] at hk
  have hk0 : ks ≠ [] := by rintro e; rw [e] at hk; simp at hk
  obtain ⟨m1, m2⟩ := T.sInf_pairs
    (g := fun a b => (Spec.scatter (real val d S) a + Spec.scatter (real val d S) b) /
        ((Spec.size (real val d S) a : ℝ) + Spec.size (real val d S) b))
    (fun a b => by rw [add_comm (Spec.scatter _ a), add_comm (Spec.size _ a : ℝ)]) (by omega)
  obtain ⟨f1, e1⟩ := low_near h.full (pairs_ne_nil (by omega : 1 < ks.length))
    (fun p hp => h.table53 D T ht hp) m1 m2
  obtain ⟨f2, e2, -, s4⟩ := h.diameter D T hk0
  obtain ⟨-, n2⟩ := T.sSup_labels (g := Spec.meanScatter (real val d S)) hk0
  have hv1 : formula ks st w sum t q S.length .GD53 = low ((pairs ks).map fun p => t p.1 p.2) /
      (Arith.two * high (ks.map fun c => (st c).cp / Arith.ofNat (st c).n)) := by
    rw [formula]
  have hy : Spec.GD53 (real val d S) = Spec.ratio (sInf (Spec.pairValues (real val d S) fun a b =>
      (Spec.scatter (real val d S) a + Spec.scatter (real val d S) b) / ((Spec.size (real val d S) a : ℝ) + Spec.size (real val d S) b)))
      (2 * sSup {r | ∃ c ∈ Spec.labels (real val d S), r = Spec.meanScatter (real val d S) c}) := by
    rw [Spec.GD53, numClusters_real, ← T.length, if_neg (by omega)]
  -- the least pooled mean scatter is at most the largest mean scatter
  obtain ⟨p, hp, ep⟩ := m1
  have hp1 := (mem_pairs hp).1
  have hp2 := (mem_pairs hp).2
  have hA := hP p.1 (by rwa [labels_real, List.mem_toFinset, ← T.mem]) p.2 (by rwa [labels_real, List.mem_toFinset, ← T.mem])
    (pairs_ne T.nodup hp)
  have q1 := n2 _ hp1
  have q2 := n2 _ hp2
  have z1 : (0 : ℝ) < (Spec.size (real val d S) p.1 : ℝ) := by
    rw [size_real]; exact_mod_cast List.length_pos_iff.mpr (T.own_ne hp1)
  have z2 : (0 : ℝ) < (Spec.size (real val d S) p.2 : ℝ) := by
    rw [size_real]; exact_mod_cast List.length_pos_iff.mpr (T.own_ne hp2)
  rw [Spec.meanScatter, div_le_iff₀ z1] at q1
  rw [Spec.meanScatter, div_le_iff₀ z2] at q2
  have hle : (Spec.scatter (real val d S) p.1 + Spec.scatter (real val d S) p.2) /
      ((Spec.size (real val d S) p.1 : ℝ) + Spec.size (real val d S) p.2) ≤
      sSup {r | ∃ c ∈ Spec.labels (real val d S), r = Spec.meanScatter (real val d S) c} := by
    rw [div_le_iff₀ (by linarith)]; linarith
  rw [ep] at hA hle
  generalize sInf (Spec.pairValues (real val d S) fun a b => (Spec.scatter (real val d S) a + Spec.scatter (real val d S) b) /
    ((Spec.size (real val d S) a : ℝ) + Spec.size (real val d S) b)) = a at *
  generalize sSup {r | ∃ c ∈ Spec.labels (real val d S), r = Spec.meanScatter (real val d S) c} = b at *
  have hβ4 : β ≤ 4 := le_of_mul_le_mul_right (hA.trans (hle.trans s4)) hT
  obtain ⟨hβ0, hε0, hx0, hx1, hux, hxβ⟩ := h.beta hu hβ hβ4
  generalize γ * N / β = x at *
  have ha0 : 0 < a := (mul_pos hβ0 hT).trans_le hA
  have hb0 : 0 < 2 * b := by linarith
  have hxA := mul_le_mul_of_nonneg_left hA hx0.le
  have hεT : γ * N * (d * M ^ 2) = x * (β * (d * M ^ 2)) := by rw [← hxβ]; ring
  have hQ0 : 0 < a / (2 * b) := by positivity
  have hxa := mul_pos hx0 ha0
  have huε := h.eps.1
  have hQlow : u ≤ a / (2 * b) := by
    rw [le_div_iff₀ hb0]
    have h1 := mul_le_mul_of_nonneg_left s4 (show 0 ≤ 2 * u by linarith)
    have h2 := mul_le_mul_of_nonneg_right (show 8 * u ≤ β by linarith) hT.le
    linarith
  have hQhigh : 2 * (a / (2 * b)) ≤ 1 := by
    rw [mul_div_assoc', div_le_one hb0]
    linarith
  have hΩ1 : 1 ≤ Ω := by
    have h1 : u ≤ 1 := by linarith
    exact le_of_mul_le_mul_left (a := u) (by linarith) hu
  obtain ⟨f3, e3⟩ := h.div_near hx0.le hx1 hux f1 f2 ha0 hb0 (e1.trans (by linarith)) (e2.trans (by
      have := mul_le_mul_of_nonneg_left hle hx0.le
      linarith)) (hη.trans (by rw [sq]; exact mul_le_mul_of_nonneg_left hQlow hu.le)) (hQhigh.trans hΩ1)
  rw [← hv1] at f3 e3
  refine ⟨f3, _, ?_, hQ0, e3.trans (mul_le_mul_of_nonneg_right (by linarith) hQ0.le)⟩
  show Spec.GD53 (real val d S) = _
  rw [hy, Spec.ratio, if_pos hb0.ne']

omit hη in
/-- GD43 -/
theorem Setting.near_GD43 (ht : IsTable .GD43 ks st t) (hηM : η * (d * M) ≤ u ^ 2) (hΩM : 1 ≤ u * Ω * M)
    (hL : β * (d * M ^ 2) ≤ sInf (Spec.pairValues (real val d S) (Spec.sep (real val d S))))
    (hD : β * (d * M ^ 2) ≤ sSup {r | ∃ c ∈ Spec.labels (real val d S), r = Spec.meanScatter (real val d S) c}) :
    Accurate val fin d .GD43 S (430 * (γ * N / β)) (formula ks st w sum t q S.length .GD43) := by
  have hne := order_ne hk
  have hd1 : (1 : ℝ) ≤ d := by exact_mod_cast h.d1
  have hd : 0 < (d : ℝ) := by linarith
  have hT : 0 < d * M ^ 2 := by positivity
  have hε := h.eps.2.2.1
  rw [numClusters_real, ← T.length] at hk
  have hk0 : ks ≠ [] := by rintro e; rw [e] at hk; simp at hk
  obtain ⟨f2, e2, -, s4⟩ := h.diameter D T hk0
  obtain ⟨l1, l2⟩ := T.sInf_pairs (sep_comm _) (by omega)
  obtain ⟨m1, m2⟩ := T.sInf_pairs (g := fun a b => √(Spec.sep (real val d S) a b))
    (fun a b => by rw [sep_comm]) (by omega)
  have hv1 : formula ks st w sum t q S.length .GD43 = low ((pairs ks).map fun p => t p.1 p.2) /
      (Arith.two * high (ks.map fun c => (st c).cp / Arith.ofNat (st c).n)) := by
    rw [formula]
  have hy : Spec.GD43 (real val d S) = Spec.ratio (sInf (Spec.pairValues (real val d S) fun a b => √(Spec.sep (real val d S) a b)))
      (2 * sSup {r | ∃ c ∈ Spec.labels (real val d S), r = Spec.meanScatter (real val d S) c}) := by
    rw [Spec.GD43, numClusters_real, ← T.length, if_neg (by omega)]
  have hβ4 : β ≤ 4 := le_of_mul_le_mul_right (hD.trans s4) hT
  obtain ⟨hβ0, hε0, hx0, hx1, hux, hxβ⟩ := h.beta hu hβ hβ4
  have hεT : γ * N * (d * M ^ 2) = γ * N / β * (β * (d * M ^ 2)) := by rw [← mul_assoc (γ * N / β), hxβ]
  have hΩ2 : 2 ≤ Ω := by
    have h1 := h.eps.2.1
    have h2 := h.eps.1
    exact le_of_mul_le_mul_left (a := u) (by linarith) hu
  generalize γ * N / β = x at *
  obtain ⟨f1, e1⟩ := low_rel h.full (pairs_ne_nil (by omega : 1 < ks.length)) (δ := 130 * x) (by linarith)
    (fun p hp => h.table43 T hΩ2 hx0.le hx1 hux ht hp (by
      have := mul_le_mul_of_nonneg_left (hL.trans (l2 p hp)) hx0.le
      linarith)) m1 m2
  -- the least distance
  obtain ⟨p, hp, ep⟩ := m1
  obtain ⟨-, -, -, t4⟩ := h.sep T (mem_pairs hp).1 (mem_pairs hp).2
  have hA := hL.trans (l2 p hp)
  rw [← ep] at e1 hy
  have hs0 := (mul_pos hβ0 hT).trans_le hA
  generalize Spec.sep (real val d S) p.1 p.2 = s at *
  generalize sSup {r | ∃ c ∈ Spec.labels (real val d S), r = Spec.meanScatter (real val d S) c} = b at *
  have ha0 : 0 < √s := Real.sqrt_pos.mpr hs0
  have hb0 : 0 < 2 * b := by have := mul_pos hβ0 hT; linarith
  have huε := h.eps.1
  have hQ0 : 0 < √s / (2 * b) := by positivity
  have hss := Real.mul_self_sqrt hs0.le
  have hMM : M ^ 2 ≤ d * M ^ 2 := by have := mul_le_mul_of_nonneg_right hd1 (show 0 ≤ M ^ 2 by positivity); linarith
  -- bounds for the square root
  have r1 : √s ≤ 2 * (d * M) := by
    apply Real.sqrt_le_iff.mpr ⟨by positivity, t4.trans ?_⟩
    have := mul_le_mul_of_nonneg_right hd1 (show 0 ≤ 4 * (d * M ^ 2) by positivity)
    linarith
  have r2 : β * M ≤ 2 * √s := by
    have h1 : β * M / 2 ≤ √s := by
      apply Real.le_sqrt_of_sq_le
      refine le_trans ?_ hA
      have h2 := mul_le_mul_of_nonneg_right hβ4 (show 0 ≤ β * M ^ 2 by positivity)
      have h3 := mul_le_mul_of_nonneg_left hMM hβ0.le
      linarith
    linarith
  have hη1 : η ≤ u * (√s / (2 * b)) := by
    rw [mul_div_assoc', le_div_iff₀ hb0]
    have h1 := mul_le_mul_of_nonneg_left s4 (show 0 ≤ 2 * η by have := h.moderate.η0; linarith)
    have h2 := mul_le_mul_of_nonneg_right hηM (show 0 ≤ 8 * M by positivity)
    have h3 := mul_le_mul_of_nonneg_right (show 16 * u ≤ β by linarith) (show 0 ≤ M * u by positivity)
    have h4 := mul_le_mul_of_nonneg_right r2 hu.le
    linarith
  have hΩ1 : 2 * (√s / (2 * b)) ≤ Ω := by
    have h1 : √s * M ≤ 2 * (d * M ^ 2) := by
      have := mul_le_mul_of_nonneg_right r1 hM.le
      linarith
    have h2 : √s * M * β ≤ 2 * b := by
      have := mul_le_mul_of_nonneg_right h1 hβ0.le
      linarith
    have h3 : √s / (2 * b) * (M * β) ≤ 1 := by
      rw [div_mul_eq_mul_div, div_le_one hb0]; linarith
    have h4 : √s / (2 * b) * (M * u) * 2 ≤ 1 := by
      have := mul_le_mul_of_nonneg_left (show M * (2 * u) ≤ M * β from mul_le_mul_of_nonneg_left (by linarith) hM.le) hQ0.le
      linarith
    exact le_of_mul_le_mul_right (a := M * u) (by linarith) (by positivity)
  obtain ⟨f3, e3⟩ := h.div_near hx0.le hx1 hux f1 f2 ha0 hb0 (e1.trans (by
      have := mul_nonneg hx0.le ha0.le
      linarith)) (e2.trans (by
      have := mul_le_mul_of_nonneg_left hD hx0.le
      have := mul_pos hβ0 hT
      have := mul_nonneg hx0.le (mul_pos hβ0 hT).le
      linarith)) hη1 hΩ1
  rw [← hv1] at f3 e3
  refine ⟨f3, _, ?_, hQ0, e3.trans (mul_le_mul_of_nonneg_right (by linarith) hQ0.le)⟩
  show Spec.GD43 (real val d S) = _
  rw [hy, Spec.ratio, if_pos hb0.ne']

/-- DB -/
theorem Setting.near_DB {sp : ℤ → F}
    (hsp : ∀ c ∈ ks, fin (sp c) ∧ |val (sp c) - Spec.meanScatter (real val d S) c| ≤ 134 * (γ * N * (d * M ^ 2)))
    (hq : IsQuotients ks st sp q) (hL : ∀ a ∈ Spec.labels (real val d S), ∀ b ∈ Spec.labels (real val d S), a ≠ b →
      β * (d * M ^ 2) ≤ Spec.sep (real val d S) a b ∧
      2 * (β * (d * M ^ 2)) ≤ Spec.meanScatter (real val d S) a + Spec.meanScatter (real val d S) b) :
    Accurate val fin d .DB S (450 * (γ * N / β)) (formula ks st w sum t q S.length .DB) := by
  have hne := order_ne hk
  have hd1 : (1 : ℝ) ≤ d := by exact_mod_cast h.d1
  have hT : 0 < d * M ^ 2 := by positivity
  have hk1 := hk
  rw [numClusters_real, ← T.length] at hk
  have hL' : ∀ a ∈ ks, ∀ b ∈ ks, a ≠ b → β * (d * M ^ 2) ≤ Spec.sep (real val d S) a b ∧
      2 * (β * (d * M ^ 2)) ≤ Spec.meanScatter (real val d S) a + Spec.meanScatter (real val d S) b := by
    intro a ha b hb
    exact hL a (by rwa [labels_real, List.mem_toFinset, ← T.mem]) b (by rwa [labels_real, List.mem_toFinset, ← T.mem])
  obtain ⟨a, ha, b, hb, hab⟩ : ∃ a ∈ ks, ∃ b ∈ ks, a ≠ b := by
    obtain ⟨a, ha, b, hb, hab⟩ := Finset.one_lt_card.mp (show 1 < (Spec.labels (real val d S)).card from hk1)
    rw [labels_real, List.mem_toFinset, ← T.mem] at ha hb
    exact ⟨a, ha, b, hb, hab⟩
  have hβ4 : β ≤ 4 := le_of_mul_le_mul_right ((hL' a ha b hb hab).1.trans (h.sep T ha hb).2.2.2) hT
  obtain ⟨hβ0, hε0, hx0, hx1, hux, hxβ⟩ := h.beta hu hβ hβ4
  have hentry := fun {a b} => h.dbEntry D T hu hη hΩ hT hβ hβ4 hL' hsp hq (a := a) (b := b)
  have hk1 : 1 < ks.length := by omega
  have hk0 : ks ≠ [] := by rintro e; rw [e] at hk; simp at hk
  have hsup := fun b => T.dbReal_sup hk1 b
  obtain ⟨m, hm⟩ : ∃ m : ℤ → ℝ, m = fun b => sSup (Spec.otherValues (real val d S) b fun a =>
      (Spec.meanScatter (real val d S) b + Spec.meanScatter (real val d S) a) / Spec.sep (real val d S) b a) := ⟨_, rfl⟩
  have hsup' : ∀ b, (∃ a ∈ ks, dbReal (real val d S) a b = m b) ∧ ∀ a ∈ ks, dbReal (real val d S) a b ≤ m b := by
    intro b
    rw [hm]
    exact hsup b
  -- columns
  have hcol : ∀ b ∈ ks, fin (high (ks.map fun a => q a b)) ∧
      |val (high (ks.map fun a => q a b)) - m b| ≤ 416 * (γ * N / β) * m b ∧ u ≤ m b ∧ m b * (125 * (γ * N)) ≤ 1 := by
    intro b hb
    obtain ⟨f1, i1⟩ := high_rel h.full hk0 (δ := 416 * (γ * N / β)) (by linarith)
      (fun a ha => ⟨(hentry ha hb).1, (hentry ha hb).2.1⟩) (hsup' b).1 (hsup' b).2
    refine ⟨f1, i1, ?_, ?_⟩
    · obtain ⟨a, ha, hab⟩ : ∃ a ∈ ks, a ≠ b := by
        obtain ⟨a, ha, hab⟩ := Finset.exists_mem_ne (s := ks.toFinset)
          (by rwa [List.toFinset_card_of_nodup T.nodup]) b
        exact ⟨a, List.mem_toFinset.mp ha, hab⟩
      exact ((hentry ha hb).2.2.1 hab).trans ((hsup' b).2 a ha)
    · obtain ⟨a, ha, e⟩ := (hsup' b).1
      rw [← e]
      exact (hentry ha hb).2.2.2
  obtain ⟨u0, uγ, γN, η0, ηu, ηγ, ηM, M0, Ω1, Ω2⟩ := h.moderate
  obtain ⟨e1, e2, e3, e4, -⟩ := h.eps
  have hkn : ks.length ≤ N := T.length ▸ Inputs.clusters_le.trans D.length
  have hkN : (ks.length : ℝ) ≤ N := by exact_mod_cast hkn
  have hk2 : (2 : ℝ) ≤ ks.length := by exact_mod_cast hk
  have hγ0 : 0 < γ := hu.trans_le uγ
  obtain ⟨Z, hZ⟩ : ∃ Z, Z = (ks.map m).sum := ⟨_, rfl⟩
  have hZlow : ks.length * u ≤ Z := by
    have := List.card_nsmul_le_sum (ks.map m) u (by
      intro x hx
      obtain ⟨b, hb, rfl⟩ := List.mem_map.mp hx
      exact (hcol b hb).2.2.1)
    simpa [hZ] using this
  have hZhigh : Z * (125 * (γ * N)) ≤ ks.length := by
    have := List.sum_le_card_nsmul ((ks.map m).map fun y => y * (125 * (γ * N))) 1 (by
      intro x hx
      obtain ⟨y, hy, rfl⟩ := List.mem_map.mp hx
      obtain ⟨b, hb, rfl⟩ := List.mem_map.mp hy
      exact (hcol b hb).2.2.2)
    rw [List.sum_map_mul_right] at this
    simpa [hZ, Function.comp_def] using this
  have hZ0 : 0 < Z := lt_of_lt_of_le (by positivity) hZlow
  have hZΩ : 4 * Z ≤ Ω := by
    have h1 : Z * (125 * γ) ≤ 1 := le_of_mul_le_mul_right (a := (N : ℝ)) (by linarith) (by linarith)
    have h2 := mul_le_mul_of_nonneg_left uγ hZ0.le
    have h3 := mul_pos hZ0 hγ0
    exact le_of_mul_le_mul_left (a := u) (by linarith) hu
  obtain ⟨f1, i1⟩ := sum_near (sum := Arith.npSum) (K := max N d) h.full.npSum hu.le ks (hkn.trans (le_max_left ..))
    (f := fun b => high (ks.map fun a => q a b)) (A := m) (e := fun b => 416 * (γ * N / β) * m b)
    (b := fun b => 2 * m b) (fun b hb => ⟨(hcol b hb).1, (hcol b hb).2.1⟩)
    (fun b hb => by
      have h0 : 0 ≤ m b := hu.le.trans (hcol b hb).2.2.1
      rw [abs_of_nonneg h0]
      have := mul_le_mul_of_nonneg_right hx1 h0
      linarith)
    (by rw [List.sum_map_mul_left, ← hZ]; linarith)
  rw [List.sum_map_mul_left, List.sum_map_mul_left, ← hZ] at i1
  have hku : ks.length * u ≤ γ * N := by
    have := mul_le_mul hkN uγ hu.le (by positivity)
    linarith
  have hεx : γ * N ≤ 4 * (γ * N / β) := by
    have := mul_le_mul_of_nonneg_left hβ4 hx0.le
    linarith
  have hv1 : formula ks st w sum t q S.length .DB = Arith.npSum (ks.map fun b => high (ks.map fun a => q a b)) /
      Arith.ofNat ks.length := by
    rw [formula]
  have hy : Spec.DB (real val d S) = .fin (Z / ks.length) := by
    have hpos : ∀ a ∈ Spec.labels (real val d S), ∀ b ∈ Spec.labels (real val d S), a ≠ b → Spec.sep (real val d S) a b ≠ 0 :=
      fun a ha b hb hab => ((mul_pos hβ0 hT).trans_le (hL a ha b hb hab).1).ne'
    rw [Spec.DB, numClusters_real, ← T.length, if_neg (by omega), if_neg, if_neg, show Spec.labels (real val d S) = ks.toFinset by
      ext c; rw [labels_real, List.mem_toFinset, List.mem_toFinset, T.mem], List.sum_toFinset _ T.nodup, hZ, hm]
    · rintro ⟨a, ha, b, hb, hab, e⟩
      exact hpos a ha b hb hab e
    · rintro ⟨a, ha, b, hb, hab, e, -⟩
      exact hpos a ha b hb hab e
  generalize γ * N / β = x at *
  have hZx := mul_pos hx0 hZ0
  have i2 : |val (Arith.npSum (ks.map fun b => high (ks.map fun a => q a b))) - Z| ≤ 432 * x * Z := by
    have h1 := mul_le_mul_of_nonneg_right (hku.trans hεx) hZ0.le
    linarith
  obtain ⟨g1, g2⟩ := h.full.ofNat _ hkn
  generalize Arith.npSum (ks.map fun b => high (ks.map fun a => q a b)) = P at *
  generalize hK : (ks.length : ℝ) = K at *
  have hK0 : 0 < K := by linarith
  have hQ0 : 0 < Z / K := by positivity
  have hQlow : u ≤ Z / K := by rw [le_div_iff₀ hK0]; linarith
  have hQΩ : 4 * (Z / K) ≤ Ω := by
    rw [mul_div_assoc', div_le_iff₀ hK0]
    have := mul_le_mul_of_nonneg_left (show 1 ≤ K by linarith) (show 0 ≤ Ω by linarith)
    linarith
  have i3 : |val P / K - Z / K| ≤ 432 * x * (Z / K) := by
    rw [← sub_div, abs_div, abs_of_pos hK0, div_le_iff₀ hK0, mul_assoc, div_mul_cancel₀ _ hK0.ne']
    exact i2
  have hxQ := mul_le_mul_of_nonneg_right hx1 hQ0.le
  have i4 : |val P / K| ≤ 3 / 2 * (Z / K) := by
    have := abs_le_of_err i3
    rw [abs_of_pos hQ0] at this
    linarith
  obtain ⟨f2, i5⟩ := h.full.div P (Arith.ofNat ks.length) f1 g1 (by rw [g2]; exact hK0.ne') (by rw [g2]; linarith)
  rw [g2] at i5
  rw [← hv1] at f2 i5
  refine ⟨f2, _, hy, hQ0, ?_⟩
  have h1 := abs_add_le (val (formula ks st w sum t q S.length .DB) - val P / K) (val P / K - Z / K)
  rw [sub_add_sub_cancel] at h1
  have h2 := mul_le_mul_of_nonneg_left i4 hu.le
  have h3 := mul_le_mul_of_nonneg_right hux hQ0.le
  have h4 : η ≤ u * (Z / K) := hη.trans (by rw [sq]; exact mul_le_mul_of_nonneg_left hQlow hu.le)
  have h5 := mul_pos hx0 hQ0
  linarith

/-- All six. -/
theorem Setting.near (I : Index) {sp : ℤ → F} (hsum : Sums val fin u Ω d sum) (ht : I ≠ .DB → IsTable I ks st t)
    (hsp : ∀ c ∈ ks, fin (sp c) ∧ |val (sp c) - Spec.meanScatter (real val d S) c| ≤ 134 * (γ * N * (d * M ^ 2)))
    (hq : IsQuotients ks st sp q) (hηM : η * (d * M) ≤ u ^ 2) (hΩM : 1 ≤ u * Ω * M) (hI : Separated β M I (real val d S)) :
    Accurate val fin d I S (450 * (γ * N / β)) (formula ks st w sum t q S.length I) := by
  have hβ0 : 0 < β := by
    have h1 := h.moderate.uγ
    have h2 : (1 : ℝ) ≤ N := by exact_mod_cast h.N1
    have h3 : 0 < γ * N := mul_pos (hu.trans_le h1) (by linarith)
    linarith
  have hx : 430 * (γ * N / β) ≤ 450 * (γ * N / β) := by
    have := div_nonneg h.eps.2.2.1 hβ0.le
    linarith
  have hl := length_real val d S
  match I, hI, ht with
  | .CH, hI, _ => exact (h.near_CH hu hη hΩ hM D T hk hβ hsum (hl ▸ hI.1) (hl ▸ hI.2)).mono hx
  | .WB, hI, _ => exact (h.near_WB hu hη hΩ hM D T hk hβ hsum (hl ▸ hI.1) (hl ▸ hI.2)).mono hx
  | .XB, hI, ht => exact (h.near_XB hu hη hΩ hM D T hk hβ (ht (by simp)) (hl ▸ hI.1) hI.2).mono hx
  | .GD53, hI, ht => exact (h.near_GD53 hu hη hΩ hM D T hk hβ (ht (by simp)) hI).mono hx
  | .GD43, hI, ht => exact (h.near_GD43 hu hΩ hM D T hk hβ (ht (by simp)) hηM hΩM hI.1 hI.2).mono hx
  | .DB, hI, _ => exact h.near_DB hu hη hΩ hM D T hk hβ hsp hq hI

end
end Rounding
end Verif.Gen
