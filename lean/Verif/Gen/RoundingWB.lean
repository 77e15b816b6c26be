import Verif.Gen.RoundingLink

/-! # Error of the sums over clusters: WGSS and BGSS -/

set_option linter.unusedSectionVars false

namespace Verif.Gen.Rounding

variable {F : Type} [Arith F] {val : F → ℝ} {fin : F → Prop} {u η Ω M γ : ℝ} {N d : ℕ}

/-- A stream of at most `N` samples with `d` features of size at most `M`. -/
structure Inputs (val : F → ℝ) (fin : F → Prop) (M : ℝ) (N d : ℕ) (S : Samples F) : Prop where
  dim : S.Dim d
  bound : ∀ p ∈ S, ∀ a ∈ p.1, fin a ∧ |val a| ≤ M
  length : S.length ≤ N

namespace Inputs
variable {S : Samples F} (D : Inputs val fin M N d S)
include D

theorem own_dim {c : ℤ} : ∀ x ∈ own S c, x.length = d := fun x hx => own_length S x D.dim hx

theorem own_bound {c : ℤ} : ∀ x ∈ own S c, ∀ a ∈ x, fin a ∧ |val a| ≤ M := fun x hx' a ha => by
  simp only [own, List.mem_map, List.mem_filter] at hx'
  obtain ⟨p, ⟨hp, _⟩, rfl⟩ := hx'
  exact D.bound p hp a ha

omit D in
theorem own_le {c : ℤ} : (own S c).length ≤ S.length := by
  rw [own, List.length_map]; exact List.length_filter_le ..

omit D in
theorem own_ne {c : ℤ} (hc : c ∈ order S) : own S c ≠ [] := fun e => (own_eq_nil S).mp e hc

theorem all_dim : ∀ x ∈ S.map Prod.fst, x.length = d := fun x hx => by
  obtain ⟨p, hp, rfl⟩ := List.mem_map.mp hx
  exact D.dim p hp

theorem all_bound : ∀ x ∈ S.map Prod.fst, ∀ a ∈ x, fin a ∧ |val a| ≤ M := fun x hx => by
  obtain ⟨p, hp, rfl⟩ := List.mem_map.mp hx
  exact D.bound p hp

omit D in
theorem clusters_le : (order S).length ≤ S.length := by
  conv_rhs => rw [length_eq_sum_own]
  have : ∀ ks : List ℤ, (∀ c ∈ ks, c ∈ order S) → ks.length ≤ (ks.map fun c => (own S c).length).sum := by
    intro ks
    induction ks with
    | nil => simp
    | cons c ks ih =>
      intro hk
      have h1 := ih fun a ha => hk a (by simp [ha])
      have h2 : 0 < (own S c).length := List.length_pos_iff.mpr (own_ne (hk c (by simp)))
      simp only [List.length_cons, List.map_cons, List.sum_cons]
      omega
  exact this _ fun c hc => hc

omit D in
/-- The sum of a bound that is proportional to the sizes. -/
theorem sum_sizes (K : ℝ) : ((order S).map fun c => ((own S c).length : ℝ) * K).sum = S.length * K := by
  conv_rhs => rw [length_eq_sum_own]
  rw [List.sum_map_mul_right]
  push_cast
  simp [Function.comp_def, List.map_map]

end Inputs

theorem zip_sq {v w : List F} (hv : v.length = d) (hw : w.length = d) :
    (List.zipWith (· - ·) v w).map Arith.sq = (List.range d).map fun j => Arith.sq (v.getD j 0 - w.getD j 0) := by
  apply List.ext_getElem
  · simp [hv, hw]
  · intro j h1 h2
    have hj : j < d := by simpa using h2
    simp [List.getD_eq_getElem?_getD, hv, hw, hj]

theorem range_sum_const (K : ℝ) : ((List.range d).map fun _ => K).sum = d * K := by simp

theorem scatter_nonneg (l : List (List F)) : 0 ≤ scatter val l d := by
  refine Finset.sum_nonneg fun j _ => List.sum_nonneg ?_
  intro x hx
  obtain ⟨p, -, rfl⟩ := List.mem_map.mp hx
  positivity

theorem scatter_le {l : List (List F)} (hl : l ≠ []) (hd : ∀ x ∈ l, x.length = d) (hx : ∀ x ∈ l, ∀ a ∈ x, fin a ∧ |val a| ≤ M) :
    scatter val l d ≤ 4 * (l.length * (d * M ^ 2)) := by
  have hxj : ∀ j < d, ∀ x ∈ l, |val (x.getD j 0)| ≤ M := by
    intro j hj x hx'
    have hjx : j < x.length := by rw [hd x hx']; exact hj
    refine (hx x hx' _ ?_).2
    rw [List.getD_eq_getElem?_getD, List.getElem?_eq_getElem hjx]
    exact List.getElem_mem hjx
  have h1 : ∀ j < d, ((column val l j).map fun y => (y - (column val l j).sum / l.length) ^ 2).sum ≤ l.length * (4 * M ^ 2) := by
    intro j hj
    have hm : |(column val l j).sum / l.length| ≤ M := mean_abs (hxj j hj) hl
    have : ∀ z ∈ (column val l j).map fun y => (y - (column val l j).sum / l.length) ^ 2, z ≤ 4 * M ^ 2 := by
      intro z hz
      obtain ⟨y, hy, rfl⟩ := List.mem_map.mp hz
      obtain ⟨x, hx', rfl⟩ := List.mem_map.mp hy
      have h2 := abs_sub (val (x.getD j 0)) ((column val l j).sum / l.length)
      have h3 := hxj j hj x hx'
      have h4 := pow_le_pow_left₀ (abs_nonneg _) (show |val (x.getD j 0) - (column val l j).sum / l.length| ≤ 2 * M by linarith) 2
      rw [sq_abs] at h4
      linarith
    have h5 := List.sum_le_card_nsmul _ _ this
    simpa [column] using h5
  have := sum_le_mul h1
  rw [scatter]
  linarith

/-- If there is scatter, there are more samples than clusters. -/
theorem clusters_lt {S : Samples F} (hW : Spec.WGSS (real val d S) ≠ 0) : (order S).length < S.length := by
  refine lt_of_le_of_ne Inputs.clusters_le fun e => hW ?_
  have h1 : ∀ ks : List ℤ, (∀ c ∈ ks, c ∈ order S) → (ks.map fun c => (own S c).length).sum ≤ ks.length →
      ∀ c ∈ ks, (own S c).length = 1 := by
    intro ks
    induction ks with
    | nil => simp
    | cons a ks ih =>
      intro hk hs
      simp only [List.map_cons, List.sum_cons, List.length_cons] at hs
      have h2 : 0 < (own S a).length := List.length_pos_iff.mpr (Inputs.own_ne (hk a (by simp)))
      have h3 : ks.length ≤ (ks.map fun c => (own S c).length).sum := by
        have : ∀ x ∈ ks.map fun c => (own S c).length, 1 ≤ x := by
          intro x hx
          obtain ⟨c, hc, rfl⟩ := List.mem_map.mp hx
          exact List.length_pos_iff.mpr (Inputs.own_ne (hk c (by simp [hc])))
        have := List.card_nsmul_le_sum _ _ this
        simpa using this
      have h4 := ih (fun c hc => hk c (by simp [hc])) (by omega)
      intro c hc
      rcases List.mem_cons.mp hc with rfl | hc
      · omega
      · exact h4 c hc
  have h2 := h1 (order S) (fun c hc => hc) (by rw [← length_eq_sum_own, e])
  rw [WGSS_real]
  refine List.sum_eq_zero fun x hx => ?_
  obtain ⟨c, hc, rfl⟩ := List.mem_map.mp hx
  obtain ⟨y, hy⟩ := List.length_eq_one_iff.mp (h2 c hc)
  simp [scatter, column, hy]

variable (h : Setting F val fin u η Ω M γ N d)
include h

theorem Setting.du1 : 2 * d * u ≤ 1 ∧ 2 * N * u ≤ 1 := by
  obtain ⟨u0, uγ, γN, η0, ηu, ηγ, ηM, M0, Ω1, Ω2⟩ := h.moderate
  have hN1 : (1 : ℝ) ≤ N := by exact_mod_cast h.N1
  have h1 := mul_le_mul_of_nonneg_left hN1 (u0.trans uγ)
  have h2 := mul_le_mul_of_nonneg_right uγ (show (0 : ℝ) ≤ N by positivity)
  have h3 : 0 ≤ γ * N := mul_nonneg (u0.trans uγ) (by positivity)
  have hdu := h.du
  constructor <;> linarith

/-- The squared distance of two centroids. -/
theorem Setting.dist {sum : List F → F} (hsum : Sums val fin u Ω d sum) {v w : List F} {l l' : List (List F)}
    (hv : Near val fin M (γ * N) d v l) (hw : Near val fin M (γ * N) d w l') :
    fin (sum ((List.zipWith (· - ·) v w).map Arith.sq)) ∧
      |val (sum ((List.zipWith (· - ·) v w).map Arith.sq)) -
        ((List.range d).map fun j => (mean val l j - mean val l' j) ^ 2).sum| ≤ 105 * (γ * N * (d * M ^ 2)) ∧
      0 ≤ ((List.range d).map fun j => (mean val l j - mean val l' j) ^ 2).sum ∧
      ((List.range d).map fun j => (mean val l j - mean val l' j) ^ 2).sum ≤ 4 * (d * M ^ 2) := by
  obtain ⟨u0, uγ, γN, η0, ηu, ηγ, ηM, M0, Ω1, Ω2⟩ := h.moderate
  obtain ⟨e1, e2, e3, e4, -⟩ := h.eps
  have hN1 : (1 : ℝ) ≤ N := by exact_mod_cast h.N1
  have hγ0 : 0 ≤ γ := u0.trans uγ
  have hγ1 : γ ≤ γ * N := by have := mul_le_mul_of_nonneg_left hN1 hγ0; linarith
  have hMM : 0 ≤ M ^ 2 := by positivity
  have hdM : 0 ≤ d * M ^ 2 := by positivity
  have hdu := h.du
  have hs := fun j (hj : j < d) => h.sqDist hv hw hj
  have hεM : 128 * (γ * N * M ^ 2) ≤ M ^ 2 := by have := mul_le_mul_of_nonneg_right e2 hMM; linarith
  rw [zip_sq hv.len hw.len]
  have hNd : d * M ^ 2 ≤ N * (d * M ^ 2) := by have := mul_le_mul_of_nonneg_right hN1 hdM; linarith
  obtain ⟨f1, i1⟩ := sum_near hsum u0 (List.range d) (List.length_range).le (A := fun j => (mean val l j - mean val l' j) ^ 2)
    (e := fun _ => 95 * (γ * N * M ^ 2)) (b := fun _ => 5 * M ^ 2)
    (fun j hj => ⟨(hs j (List.mem_range.mp hj)).1, (hs j (List.mem_range.mp hj)).2.1⟩)
    (fun j hj => by
      have := (hs j (List.mem_range.mp hj)).2.2
      rw [abs_of_nonneg (by positivity)]
      linarith)
    (by rw [range_sum_const]; linarith)
  rw [range_sum_const, range_sum_const, List.length_range] at i1
  refine ⟨f1, i1.trans ?_, List.sum_nonneg ?_, ?_⟩
  · have h1 := mul_le_mul_of_nonneg_right hdu (show 0 ≤ 10 * (d * M ^ 2) by positivity)
    have h2 := mul_le_mul_of_nonneg_right hγ1 hdM
    linarith
  · intro x hx
    obtain ⟨p, -, rfl⟩ := List.mem_map.mp hx
    positivity
  · have := List.sum_le_sum (l := List.range d) (f := fun j => (mean val l j - mean val l' j) ^ 2) (g := fun _ => 4 * M ^ 2)
      fun j hj => (hs j (List.mem_range.mp hj)).2.2
    rw [range_sum_const] at this
    linarith

/-- A number of samples times a squared distance. -/
theorem Setting.scaled {n : ℕ} (hn1 : 1 ≤ n) (hn : n ≤ N) {P : F} {R : ℝ} (f1 : fin P)
    (i1 : |val P - R| ≤ 110 * (γ * N * (d * M ^ 2))) (i2 : 0 ≤ R) (i3 : R ≤ 4 * (d * M ^ 2)) :
    fin (Arith.ofNat n * P) ∧ |val (Arith.ofNat n * P) - n * R| ≤ n * (116 * (γ * N * (d * M ^ 2))) := by
  obtain ⟨u0, uγ, γN, η0, ηu, ηγ, ηM, M0, Ω1, Ω2⟩ := h.moderate
  obtain ⟨e1, e2, e3, e4, -⟩ := h.eps
  obtain ⟨g1, g2⟩ := h.full.ofNat _ hn
  have hn1' : (1 : ℝ) ≤ n := by exact_mod_cast hn1
  have hn' : (n : ℝ) ≤ N := by exact_mod_cast hn
  have hMM : 0 ≤ M ^ 2 := by positivity
  have hdM : 0 ≤ d * M ^ 2 := by positivity
  have hd1 : (1 : ℝ) ≤ d := by exact_mod_cast h.d1
  have hMd : M ^ 2 ≤ d * M ^ 2 := by have := mul_le_mul_of_nonneg_right hd1 hMM; linarith
  have hP5 : |val P| ≤ 5 * (d * M ^ 2) := by
    have h1 := abs_le_of_err i1
    rw [abs_of_nonneg i2] at h1
    have h2 := mul_le_mul_of_nonneg_right e2 hdM
    linarith
  have hnP : |(n : ℝ) * val P| ≤ n * (5 * (d * M ^ 2)) := by
    rw [abs_mul, Nat.abs_cast]
    exact mul_le_mul_of_nonneg_left hP5 (by positivity)
  have hnΩ : (n : ℝ) * (5 * (d * M ^ 2)) ≤ Ω := by
    have := mul_le_mul_of_nonneg_right hn' (show 0 ≤ 5 * (d * M ^ 2) by positivity)
    have : 0 ≤ N * (d * M ^ 2) := by positivity
    linarith
  obtain ⟨f2, i4⟩ := h.full.mul (Arith.ofNat n) P g1 f1 (by rw [g2]; linarith)
  rw [g2] at i4
  refine ⟨f2, ?_⟩
  have h1 := abs_add_le (val (Arith.ofNat n * P) - n * val P) (n * val P - n * R)
  rw [sub_add_sub_cancel, ← mul_sub, abs_mul, Nat.abs_cast] at h1
  have h2 := mul_le_mul_of_nonneg_left i1 (show (0 : ℝ) ≤ n by positivity)
  have h3 := mul_le_mul e1 hnP (abs_nonneg _) e3
  have h4 := mul_le_mul_of_nonneg_left hMd e3
  have h5 : γ * N * (d * M ^ 2) ≤ n * (γ * N * (d * M ^ 2)) := by
    have := mul_le_mul_of_nonneg_right hn1' (show 0 ≤ γ * N * (d * M ^ 2) by positivity)
    linarith
  linarith

/-- Sizes, centroids and compactnesses of the clusters, and the mean of all samples, up to rounding: `ks` are the labels in some order. -/
structure Tables (val : F → ℝ) (fin : F → Prop) (M ε : ℝ) (d : ℕ) (S : Samples F) (ks : List ℤ) (st : ℤ → Stat F) (m : List F) : Prop where
  perm : ks.Perm (order S)
  n : ∀ c ∈ ks, (st c).n = (own S c).length
  v : ∀ c ∈ ks, Near val fin M ε d (st c).v (own S c)
  m : Near val fin M ε d m (S.map Prod.fst)
  cp : ∀ c ∈ ks, fin (st c).cp ∧ |val (st c).cp - scatter val (own S c) d| ≤ (own S c).length * (128 * (ε * (d * M ^ 2)))

namespace Tables
omit h
variable {S : Samples F} {ks : List ℤ} {st : ℤ → Stat F} {m : List F} {ε : ℝ} (T : Tables val fin M ε d S ks st m)
include T

theorem mem {c : ℤ} : c ∈ ks ↔ c ∈ order S := T.perm.mem_iff

theorem nodup : ks.Nodup := T.perm.nodup_iff.mpr (order_nodup S)

theorem length : ks.length = (order S).length := T.perm.length_eq

/-- The sum of a bound that is proportional to the sizes. -/
theorem sum_sizes (K : ℝ) : (ks.map fun c => ((own S c).length : ℝ) * K).sum = S.length * K := by
  rw [← Inputs.sum_sizes]
  exact (T.perm.map _).sum_eq

theorem own_ne {c : ℤ} (hc : c ∈ ks) : own S c ≠ [] := Inputs.own_ne (T.mem.mp hc)

theorem WGSS : Spec.WGSS (real val d S) = (ks.map fun c => scatter val (own S c) d).sum := by
  rw [WGSS_real]
  exact (T.perm.map _).sum_eq.symm

theorem BGSS : Spec.BGSS (real val d S) = (ks.map fun c => ((own S c).length : ℝ) *
    ((List.range d).map fun j => (mean val (own S c) j - mean val (S.map Prod.fst) j) ^ 2).sum).sum := by
  rw [BGSS_real]
  exact (T.perm.map _).sum_eq.symm

end Tables

variable {S : Samples F} (D : Inputs val fin M N d S)
include D

/-- The statistics that are kept in incremental mode. -/
theorem Setting.tables (hS : S ≠ []) : Tables val fin M (γ * N) d S (order S) (stat S) (mu S) where
  perm := List.Perm.refl _
  n c hc := stat_n S hc D.dim
  v c hc := h.centroid (Inputs.own_ne hc) D.own_dim D.own_bound (Inputs.own_le.trans D.length)
  m := by
    rw [mu_eq]
    exact h.centroid (by simpa using hS) D.all_dim D.all_bound (by simpa using D.length)
  cp c hc := by
    have hn : (own S c).length ≤ N := (Inputs.own_le).trans D.length
    have hn' : ((own S c).length : ℝ) ≤ N := by exact_mod_cast hn
    obtain ⟨f1, i1⟩ := cp_scatter h.full.toStandardDot h.moderate (Inputs.own_ne hc) D.own_dim h.d1 D.own_bound hn
    refine ⟨f1, i1.trans ?_⟩
    have hγ0 : 0 ≤ γ := h.moderate.u0.trans h.moderate.uγ
    have := mul_le_mul_of_nonneg_right hn' (show 0 ≤ 128 * γ * (own S c).length * (d * M ^ 2) by positivity)
    linarith

variable {ks : List ℤ} {st : ℤ → Stat F} {m : List F} (T : Tables val fin M (γ * N) d S ks st m)
include T

/-- One term of BGSS. -/
theorem Setting.separation {sum : List F → F} (hsum : Sums val fin u Ω d sum) {c : ℤ} (hc : c ∈ ks) :
    fin (Arith.ofNat (st c).n * sum ((List.zipWith (· - ·) (st c).v m).map Arith.sq)) ∧
      |val (Arith.ofNat (st c).n * sum ((List.zipWith (· - ·) (st c).v m).map Arith.sq)) - (own S c).length *
      ((List.range d).map fun j => (mean val (own S c) j - mean val (S.map Prod.fst) j) ^ 2).sum| ≤
        (own S c).length * (116 * (γ * N * (d * M ^ 2))) ∧
      |((own S c).length : ℝ) * ((List.range d).map fun j => (mean val (own S c) j - mean val (S.map Prod.fst) j) ^ 2).sum| ≤
        (own S c).length * (4 * (d * M ^ 2)) := by
  have hn : (own S c).length ≤ N := (Inputs.own_le).trans D.length
  obtain ⟨f1, i1, i2, i3⟩ := h.dist hsum (T.v c hc) T.m
  rw [T.n c hc]
  obtain ⟨f2, i4⟩ := h.scaled (List.length_pos_iff.mpr (T.own_ne hc)) hn f1 (i1.trans (by
    have := mul_nonneg h.eps.2.2.1 (show 0 ≤ d * M ^ 2 by positivity)
    linarith)) i2 i3
  refine ⟨f2, i4, ?_⟩
  rw [abs_mul, Nat.abs_cast, abs_of_nonneg i2]
  exact mul_le_mul_of_nonneg_left i3 (by positivity)

/-- BGSS -/
theorem Setting.bgss {sum : List F → F} (hsum : Sums val fin u Ω d sum) :
    fin (Arith.pySum (ks.map fun c => Arith.ofNat (st c).n * sum ((List.zipWith (· - ·) (st c).v m).map Arith.sq))) ∧
    |val (Arith.pySum (ks.map fun c => Arith.ofNat (st c).n * sum ((List.zipWith (· - ·) (st c).v m).map Arith.sq))) - Spec.BGSS (real val d S)| ≤ 126 * (γ * N * (S.length * (d * M ^ 2))) ∧
    Spec.BGSS (real val d S) ≤ 4 * (S.length * (d * M ^ 2)) := by
  obtain ⟨u0, uγ, γN, η0, ηu, ηγ, ηM, M0, Ω1, Ω2⟩ := h.moderate
  obtain ⟨e1, e2, e3, e4, -⟩ := h.eps
  have hs := fun c (hc : c ∈ ks) => h.separation D T hsum hc
  have hdM : 0 ≤ d * M ^ 2 := by positivity
  have hk : (ks.length : ℝ) ≤ N := by
    rw [T.length]
    exact_mod_cast (Inputs.clusters_le (S := S)).trans D.length
  have hSN : (S.length : ℝ) ≤ N := by exact_mod_cast D.length
  have huN : u * N ≤ γ * N := mul_le_mul_of_nonneg_right uγ (by positivity)
  have hku : ks.length * u ≤ γ * N := by have := mul_le_mul_of_nonneg_right hk u0; linarith
  have hT : 0 ≤ S.length * (d * M ^ 2) := by positivity
  have hTN : S.length * (d * M ^ 2) ≤ N * (d * M ^ 2) := mul_le_mul_of_nonneg_right hSN hdM
  have hεM : 128 * (γ * N * (d * M ^ 2)) ≤ d * M ^ 2 := by have := mul_le_mul_of_nonneg_right e2 hdM; linarith
  obtain ⟨f1, i1⟩ := sum_near (pySums h.full u0 h.du1.2) u0 ks (T.length ▸ Inputs.clusters_le.trans D.length) 
    (f := fun c => Arith.ofNat (st c).n * sum ((List.zipWith (· - ·) (st c).v m).map Arith.sq))
    (A := fun c => (own S c).length *
      ((List.range d).map fun j => (mean val (own S c) j - mean val (S.map Prod.fst) j) ^ 2).sum)
    (e := fun c => (own S c).length * (116 * (γ * N * (d * M ^ 2)))) (b := fun c => (own S c).length * (5 * (d * M ^ 2)))
    (fun c hc => ⟨(hs c hc).1, (hs c hc).2.1⟩)
    (fun c hc => by
      have h1 := (hs c hc).2.2
      have h2 := mul_le_mul_of_nonneg_left hεM (show (0 : ℝ) ≤ (own S c).length by positivity)
      have h3 : 0 ≤ (own S c).length * (γ * N * (d * M ^ 2)) := by positivity
      linarith)
    (by rw [T.sum_sizes]; linarith)
  rw [T.sum_sizes, T.sum_sizes] at i1
  rw [T.BGSS]
  refine ⟨f1, i1.trans ?_, ?_⟩
  · have h1 := mul_le_mul_of_nonneg_right hku (show 0 ≤ 10 * (S.length * (d * M ^ 2)) by positivity)
    linarith
  · have := List.sum_le_sum (l := ks) (f := fun c => (own S c).length *
      ((List.range d).map fun j => (mean val (own S c) j - mean val (S.map Prod.fst) j) ^ 2).sum)
      (g := fun c => (own S c).length * (4 * (d * M ^ 2))) fun c hc => (le_abs_self _).trans (hs c hc).2.2
    rw [T.sum_sizes] at this
    linarith

/-- The compactness of one cluster. -/
theorem Setting.cp {c : ℤ} (hc : c ∈ ks) : fin (st c).cp ∧
    |val (st c).cp - scatter val (own S c) d| ≤ (own S c).length * (128 * (γ * N * (d * M ^ 2))) ∧
    |scatter val (own S c) d| ≤ (own S c).length * (4 * (d * M ^ 2)) := by
  obtain ⟨u0, uγ, γN, η0, ηu, ηγ, ηM, M0, Ω1, Ω2⟩ := h.moderate
  obtain ⟨e1, e2, e3, e4, -⟩ := h.eps
  obtain ⟨f1, i1⟩ := T.cp c hc
  refine ⟨f1, i1, ?_⟩
  rw [abs_of_nonneg (scatter_nonneg _)]
  have := scatter_le (T.own_ne hc) D.own_dim D.own_bound
  linarith

/-- WGSS -/
theorem Setting.wgss : fin (Arith.pySum (ks.map fun c => (st c).cp)) ∧
    |val (Arith.pySum (ks.map fun c => (st c).cp)) - Spec.WGSS (real val d S)| ≤
      138 * (γ * N * (S.length * (d * M ^ 2))) ∧
    Spec.WGSS (real val d S) ≤ 4 * (S.length * (d * M ^ 2)) := by
  obtain ⟨u0, uγ, γN, η0, ηu, ηγ, ηM, M0, Ω1, Ω2⟩ := h.moderate
  obtain ⟨e1, e2, e3, e4, -⟩ := h.eps
  have hs := fun c (hc : c ∈ ks) => h.cp D T hc
  have hdM : 0 ≤ d * M ^ 2 := by positivity
  have hk : (ks.length : ℝ) ≤ N := by
    rw [T.length]
    exact_mod_cast (Inputs.clusters_le (S := S)).trans D.length
  have hSN : (S.length : ℝ) ≤ N := by exact_mod_cast D.length
  have huN : u * N ≤ γ * N := mul_le_mul_of_nonneg_right uγ (by positivity)
  have hku : ks.length * u ≤ γ * N := by have := mul_le_mul_of_nonneg_right hk u0; linarith
  have hT : 0 ≤ S.length * (d * M ^ 2) := by positivity
  have hTN : S.length * (d * M ^ 2) ≤ N * (d * M ^ 2) := mul_le_mul_of_nonneg_right hSN hdM
  have hεM : 128 * (γ * N * (d * M ^ 2)) ≤ d * M ^ 2 := by have := mul_le_mul_of_nonneg_right e2 hdM; linarith
  obtain ⟨f1, i1⟩ := sum_near (pySums h.full u0 h.du1.2) u0 ks (T.length ▸ Inputs.clusters_le.trans D.length) (f := fun c => (st c).cp)
    (A := fun c => scatter val (own S c) d)
    (e := fun c => (own S c).length * (128 * (γ * N * (d * M ^ 2)))) (b := fun c => (own S c).length * (5 * (d * M ^ 2)))
    (fun c hc => ⟨(hs c hc).1, (hs c hc).2.1⟩)
    (fun c hc => by
      have h1 := (hs c hc).2.2
      have h2 := mul_le_mul_of_nonneg_left hεM (show (0 : ℝ) ≤ (own S c).length by positivity)
      linarith)
    (by rw [T.sum_sizes]; linarith)
  rw [T.sum_sizes, T.sum_sizes] at i1
  rw [T.WGSS]
  refine ⟨f1, i1.trans ?_, ?_⟩
  · have h1 := mul_le_mul_of_nonneg_right hku (show 0 ≤ 10 * (S.length * (d * M ^ 2)) by positivity)
    linarith
  · have := List.sum_le_sum (l := ks) (f := fun c => scatter val (own S c) d)
      (g := fun c => (own S c).length * (4 * (d * M ^ 2))) fun c hc => (le_abs_self _).trans (hs c hc).2.2
    rw [T.sum_sizes] at this
    linarith

end Verif.Gen.Rounding
