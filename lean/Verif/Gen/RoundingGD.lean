import Verif.Gen.RoundingMin

/-! # Error of mean scatters, of Dunn's distances and of DB's quotients -/

namespace Verif.Gen.Rounding

variable {F : Type} [Arith F] {val : F → ℝ} {fin : F → Prop} {u η Ω M γ : ℝ} {N d : ℕ} {ι : Type}

/-- `np.min` of numbers that are known up to a relative error. -/
theorem low_rel (h : StandardFull F val fin u η Ω N γ d) {l : List ι} (hl : l ≠ []) {f : ι → F} {A : ι → ℝ} {δ m : ℝ} (hδ : δ ≤ 1)
    (hf : ∀ i ∈ l, fin (f i) ∧ |val (f i) - A i| ≤ δ * A i) (hm : ∃ i ∈ l, A i = m) (hm' : ∀ i ∈ l, m ≤ A i) :
    fin (low (l.map f)) ∧ |val (low (l.map f)) - m| ≤ δ * m := by
  obtain ⟨i, l, rfl⟩ := List.exists_cons_of_ne_nil hl
  obtain ⟨h1, ⟨x, hx, h2⟩, h3⟩ := h.minOf (f i) (l.map f) (by
    intro x hx
    rw [← List.map_cons] at hx
    obtain ⟨j, hj, rfl⟩ := List.mem_map.mp hx
    exact (hf j hj).1)
  rw [← List.map_cons] at hx h3
  obtain ⟨j, hj, rfl⟩ := List.mem_map.mp hx
  obtain ⟨k, hk, rfl⟩ := hm
  rw [List.map_cons, low]
  refine ⟨h1, abs_le.mpr ⟨?_, ?_⟩⟩
  · have := abs_le.mp (hf j hj).2
    have h4 := mul_le_mul_of_nonneg_left (hm' j hj) (show 0 ≤ 1 - δ by linarith)
    linarith [this.1]
  · have := abs_le.mp (hf k hk).2
    linarith [h3 _ (List.mem_map_of_mem hk), this.2]

/-- `np.max` of numbers that are known up to a relative error. -/
theorem high_rel (h : StandardFull F val fin u η Ω N γ d) {l : List ι} (hl : l ≠ []) {f : ι → F} {A : ι → ℝ} {δ m : ℝ} (hδ : 0 ≤ δ)
    (hf : ∀ i ∈ l, fin (f i) ∧ |val (f i) - A i| ≤ δ * A i) (hm : ∃ i ∈ l, A i = m) (hm' : ∀ i ∈ l, A i ≤ m) :
    fin (high (l.map f)) ∧ |val (high (l.map f)) - m| ≤ δ * m := by
  obtain ⟨i, l, rfl⟩ := List.exists_cons_of_ne_nil hl
  obtain ⟨h1, ⟨x, hx, h2⟩, h3⟩ := h.maxOf (f i) (l.map f) (by
    intro x hx
    rw [← List.map_cons] at hx
    obtain ⟨j, hj, rfl⟩ := List.mem_map.mp hx
    exact (hf j hj).1)
  rw [← List.map_cons] at hx h3
  obtain ⟨j, hj, rfl⟩ := List.mem_map.mp hx
  obtain ⟨k, hk, rfl⟩ := hm
  rw [List.map_cons, high]
  refine ⟨h1, abs_le.mpr ⟨?_, ?_⟩⟩
  · have := abs_le.mp (hf k hk).2
    linarith [h3 _ (List.mem_map_of_mem hk), this.1]
  · have := abs_le.mp (hf j hj).2
    have h4 := mul_le_mul_of_nonneg_left (hm' j hj) (show 0 ≤ 1 + δ by linarith)
    linarith [this.2]

/-- The square root of a number with relative error `δ`. -/
theorem sqrt_rel {s s' δ : ℝ} (hs : 0 ≤ s) (hs' : 0 ≤ s') (h : |s' - s| ≤ δ * s) : |√s' - √s| ≤ δ * √s := by
  rcases hs.eq_or_lt with rfl | hs0
  · have : s' = 0 := by simpa using h
    simp [this]
  have h0 : 0 < √s := Real.sqrt_pos.mpr hs0
  have h1 : |√s' - √s| * (√s' + √s) = |s' - s| := by
    have h3 := Real.sqrt_nonneg s'
    have e : s' - s = (√s' - √s) * (√s' + √s) := by
      have := Real.mul_self_sqrt hs
      have := Real.mul_self_sqrt hs'
      linarith
    rw [e, abs_mul, abs_of_nonneg (show 0 ≤ √s' + √s by linarith)]
  have h2 : |√s' - √s| * √s ≤ δ * √s * √s := by
    have h3 := mul_le_mul_of_nonneg_left (show √s ≤ √s' + √s by linarith [Real.sqrt_nonneg s']) (abs_nonneg (√s' - √s))
    have h4 := Real.mul_self_sqrt hs
    have e : δ * √s * √s = δ * s := by rw [mul_assoc, h4]
    linarith
  exact le_of_mul_le_mul_right h2 h0

omit [Arith F] in
/-- Two clusters together have at most as many samples as all. -/
theorem own_add_le {S : Samples F} {a b : ℤ} (hab : a ≠ b) : (own S a).length + (own S b).length ≤ S.length := by
  unfold own
  rw [List.length_map, List.length_map]
  induction S with
  | nil => simp
  | cons p S ih =>
    rw [List.filter_cons, List.filter_cons]
    by_cases h1 : p.2 = a <;> by_cases h2 : p.2 = b <;> simp [h1, h2, hab, hab.symm] <;> first | (exact absurd (h1.symm.trans h2) hab) | omega

variable {S : Samples F} {ks : List ℤ} {st : ℤ → Stat F} {w : List F} (h : Setting F val fin u η Ω M γ N d) (D : Inputs val fin M N d S)
  (T : Tables val fin M (γ * N) d S ks st w)
include h D T

/-- The mean scatter of a cluster. -/
theorem Setting.meanScatter {c : ℤ} (hc : c ∈ ks) : fin ((st c).cp / Arith.ofNat (st c).n) ∧
    |val ((st c).cp / Arith.ofNat (st c).n) - Spec.meanScatter (real val d S) c| ≤ 134 * (γ * N * (d * M ^ 2)) ∧
    0 ≤ Spec.meanScatter (real val d S) c ∧ Spec.meanScatter (real val d S) c ≤ 4 * (d * M ^ 2) := by
  obtain ⟨u0, uγ, γN, η0, ηu, ηγ, ηM, M0, Ω1, Ω2⟩ := h.moderate
  obtain ⟨e1, e2, e3, e4, -⟩ := h.eps
  obtain ⟨f1, i1, i2⟩ := h.cp D T hc
  have hn : (own S c).length ≤ N := (Inputs.own_le).trans D.length
  have hn1 : 1 ≤ (own S c).length := List.length_pos_iff.mpr (T.own_ne hc)
  rw [Spec.meanScatter, scatter_real, size_real, T.n c hc]
  have s0 := scatter_nonneg (val := val) (d := d) (own S c)
  rw [abs_of_nonneg s0] at i2
  generalize Rounding.scatter val (own S c) d = s at *
  generalize (st c).cp = C at *
  obtain ⟨g1, g2⟩ := h.full.ofNat _ hn
  generalize (own S c).length = n at *
  have hn' : (1 : ℝ) ≤ n := by exact_mod_cast hn1
  have hn0 : (0 : ℝ) < n := by linarith
  have hN1 : (1 : ℝ) ≤ N := by exact_mod_cast h.N1
  have hd1 : (1 : ℝ) ≤ d := by exact_mod_cast h.d1
  have hMM : 0 ≤ M ^ 2 := by positivity
  have hdM : 0 ≤ d * M ^ 2 := by positivity
  have hMd : M ^ 2 ≤ d * M ^ 2 := by have := mul_le_mul_of_nonneg_right hd1 hMM; linarith
  have hNd : d * M ^ 2 ≤ N * (d * M ^ 2) := by have := mul_le_mul_of_nonneg_right hN1 hdM; linarith
  have j1 : |val C / n - s / n| ≤ 128 * (γ * N * (d * M ^ 2)) := by
    rw [← sub_div, abs_div, Nat.abs_cast, div_le_iff₀ hn0]; linarith
  have j2 : 0 ≤ s / n := by positivity
  have j3 : s / n ≤ 4 * (d * M ^ 2) := by rw [div_le_iff₀ hn0]; linarith
  have j4 : |val C / n| ≤ 5 * (d * M ^ 2) := by
    have := abs_le_of_err j1
    rw [abs_of_nonneg j2] at this
    have := mul_le_mul_of_nonneg_right e2 hdM
    linarith
  obtain ⟨f2, i3⟩ := h.full.div C (Arith.ofNat n) f1 g1 (by rw [g2]; exact hn0.ne') (by rw [g2]; linarith)
  rw [g2] at i3
  refine ⟨f2, ?_, j2, j3⟩
  have h1 := abs_add_le (val (C / Arith.ofNat n) - val C / n) (val C / n - s / n)
  rw [sub_add_sub_cancel] at h1
  have h2 := mul_le_mul e1 j4 (abs_nonneg _) e3
  have h3 := mul_le_mul_of_nonneg_left hMd e3
  linarith

/-- The pooled mean scatter of two clusters. -/
theorem Setting.pooled {a b : ℤ} (ha : a ∈ ks) (hb : b ∈ ks) (hab : a ≠ b) :
    fin (((st a).cp + (st b).cp) / Arith.ofNat ((st a).n + (st b).n)) ∧
    |val (((st a).cp + (st b).cp) / Arith.ofNat ((st a).n + (st b).n)) -
      (Spec.scatter (real val d S) a + Spec.scatter (real val d S) b) /
        ((Spec.size (real val d S) a : ℝ) + Spec.size (real val d S) b)| ≤ 140 * (γ * N * (d * M ^ 2)) ∧
    0 ≤ (Spec.scatter (real val d S) a + Spec.scatter (real val d S) b) / ((Spec.size (real val d S) a : ℝ) + Spec.size (real val d S) b) ∧
    (Spec.scatter (real val d S) a + Spec.scatter (real val d S) b) / ((Spec.size (real val d S) a : ℝ) + Spec.size (real val d S) b) ≤
      4 * (d * M ^ 2) := by
  obtain ⟨u0, uγ, γN, η0, ηu, ηγ, ηM, M0, Ω1, Ω2⟩ := h.moderate
  obtain ⟨e1, e2, e3, e4, -⟩ := h.eps
  obtain ⟨f1, i1, i2⟩ := h.cp D T ha
  obtain ⟨f2, i3, i4⟩ := h.cp D T hb
  have hn1 : 1 ≤ (own S a).length := List.length_pos_iff.mpr (T.own_ne ha)
  have hnm := (own_add_le (S := S) hab).trans D.length
  rw [scatter_real, size_real, scatter_real, size_real, T.n a ha, T.n b hb]
  have s0 := scatter_nonneg (val := val) (d := d) (own S a)
  have t0 := scatter_nonneg (val := val) (d := d) (own S b)
  rw [abs_of_nonneg s0] at i2
  rw [abs_of_nonneg t0] at i4
  generalize Rounding.scatter val (own S a) d = s at *
  generalize Rounding.scatter val (own S b) d = t at *
  generalize (st a).cp = C at *
  generalize (st b).cp = E at *
  obtain ⟨g1, g2⟩ := h.full.ofNat _ hnm
  generalize (own S a).length = m at *
  generalize (own S b).length = n at *
  have hm' : (1 : ℝ) ≤ m := by exact_mod_cast hn1
  have hn' : (0 : ℝ) ≤ n := by positivity
  have hN1 : (1 : ℝ) ≤ N := by exact_mod_cast h.N1
  have hmn : (m : ℝ) + n ≤ N := by exact_mod_cast hnm
  have hd1 : (1 : ℝ) ≤ d := by exact_mod_cast h.d1
  have hMM : 0 ≤ M ^ 2 := by positivity
  have hdM : 0 ≤ d * M ^ 2 := by positivity
  have hMd : M ^ 2 ≤ d * M ^ 2 := by have := mul_le_mul_of_nonneg_right hd1 hMM; linarith
  have hNd : d * M ^ 2 ≤ N * (d * M ^ 2) := by have := mul_le_mul_of_nonneg_right hN1 hdM; linarith
  push_cast at g2
  obtain ⟨w, hw⟩ : ∃ w : ℝ, w = m + n := ⟨_, rfl⟩
  rw [← hw] at hmn g2 ⊢
  have hw0 : 0 < w := by linarith
  have hwd : w * (d * M ^ 2) ≤ N * (d * M ^ 2) := mul_le_mul_of_nonneg_right hmn hdM
  have hwd0 : 0 ≤ w * (d * M ^ 2) := by positivity
  have hεw := mul_le_mul_of_nonneg_right e2 hwd0
  have k1 : |val C + val E - (s + t)| ≤ 128 * (γ * N * (w * (d * M ^ 2))) := by
    have := abs_add_le (val C - s) (val E - t)
    rw [show val C - s + (val E - t) = val C + val E - (s + t) by ring] at this
    rw [hw]
    linarith
  have k2 : s + t ≤ 4 * (w * (d * M ^ 2)) := by rw [hw]; linarith
  have k3 : |val C + val E| ≤ 5 * (w * (d * M ^ 2)) := by
    have := abs_le_of_err k1
    rw [abs_of_nonneg (show 0 ≤ s + t by linarith)] at this
    linarith
  obtain ⟨f3, i5⟩ := h.full.add C E f1 f2 (by linarith)
  have k4 : |val (C + E) - (s + t)| ≤ 133 * (γ * N * (w * (d * M ^ 2))) := by
    have h1 := abs_add_le (val (C + E) - (val C + val E)) (val C + val E - (s + t))
    rw [sub_add_sub_cancel] at h1
    have h2 := mul_le_mul e1 k3 (abs_nonneg _) e3
    linarith
  have j1 : |val (C + E) / w - (s + t) / w| ≤ 133 * (γ * N * (d * M ^ 2)) := by
    rw [← sub_div, abs_div, abs_of_pos hw0, div_le_iff₀ hw0]; linarith
  have j2 : 0 ≤ (s + t) / w := by positivity
  have j3 : (s + t) / w ≤ 4 * (d * M ^ 2) := by rw [div_le_iff₀ hw0]; linarith
  have j4 : |val (C + E) / w| ≤ 6 * (d * M ^ 2) := by
    have := abs_le_of_err j1
    rw [abs_of_nonneg j2] at this
    have := mul_le_mul_of_nonneg_right e2 hdM
    linarith
  obtain ⟨f4, i6⟩ := h.full.div (C + E) (Arith.ofNat (m + n)) f3 g1 (by rw [g2]; exact hw0.ne') (by rw [g2]; linarith)
  rw [g2] at i6
  refine ⟨f4, ?_, j2, j3⟩
  have h1 := abs_add_le (val ((C + E) / Arith.ofNat (m + n)) - val (C + E) / w) (val (C + E) / w - (s + t) / w)
  rw [sub_add_sub_cancel] at h1
  have h2 := mul_le_mul e1 j4 (abs_nonneg _) e3
  have h3 := mul_le_mul_of_nonneg_left hMd e3
  linarith

/-- Twice the largest mean scatter. -/
theorem Setting.diameter (hk : ks ≠ []) :
    fin (Arith.two * high (ks.map fun c => (st c).cp / Arith.ofNat (st c).n)) ∧
    |val (Arith.two * high (ks.map fun c => (st c).cp / Arith.ofNat (st c).n)) -
      2 * sSup {r | ∃ c ∈ Spec.labels (real val d S), r = Spec.meanScatter (real val d S) c}| ≤ 280 * (γ * N * (d * M ^ 2)) ∧
    0 ≤ sSup {r | ∃ c ∈ Spec.labels (real val d S), r = Spec.meanScatter (real val d S) c} ∧
    sSup {r | ∃ c ∈ Spec.labels (real val d S), r = Spec.meanScatter (real val d S) c} ≤ 4 * (d * M ^ 2) := by
  obtain ⟨u0, uγ, γN, η0, ηu, ηγ, ηM, M0, Ω1, Ω2⟩ := h.moderate
  obtain ⟨e1, e2, e3, e4, -⟩ := h.eps
  obtain ⟨m1, m2⟩ := T.sSup_labels (g := Spec.meanScatter (real val d S)) hk
  obtain ⟨f1, i1⟩ := high_near h.full hk (fun c hc => ⟨(h.meanScatter D T hc).1, (h.meanScatter D T hc).2.1⟩) m1 m2
  obtain ⟨c, hc, e⟩ := m1
  have i2 := (h.meanScatter D T hc).2.2
  rw [e] at i2
  generalize sSup {r | ∃ c ∈ Spec.labels (real val d S), r = Spec.meanScatter (real val d S) c} = m at *
  generalize high (ks.map fun c => (st c).cp / Arith.ofNat (st c).n) = H at *
  have hN1 : (1 : ℝ) ≤ N := by exact_mod_cast h.N1
  have hd1 : (1 : ℝ) ≤ d := by exact_mod_cast h.d1
  have hMM : 0 ≤ M ^ 2 := by positivity
  have hdM : 0 ≤ d * M ^ 2 := by positivity
  have hMd : M ^ 2 ≤ d * M ^ 2 := by have := mul_le_mul_of_nonneg_right hd1 hMM; linarith
  have hNd : d * M ^ 2 ≤ N * (d * M ^ 2) := by have := mul_le_mul_of_nonneg_right hN1 hdM; linarith
  obtain ⟨g1, g2⟩ := h.full.two
  have j1 : |2 * val H| ≤ 11 * (d * M ^ 2) := by
    rw [abs_mul, abs_two]
    have := abs_le_of_err i1
    rw [abs_of_nonneg i2.1] at this
    have := mul_le_mul_of_nonneg_right e2 hdM
    linarith [i2.2]
  obtain ⟨f2, i3⟩ := h.full.mul Arith.two H g1 f1 (by rw [g2]; linarith)
  rw [g2] at i3
  refine ⟨f2, ?_, i2.1, i2.2⟩
  have h1 := abs_add_le (val (Arith.two * H) - 2 * val H) (2 * val H - 2 * m)
  rw [sub_add_sub_cancel, ← mul_sub, abs_mul, abs_two] at h1
  have h2 := mul_le_mul e1 j1 (abs_nonneg _) e3
  have h3 := mul_le_mul_of_nonneg_left hMd e3
  linarith

/-- The distances of GD53. -/
theorem Setting.table53 {t : ℤ → ℤ → F} (ht : IsTable .GD53 ks st t) {p : ℤ × ℤ} (hp : p ∈ pairs ks) :
    fin (t p.1 p.2) ∧ |val (t p.1 p.2) - (Spec.scatter (real val d S) p.1 + Spec.scatter (real val d S) p.2) /
        ((Spec.size (real val d S) p.1 : ℝ) + Spec.size (real val d S) p.2)| ≤ 146 * (γ * N * (d * M ^ 2)) := by
  have key : ∀ {E : F} {a b : ℤ}, a ∈ ks → b ∈ ks → a ≠ b →
      Entry E (((st a).cp + (st b).cp) / Arith.ofNat ((st a).n + (st b).n)) →
      fin E ∧ |val E - (Spec.scatter (real val d S) a + Spec.scatter (real val d S) b) /
        ((Spec.size (real val d S) a : ℝ) + Spec.size (real val d S) b)| ≤ 146 * (γ * N * (d * M ^ 2)) := by
    intro E a b ha hb hab hE
    obtain ⟨f1, i1, i2, i3⟩ := h.pooled D T ha hb hab
    obtain ⟨f2, i4⟩ := h.entry_near (K := 6) hE f1 i1 (by
      have h1 := abs_le_of_err i1
      rw [abs_of_nonneg i2] at h1
      have h2 := mul_le_mul_of_nonneg_right h.eps.2.1 (show 0 ≤ d * M ^ 2 by positivity)
      linarith [show 0 ≤ d * M ^ 2 by positivity]) (by norm_num)
    exact ⟨f2, by linarith⟩
  have hne := pairs_ne T.nodup hp
  rcases ht p hp with hE | hE
  · exact key (mem_pairs hp).1 (mem_pairs hp).2 hne hE
  · rw [add_comm (Spec.scatter _ p.1), add_comm (Spec.size _ p.1 : ℝ)]
    exact key (mem_pairs hp).2 (mem_pairs hp).1 hne.symm hE

omit D in
/-- The distances of GD43; `x` is an error relative to the squared distance. -/
theorem Setting.table43 (hΩ : 2 ≤ Ω) {x : ℝ} (hx0 : 0 ≤ x) (hx : 1000 * x ≤ 1) (hux : u ≤ 4 * x) {t : ℤ → ℤ → F} (ht : IsTable .GD43 ks st t)
    {p : ℤ × ℤ} (hp : p ∈ pairs ks) (hs : γ * N * (d * M ^ 2) ≤ x * Spec.sep (real val d S) p.1 p.2) :
    fin (t p.1 p.2) ∧
      |val (t p.1 p.2) - √(Spec.sep (real val d S) p.1 p.2)| ≤ 130 * x * √(Spec.sep (real val d S) p.1 p.2) := by
  have key : ∀ {E : F} {a b : ℤ}, a ∈ ks → b ∈ ks → γ * N * (d * M ^ 2) ≤ x * Spec.sep (real val d S) a b →
      Entry E (Arith.sqrt (Arith.npSum ((List.zipWith (· - ·) (st a).v (st b).v).map Arith.sq))) →
      fin E ∧ |val E - √(Spec.sep (real val d S) a b)| ≤ 130 * x * √(Spec.sep (real val d S) a b) := by
    intro E a b ha hb hs hE
    obtain ⟨f1, i1, i2, i3⟩ := h.sep T ha hb
    generalize Arith.npSum ((List.zipWith (· - ·) (st a).v (st b).v).map Arith.sq) = P at *
    generalize Spec.sep (real val d S) a b = s at *
    have h1 : |val P - s| ≤ 105 * x * s := by linarith
    have hxs := mul_le_mul_of_nonneg_right hx i2
    have h2 : 0 ≤ val P := by have := (abs_le.mp h1).1; linarith
    have hPΩ : 4 * val P ≤ Ω := by
      have h3 := (abs_le.mp h1).2
      have h4 := h.moderate.Ω2
      have h5 : 1 * (d * M ^ 2) ≤ N * (d * M ^ 2) := mul_le_mul_of_nonneg_right (by exact_mod_cast h.N1) (by positivity)
      linarith
    obtain ⟨f2, i4⟩ := h.full.sqrt P f1 h2 (by linarith)
    have h3 := sqrt_rel i2 h2 h1
    have h4 := Real.sqrt_nonneg s
    have h5 : √(val P) ≤ 3 / 2 * √s := by
      have := (abs_le.mp h3).2
      have := mul_le_mul_of_nonneg_right hx h4
      linarith
    have h6 := abs_add_le (val (Arith.sqrt P) - √(val P)) (√(val P) - √s)
    rw [sub_add_sub_cancel] at h6
    have h7 := mul_le_mul_of_nonneg_left h5 (show 0 ≤ 2 * u by linarith [h.moderate.u0])
    have h8 := mul_le_mul_of_nonneg_right hux h4
    have h9 := mul_nonneg hx0 h4
    have h10 : |val (Arith.sqrt P) - √s| ≤ 120 * x * √s := by linarith
    have h11 : |val (Arith.sqrt P)| ≤ 2 * √s := by
      have := abs_le_of_err h10
      rw [abs_of_nonneg h4] at this
      have := mul_le_mul_of_nonneg_right hx h4
      linarith
    have h12 : 2 * √s ≤ Ω := by
      have h13 := Real.mul_self_sqrt i2
      have h14 := mul_self_nonneg (√s - 1)
      have h15 := h.moderate.Ω2
      have h16 : 1 * (d * M ^ 2) ≤ N * (d * M ^ 2) := mul_le_mul_of_nonneg_right (by exact_mod_cast h.N1) (by positivity)
      linarith
    obtain ⟨f3, i5⟩ := h.entry hE f2 (h11.trans h12)
    refine ⟨f3, ?_⟩
    have h17 := abs_add_le (val E - val (Arith.sqrt P)) (val (Arith.sqrt P) - √s)
    rw [sub_add_sub_cancel] at h17
    have h18 := mul_le_mul_of_nonneg_left h11 h.moderate.u0
    linarith
  rcases ht p hp with hE | hE
  · exact key (mem_pairs hp).1 (mem_pairs hp).2 hs hE
  · rw [sep_comm] at hs ⊢
    exact key (mem_pairs hp).2 (mem_pairs hp).1 hs hE

/-- DB's spread of a cluster. -/
theorem Setting.spread {c : ℤ} (hc : c ∈ ks) : fin (spread (st c)) ∧
    |val (Gen.spread (st c)) - Spec.meanScatter (real val d S) c| ≤ 134 * (γ * N * (d * M ^ 2)) := by
  rw [Gen.spread]
  split
  · rename_i e
    rw [T.n c hc] at e
    obtain ⟨y, hy⟩ := List.length_eq_one_iff.mp e
    have e0 : Spec.meanScatter (real val d S) c = 0 := by
      rw [Spec.meanScatter, scatter_real, hy]
      simp [Rounding.scatter, column]
    rw [e0, h.full.zero.2, sub_self, abs_zero]
    exact ⟨h.full.zero.1, by have := h.eps.2.2.1; positivity⟩
  · exact ⟨(h.meanScatter D T hc).1, (h.meanScatter D T hc).2.1⟩

/-- The quotient of two spreads and a distance. -/
theorem Setting.dbQuotient (hu : 0 < u) (hη : η ≤ u ^ 2) (hΩ : 1 ≤ u * Ω) (hT : 0 < d * M ^ 2) {β : ℝ} (hβ : 1000 * (γ * N) ≤ β)
    (hβ4 : β ≤ 4) {a b : ℤ} (ha : a ∈ ks) (hb : b ∈ ks) {A B E : F}
    (f1 : fin A) (i1 : |val A - Spec.meanScatter (real val d S) a| ≤ 134 * (γ * N * (d * M ^ 2)))
    (f2 : fin B) (i2 : |val B - Spec.meanScatter (real val d S) b| ≤ 134 * (γ * N * (d * M ^ 2)))
    (f3 : fin E) (i3 : |val E - Spec.sep (real val d S) a b| ≤ 110 * (γ * N * (d * M ^ 2)))
    (hs : β * (d * M ^ 2) ≤ Spec.sep (real val d S) a b)
    (hm : 2 * (β * (d * M ^ 2)) ≤ Spec.meanScatter (real val d S) a + Spec.meanScatter (real val d S) b) :
    fin ((A + B) / E) ∧ |val ((A + B) / E) -
      (Spec.meanScatter (real val d S) a + Spec.meanScatter (real val d S) b) / Spec.sep (real val d S) a b| ≤
      410 * (γ * N / β) * ((Spec.meanScatter (real val d S) a + Spec.meanScatter (real val d S) b) / Spec.sep (real val d S) a b) ∧
    u ≤ (Spec.meanScatter (real val d S) a + Spec.meanScatter (real val d S) b) / Spec.sep (real val d S) a b ∧
    (Spec.meanScatter (real val d S) a + Spec.meanScatter (real val d S) b) / Spec.sep (real val d S) a b * (125 * (γ * N)) ≤ 1 := by
  obtain ⟨u0, uγ, γN, η0, ηu, ηγ, ηM, M0, Ω1, Ω2⟩ := h.moderate
  obtain ⟨e1, e2, e3, e4, -⟩ := h.eps
  obtain ⟨hβ0, hε0, hx0, hx1, hux, hxβ⟩ := h.beta hu hβ hβ4
  obtain ⟨-, -, p0, p4⟩ := h.meanScatter D T ha
  obtain ⟨-, -, q0, q4⟩ := h.meanScatter D T hb
  have s4 := (h.sep T ha hb).2.2.2
  generalize Spec.meanScatter (real val d S) a = p at *
  generalize Spec.meanScatter (real val d S) b = q at *
  generalize Spec.sep (real val d S) a b = s at *
  have hεT : γ * N * (d * M ^ 2) = γ * N / β * (β * (d * M ^ 2)) := by rw [← mul_assoc (γ * N / β), hxβ]
  generalize γ * N / β = x at *
  have hN1 : (1 : ℝ) ≤ N := by exact_mod_cast h.N1
  have hNd : d * M ^ 2 ≤ N * (d * M ^ 2) := by have := mul_le_mul_of_nonneg_right hN1 hT.le; linarith
  have hεd := mul_le_mul_of_nonneg_right e2 hT.le
  have k1 : |val A + val B - (p + q)| ≤ 268 * (γ * N * (d * M ^ 2)) := by
    have := abs_add_le (val A - p) (val B - q)
    rw [show val A - p + (val B - q) = val A + val B - (p + q) by ring] at this
    linarith
  have k2 : |val A + val B| ≤ 11 * (d * M ^ 2) := by
    have := abs_le_of_err k1
    rw [abs_of_nonneg (by linarith : 0 ≤ p + q)] at this
    linarith
  obtain ⟨f4, i4⟩ := h.full.add A B f1 f2 (by linarith)
  have k3 : |val (A + B) - (p + q)| ≤ 280 * (γ * N * (d * M ^ 2)) := by
    have h1 := abs_add_le (val (A + B) - (val A + val B)) (val A + val B - (p + q))
    rw [sub_add_sub_cancel] at h1
    have h2 := mul_le_mul e1 k2 (abs_nonneg _) e3
    have h3 := mul_nonneg e3 hT.le
    linarith
  have hs0 : 0 < s := (mul_pos hβ0 hT).trans_le hs
  have hm0 : 0 < p + q := lt_of_lt_of_le (by have := mul_pos hβ0 hT; linarith) hm
  have hQ0 : 0 < (p + q) / s := by positivity
  have c1 := mul_le_mul_of_nonneg_left hm hx0.le
  have c2 := mul_le_mul_of_nonneg_left hs hx0.le
  have c3 := mul_pos hx0 hm0
  have c4 := mul_pos hx0 hs0
  have hQlow : u ≤ (p + q) / s := by
    rw [le_div_iff₀ hs0]
    have h1 := mul_le_mul_of_nonneg_left s4 hu.le
    have h2 := mul_le_mul_of_nonneg_right (show 2 * u ≤ β by linarith) hT.le
    linarith
  have hQhigh : (p + q) / s * (125 * (γ * N)) ≤ 1 := by
    rw [div_mul_eq_mul_div, div_le_one hs0]
    have h1 := mul_le_mul_of_nonneg_right (show p + q ≤ 8 * (d * M ^ 2) by linarith) (show 0 ≤ 125 * (γ * N) by linarith)
    have h2 := mul_le_mul_of_nonneg_right hβ hT.le
    linarith
  have hQΩ : 2 * ((p + q) / s) ≤ Ω := by
    have h1 := mul_le_mul_of_nonneg_left e1 hQ0.le
    have h2 : (p + q) / s * u * 2 ≤ 1 := by
      have := mul_nonneg hQ0.le e3
      linarith
    exact le_of_mul_le_mul_left (a := u) (by linarith) hu
  obtain ⟨f5, i5⟩ := h.div_near hx0.le hx1 hux f4 f3 hm0 hs0 (k3.trans (by linarith)) (i3.trans (by linarith))
    (hη.trans (by rw [sq]; exact mul_le_mul_of_nonneg_left hQlow hu.le)) hQΩ
  exact ⟨f5, i5, hQlow, hQhigh⟩

omit h D T in
/-- The exact quotients of DB. -/
noncomputable def dbReal (R : Spec.Stream d) (a b : ℤ) : ℝ :=
  if a = b then 0 else (Spec.meanScatter R a + Spec.meanScatter R b) / Spec.sep R a b

omit h D T in
theorem dbReal_comm (R : Spec.Stream d) (a b : ℤ) : dbReal R a b = dbReal R b a := by
  unfold dbReal
  rw [sep_comm, add_comm]
  exact if_congr eq_comm rfl rfl

omit h D T in
theorem dbReal_nonneg (R : Spec.Stream d) (a b : ℤ) : 0 ≤ dbReal R a b := by
  have hs : ∀ c, 0 ≤ Spec.meanScatter R c := fun c => div_nonneg (List.sum_nonneg (by
    intro x hx
    obtain ⟨p, -, rfl⟩ := List.mem_map.mp hx
    exact Finset.sum_nonneg fun i _ => sq_nonneg _)) (Nat.cast_nonneg _)
  have := hs a
  have := hs b
  unfold dbReal
  split
  · exact le_rfl
  · refine div_nonneg (by linarith) ?_
    unfold Spec.sep Spec.dist2
    exact Finset.sum_nonneg fun i _ => sq_nonneg _

omit h D in
/-- The largest quotient of a cluster. -/
theorem Tables.dbReal_sup (hk : 1 < ks.length) (b : ℤ) :
    (∃ a ∈ ks, dbReal (real val d S) a b = sSup (Spec.otherValues (real val d S) b fun a =>
      (Spec.meanScatter (real val d S) b + Spec.meanScatter (real val d S) a) / Spec.sep (real val d S) b a)) ∧
    ∀ a ∈ ks, dbReal (real val d S) a b ≤ sSup (Spec.otherValues (real val d S) b fun a =>
      (Spec.meanScatter (real val d S) b + Spec.meanScatter (real val d S) a) / Spec.sep (real val d S) b a) := by
  have hfin := otherValues_finite (real val d S) b fun a =>
      (Spec.meanScatter (real val d S) b + Spec.meanScatter (real val d S) a) / Spec.sep (real val d S) b a
  have hne := otherValues_nonempty (S := real val d S) (by rwa [numClusters_real, ← T.length]) b fun a =>
      (Spec.meanScatter (real val d S) b + Spec.meanScatter (real val d S) a) / Spec.sep (real val d S) b a
  have h1 : ∃ a ∈ ks, dbReal (real val d S) a b = sSup (Spec.otherValues (real val d S) b fun a =>
      (Spec.meanScatter (real val d S) b + Spec.meanScatter (real val d S) a) / Spec.sep (real val d S) b a) := by
    obtain ⟨a, ha, hab, e⟩ := hne.csSup_mem hfin
    rw [labels_real, List.mem_toFinset, ← T.mem] at ha
    exact ⟨a, ha, by rw [e, dbReal_comm, dbReal, if_neg (Ne.symm hab)]⟩
  refine ⟨h1, fun a ha => ?_⟩
  by_cases hab : a = b
  · obtain ⟨c, -, e⟩ := h1
    rw [← e, hab, dbReal, if_pos rfl]
    exact dbReal_nonneg _ _ _
  · refine le_csSup hfin.bddAbove ⟨a, by rwa [labels_real, List.mem_toFinset, ← T.mem], hab, ?_⟩
    rw [dbReal_comm, dbReal, if_neg (Ne.symm hab)]

omit D T in
/-- Adding zero to a quotient. -/
theorem Setting.quotient_entry {x Q : ℝ} {E A : F} (hx : 1000 * x ≤ 1) (hux : u ≤ 4 * x) (hE : Entry E A) (fA : fin A) (hQ : 0 ≤ Q)
    (hA : |val A - Q| ≤ 410 * x * Q) (hΩ : 2 * Q ≤ Ω) : fin E ∧ |val E - Q| ≤ 416 * x * Q := by
  have hxQ := mul_le_mul_of_nonneg_right hx hQ
  have hA2 : |val A| ≤ 3 / 2 * Q := by
    have := abs_le_of_err hA
    rw [abs_of_nonneg hQ] at this
    linarith
  obtain ⟨f1, i1⟩ := h.entry hE fA (by linarith)
  refine ⟨f1, ?_⟩
  have h1 := abs_add_le (val E - val A) (val A - Q)
  rw [sub_add_sub_cancel] at h1
  have h2 := mul_le_mul_of_nonneg_left hA2 h.moderate.u0
  have h3 := mul_le_mul_of_nonneg_right hux hQ
  linarith

/-- `q` is DB's symmetric matrix of quotients, with the spreads `sp`. -/
def IsQuotients (ks : List ℤ) (st : ℤ → Stat F) (sp : ℤ → F) (q : ℤ → ℤ → F) : Prop :=
  (∀ a ∈ ks, q a a = 0 + 0) ∧ ∀ a ∈ ks, ∀ b ∈ ks, a ≠ b → ∃ a' b' c' d' E, (a' = a ∧ b' = b ∨ a' = b ∧ b' = a) ∧
    (c' = a ∧ d' = b ∨ c' = b ∧ d' = a) ∧ Entry E (between .DB (st c') (st d')) ∧ Entry (q a b) ((sp a' + sp b') / E)

/-- DB's symmetric matrix of quotients. -/
theorem Setting.dbEntry (hu : 0 < u) (hη : η ≤ u ^ 2) (hΩ : 1 ≤ u * Ω) (hT : 0 < d * M ^ 2) {β : ℝ} (hβ : 1000 * (γ * N) ≤ β)
    (hβ4 : β ≤ 4) (hL : ∀ a ∈ ks, ∀ b ∈ ks, a ≠ b → β * (d * M ^ 2) ≤ Spec.sep (real val d S) a b ∧
      2 * (β * (d * M ^ 2)) ≤ Spec.meanScatter (real val d S) a + Spec.meanScatter (real val d S) b)
    {sp : ℤ → F} (hsp : ∀ c ∈ ks, fin (sp c) ∧ |val (sp c) - Spec.meanScatter (real val d S) c| ≤ 134 * (γ * N * (d * M ^ 2)))
    {q : ℤ → ℤ → F} (hq : IsQuotients ks st sp q) {a b : ℤ} (ha : a ∈ ks) (hb : b ∈ ks) :
    fin (q a b) ∧ |val (q a b) - dbReal (real val d S) a b| ≤ 416 * (γ * N / β) * dbReal (real val d S) a b ∧
    (a ≠ b → u ≤ dbReal (real val d S) a b) ∧ dbReal (real val d S) a b * (125 * (γ * N)) ≤ 1 := by
  obtain ⟨hβ0, hε0, hx0, hx1, hux, hxβ⟩ := h.beta hu hβ hβ4
  have e1 := h.eps.1
  by_cases hab : a = b
  · subst hab
    have e0 : dbReal (real val d S) a a = 0 := by rw [dbReal, if_pos rfl]
    rw [e0, hq.1 a ha]
    obtain ⟨f1, i1⟩ := h.full.add 0 0 h.full.zero.1 h.full.zero.1 (by
      rw [h.full.zero.2, add_zero, abs_zero]
      exact h.Ω0)
    rw [h.full.zero.2, add_zero, abs_zero, mul_zero] at i1
    exact ⟨f1, by linarith, fun hn => absurd rfl hn, by linarith⟩
  · obtain ⟨a', b', c', d', E, hab', hcd', hE, hq'⟩ := hq.2 a ha b hb hab
    have e0 : dbReal (real val d S) a b = dbReal (real val d S) a' b' := by
      rcases hab' with ⟨rfl, rfl⟩ | ⟨rfl, rfl⟩
      · rfl
      · exact dbReal_comm _ _ _
    have es : Spec.sep (real val d S) a' b' = Spec.sep (real val d S) c' d' := by
      rcases hab' with ⟨rfl, rfl⟩ | ⟨rfl, rfl⟩ <;> rcases hcd' with ⟨rfl, rfl⟩ | ⟨rfl, rfl⟩ <;> first | rfl | exact sep_comm _ _ _
    have ha' : a' ∈ ks := by rcases hab' with ⟨rfl, rfl⟩ | ⟨rfl, rfl⟩ <;> assumption
    have hb' : b' ∈ ks := by rcases hab' with ⟨rfl, rfl⟩ | ⟨rfl, rfl⟩ <;> assumption
    have hc' : c' ∈ ks := by rcases hcd' with ⟨rfl, rfl⟩ | ⟨rfl, rfl⟩ <;> assumption
    have hd' : d' ∈ ks := by rcases hcd' with ⟨rfl, rfl⟩ | ⟨rfl, rfl⟩ <;> assumption
    have hn : a' ≠ b' := by
      rcases hab' with ⟨rfl, rfl⟩ | ⟨rfl, rfl⟩
      · exact hab
      · exact Ne.symm hab
    obtain ⟨f3, i3⟩ := h.sep_entry T hc' hd' hE
    rw [← es] at i3
    obtain ⟨f1, i1, i2, i4⟩ := h.dbQuotient D T hu hη hΩ hT hβ hβ4 ha' hb' (hsp a' ha').1 (hsp a' ha').2 (hsp b' hb').1 (hsp b' hb').2
      f3 i3 (hL a' ha' b' hb' hn).1 (hL a' ha' b' hb' hn).2
    have e : dbReal (real val d S) a' b' =
        (Spec.meanScatter (real val d S) a' + Spec.meanScatter (real val d S) b') / Spec.sep (real val d S) a' b' := by
      rw [dbReal, if_neg hn]
    rw [← e] at i1 i2 i4
    rw [e0]
    have hQ := dbReal_nonneg (real val d S) a' b'
    have := h.quotient_entry hx1 hux hq' f1 hQ i1 (by
      have h2 := mul_le_mul_of_nonneg_left e1 hQ
      have h3 := mul_nonneg hQ hε0.le
      exact le_of_mul_le_mul_left (a := u) (by linarith) hu)
    exact ⟨this.1, this.2, fun _ => i2, i4⟩

end Verif.Gen.Rounding
