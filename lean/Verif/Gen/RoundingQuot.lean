import Verif.Gen.RoundingWB

/-! # Error of a quotient of two sums times a factor -/

namespace Verif.Gen.Rounding

/-- A quotient of two numbers known up to a relative error `δ`. -/
theorem div_rel {δ B W B' W' : ℝ} (hδ : δ ≤ 1 / 5) (hB : 0 ≤ B) (hW : 0 < W) (hB' : |B' - B| ≤ δ * B) (hW' : |W' - W| ≤ δ * W) :
    0 < W' ∧ |B' / W' - B / W| ≤ 5 / 2 * δ * (B / W) := by
  obtain ⟨w1, w2⟩ := abs_le.mp hW'
  have hδW := mul_le_mul_of_nonneg_right hδ hW.le
  have hW4 : 4 / 5 * W ≤ W' := by linarith
  have hW'0 : 0 < W' := by linarith
  refine ⟨hW'0, ?_⟩
  have e : B' / W' - B / W = ((B' - B) * W - B * (W' - W)) / (W' * W) := by field_simp; ring
  have h1 : |(B' - B) * W - B * (W' - W)| ≤ 2 * δ * B * W := by
    have h2 := abs_sub ((B' - B) * W) (B * (W' - W))
    rw [abs_mul, abs_mul, abs_of_pos hW, abs_of_nonneg hB] at h2
    have h3 := mul_le_mul_of_nonneg_right hB' hW.le
    have h4 := mul_le_mul_of_nonneg_left hW' hB
    linarith
  have hδ0 : 0 ≤ δ * B * W := by
    have := mul_le_mul_of_nonneg_right ((abs_nonneg _).trans hB') hW.le
    linarith
  rw [e, abs_div, abs_of_pos (mul_pos hW'0 hW), div_le_iff₀ (mul_pos hW'0 hW)]
  have h5 : 5 / 2 * δ * (B / W) * (W' * W) = 5 / 2 * (δ * B * W) * (W' / W) := by field_simp
  have h6 : 4 / 5 ≤ W' / W := by rw [le_div_iff₀ hW]; exact hW4
  rw [h5]
  have := mul_le_mul_of_nonneg_left h6 (show 0 ≤ 5 / 2 * (δ * B * W) by linarith)
  linarith

/-- The product with a factor; `x` is the relative error so far. -/
theorem mul_rel {x u η Q f q f' p : ℝ} (hx0 : 0 ≤ x) (hx : 1000 * x ≤ 1) (hu0 : 0 ≤ u) (hu : u ≤ 4 * x) (hQ : 0 < Q) (hf : 0 < f)
    (hq : |q - Q| ≤ 410 * x * Q) (hf' : |f' - f| ≤ u * f) (hη : η ≤ u * (Q * f)) :
    |q * f'| ≤ 3 / 2 * (Q * f) ∧ (|p - q * f'| ≤ u * |q * f'| + η → |p - Q * f| ≤ 430 * x * (Q * f)) := by
  have hQf : 0 < Q * f := mul_pos hQ hf
  have e : q * f' - Q * f = (q - Q) * f' + Q * (f' - f) := by ring
  have hf2 : |f'| ≤ (1 + u) * f := by have := abs_le_of_err hf'; rw [abs_of_pos hf] at this; linarith
  have hxu : x * u ≤ 4 / 1000 * x := by
    have := mul_le_mul_of_nonneg_left hu hx0
    have := mul_le_mul_of_nonneg_right hx hx0
    linarith
  have h1 : |q * f' - Q * f| ≤ 416 * x * (Q * f) := by
    rw [e]
    have h2 := abs_add_le ((q - Q) * f') (Q * (f' - f))
    rw [abs_mul, abs_mul, abs_of_pos hQ] at h2
    have h3 := mul_le_mul hq hf2 (abs_nonneg _) (by positivity)
    have h4 := mul_le_mul_of_nonneg_left hf' hQ.le
    have h5 := mul_le_mul_of_nonneg_right hxu hQf.le
    have h6 := mul_le_mul_of_nonneg_right hu hQf.le
    have h7 := mul_nonneg hx0 hQf.le
    linarith
  have hxQ := mul_le_mul_of_nonneg_right hx hQf.le
  have h2 : |q * f'| ≤ 3 / 2 * (Q * f) := by
    have := abs_le_of_err h1
    rw [abs_of_pos hQf] at this
    linarith
  refine ⟨h2, fun hp => ?_⟩
  have h3 := abs_add_le (p - q * f') (q * f' - Q * f)
  rw [sub_add_sub_cancel] at h3
  have h4 := mul_le_mul_of_nonneg_left h2 hu0
  have h5 := mul_le_mul_of_nonneg_right hu hQf.le
  have h6 := mul_nonneg hx0 hQf.le
  linarith

variable {F : Type} [Arith F] {val : F → ℝ} {fin : F → Prop} {u η Ω M γ : ℝ} {N d : ℕ}

/-- The quotient of two numbers with relative error `160 * x`. -/
theorem Setting.div_near (h : Setting F val fin u η Ω M γ N d) {x a b : ℝ} {A B : F} (hx0 : 0 ≤ x) (hx : 1000 * x ≤ 1) (hux : u ≤ 4 * x)
    (fA : fin A) (fB : fin B) (ha : 0 < a) (hb : 0 < b) (hA : |val A - a| ≤ 160 * x * a) (hB : |val B - b| ≤ 160 * x * b)
    (hη : η ≤ u * (a / b)) (hΩ : 2 * (a / b) ≤ Ω) : fin (A / B) ∧ |val (A / B) - a / b| ≤ 410 * x * (a / b) := by
  obtain ⟨hB0, hq⟩ := div_rel (δ := 160 * x) (by linarith) ha.le hb hA hB
  have hQ0 : 0 < a / b := by positivity
  generalize a / b = Q at *
  have hxQ := mul_le_mul_of_nonneg_right hx hQ0.le
  have hAB : |val A / val B| ≤ 7 / 5 * Q := by
    have := abs_le_of_err hq
    rw [abs_of_pos hQ0] at this
    linarith
  obtain ⟨f1, i1⟩ := h.full.div A B fA fB hB0.ne' (by linarith)
  refine ⟨f1, ?_⟩
  have h1 := abs_add_le (val (A / B) - val A / val B) (val A / val B - Q)
  rw [sub_add_sub_cancel] at h1
  have h2 := mul_le_mul_of_nonneg_left hAB h.moderate.u0
  have h3 := mul_le_mul_of_nonneg_right hux hQ0.le
  have h4 := mul_nonneg hx0 hQ0.le
  linarith

/-- What is assumed of `β`: no sum that is divided by is smaller than `β` times the largest value it can have. -/
theorem Setting.beta (h : Setting F val fin u η Ω M γ N d) (hu : 0 < u) {β : ℝ} (hβ : 1000 * (γ * N) ≤ β) (hβ4 : β ≤ 4) :
    0 < β ∧ 0 < γ * N ∧ 0 < γ * N / β ∧ 1000 * (γ * N / β) ≤ 1 ∧ u ≤ 4 * (γ * N / β) ∧ γ * N / β * β = γ * N := by
  have hε : 0 < γ * N := hu.trans_le h.eps.1
  have hβ0 : 0 < β := by linarith
  have h1 : γ * N / β * β = γ * N := by field_simp
  have h2 : 0 < γ * N / β := by positivity
  refine ⟨hβ0, hε, h2, ?_, ?_, h1⟩
  · rw [mul_div_assoc', div_le_one hβ0]; exact hβ
  · have := mul_le_mul_of_nonneg_left hβ4 h2.le
    linarith [h.eps.1]

/-- `A / B` where `A` and `B` are sums of size about `T`. -/
theorem Setting.ratio (h : Setting F val fin u η Ω M γ N d) (hu : 0 < u) (hη : η ≤ u ^ 2) (hΩ : 1 ≤ u * Ω) {T β a b : ℝ}
    {A B : F} (hT : 0 < T) (hβ : 1000 * (γ * N) ≤ β) (fA : fin A) (fB : fin B)
    (hA : |val A - a| ≤ 160 * (γ * N * T)) (hB : |val B - b| ≤ 160 * (γ * N * T)) (ha : β * T ≤ a) (hb : β * T ≤ b)
    (ha4 : a ≤ 4 * T) (hb4 : b ≤ 4 * T) :
    fin (A / B) ∧ |val (A / B) - a / b| ≤ 410 * (γ * N / β) * (a / b) ∧ 250 * (γ * N) ≤ a / b ∧ a / b * (250 * (γ * N)) ≤ 1 := by
  have hβ4 : β ≤ 4 := le_of_mul_le_mul_right (ha.trans ha4) hT
  obtain ⟨hβ0, hε, hx0, hx1, hux, hxβ⟩ := h.beta hu hβ hβ4
  obtain ⟨x, hx⟩ : ∃ x, x = γ * N / β := ⟨_, rfl⟩
  rw [← hx] at hx0 hx1 hux hxβ ⊢
  have ha0 : 0 < a := (mul_pos hβ0 hT).trans_le ha
  have hb0 : 0 < b := (mul_pos hβ0 hT).trans_le hb
  have hrel : ∀ {y z : ℝ}, |z - y| ≤ 160 * (γ * N * T) → β * T ≤ y → |z - y| ≤ 160 * x * y := by
    intro y z h1 h2
    refine h1.trans ?_
    have := mul_le_mul_of_nonneg_left h2 (show 0 ≤ 160 * x by positivity)
    rw [← hxβ]
    linarith
  have hQ0 : 0 < a / b := by positivity
  have hQb : a / b * b = a := by field_simp
  have hQlow : 250 * (γ * N) ≤ a / b := by
    have h1 : β * T ≤ a / b * (4 * T) := by
      have := mul_le_mul_of_nonneg_left hb4 hQ0.le
      linarith
    have h2 : β ≤ a / b * 4 := le_of_mul_le_mul_right (by linarith) hT
    linarith
  have hQhigh : a / b * (250 * (γ * N)) ≤ 1 := by
    have h1 : a / b * (β * T) ≤ 4 * T := by
      have := mul_le_mul_of_nonneg_left hb hQ0.le
      linarith
    have h2 : a / b * β ≤ 4 := le_of_mul_le_mul_right (by linarith) hT
    have h3 := mul_le_mul_of_nonneg_left hβ hQ0.le
    linarith
  have e1 := h.eps.1
  have hη1 : η ≤ u * (a / b) := hη.trans (by
    rw [sq]; exact mul_le_mul_of_nonneg_left (by linarith) hu.le)
  have hQΩ : 2 * (a / b) ≤ Ω := by
    have h1 := mul_le_mul_of_nonneg_left e1 hQ0.le
    exact le_of_mul_le_mul_left (a := u) (by linarith) hu
  obtain ⟨i1, i2⟩ := h.div_near hx0.le hx1 hux fA fB ha0 hb0 (hrel hA ha) (hrel hB hb) hη1 hQΩ
  exact ⟨i1, i2, hQlow, hQhigh⟩

/-- `A / B * f` -/
theorem Setting.quotient (h : Setting F val fin u η Ω M γ N d) (hu : 0 < u) (hη : η ≤ u ^ 2) (hΩ : 1 ≤ u * Ω) {T β a b r : ℝ}
    {A B f : F} (hT : 0 < T) (hβ : 1000 * (γ * N) ≤ β) (fA : fin A) (fB : fin B) (ff : fin f)
    (hA : |val A - a| ≤ 160 * (γ * N * T)) (hB : |val B - b| ≤ 160 * (γ * N * T)) (ha : β * T ≤ a) (hb : β * T ≤ b)
    (ha4 : a ≤ 4 * T) (hb4 : b ≤ 4 * T) (hf : |val f - r| ≤ u * r) (hr1 : 1 ≤ N * r) (hrN : r ≤ N) :
    fin (A / B * f) ∧ |val (A / B * f) - a / b * r| ≤ 430 * (γ * N / β) * (a / b * r) := by
  obtain ⟨f1, hq, hQlow, hQhigh⟩ := h.ratio hu hη hΩ hT hβ fA fB hA hB ha hb ha4 hb4
  have hβ4 : β ≤ 4 := le_of_mul_le_mul_right (ha.trans ha4) hT
  obtain ⟨hβ0, hε, hx0, hx1, hux, hxβ⟩ := h.beta hu hβ hβ4
  have uγ := h.moderate.uγ
  have hγ : 0 < γ := hu.trans_le uγ
  have hQ0 : 0 < a / b := lt_of_lt_of_le (by linarith) hQlow
  generalize a / b = Q at *
  have hr0 : 0 < r := by
    by_contra hneg
    have := mul_nonpos_of_nonneg_of_nonpos (show (0 : ℝ) ≤ N by positivity) (not_lt.mp hneg)
    linarith
  have hQr : 250 * u ≤ Q * r := by
    have h1 := mul_le_mul_of_nonneg_right hQlow hr0.le
    have h2 := mul_le_mul_of_nonneg_left hr1 (show 0 ≤ 250 * γ by positivity)
    linarith
  have hQrh : Q * r * (250 * u) ≤ 1 := by
    have h1 := mul_le_mul_of_nonneg_left hrN (show 0 ≤ Q * (250 * γ) by positivity)
    have h2 := mul_le_mul_of_nonneg_left uγ (show 0 ≤ Q * r * 250 by positivity)
    linarith
  have hη1 : η ≤ u * (Q * r) := hη.trans (by
    rw [sq]; exact mul_le_mul_of_nonneg_left (by linarith) hu.le)
  have hQrΩ : 2 * (Q * r) ≤ Ω := le_of_mul_le_mul_left (a := u) (by linarith) hu
  obtain ⟨i2, -⟩ := mul_rel (p := 0) hx0.le hx1 hu.le hux hQ0 hr0 hq hf hη1
  obtain ⟨f2, i3⟩ := h.full.mul (A / B) f f1 ff (by linarith)
  exact ⟨f2, (mul_rel hx0.le hx1 hu.le hux hQ0 hr0 hq hf hη1).2 i3⟩

end Verif.Gen.Rounding
