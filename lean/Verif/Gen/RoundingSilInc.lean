import Verif.Gen.RoundingSil
import Verif.Gen.RefCSIL
import Verif.Proofs.CSIL

/-!
# Error of the value of cSIL, in incremental mode

The matrix of an incremental object is `CSIL.entry` in exact arithmetic (`SpecCSIL`), not the matrix of the definition.  Here is how far the
matrix and the value computed in floats are from that.
-/

set_option linter.unusedSectionVars false

namespace Verif.Gen
namespace Rounding

variable {F : Type} [Arith F] {val : F → ℝ} {fin : F → Prop} {u η Ω M γ : ℝ} {N d : ℕ}

/-- `a` is finite and is `r` up to `k * ε * W`, and `r` is at most `l * W`. -/
def Approx (val : F → ℝ) (fin : F → Prop) (ε W k l : ℝ) (a : F) (r : ℝ) : Prop := fin a ∧ |val a - r| ≤ k * (ε * W) ∧ |r| ≤ l * W

section
variable {ε W W' k k' k'' l l' : ℝ} {a b : F} {r s : ℝ}

theorem Approx.abs_le (h : Approx val fin ε W k l a r) (hε : 128 * ε ≤ 1) (hW : 0 ≤ W) (hk : 0 ≤ k) : |val a| ≤ (l + k / 128) * W := by
  have h1 := abs_le_of_err h.2.1
  have h2 := mul_le_mul_of_nonneg_right hε (show 0 ≤ k * W by positivity)
  linarith [h.2.2]

theorem Approx.scale {c : ℝ} (h : Approx val fin ε (c * W) k l a r) : Approx val fin ε W (c * k) (c * l) a r :=
  ⟨h.1, h.2.1.trans (le_of_eq (by ring)), h.2.2.trans (le_of_eq (by ring))⟩

theorem Approx.mono (h : Approx val fin ε W k l a r) (hε : 0 ≤ ε) (hW : 0 ≤ W) (hWW : W ≤ W') (hk0 : 0 ≤ k') (hk : k ≤ k') (hl0 : 0 ≤ l')
    (hl : l ≤ l') : Approx val fin ε W' k' l' a r := by
  refine ⟨h.1, h.2.1.trans ?_, h.2.2.trans (mul_le_mul hl hWW hW hl0)⟩
  exact mul_le_mul hk (mul_le_mul_of_nonneg_left hWW hε) (by positivity) hk0

variable (S : StandardFull F val fin u η Ω N γ d) (hu : 0 ≤ u) (huε : u ≤ ε) (hε : 128 * ε ≤ 1) (hW : 0 ≤ W) (hΩ : 73 * W ≤ Ω)
include S hu huε hε hW hΩ

theorem Approx.add (ha : Approx val fin ε W k l a r) (hb : Approx val fin ε W k' l' b s) (hk : 0 ≤ k) (hk' : 0 ≤ k')
    (h1 : l + l' + (k + k') / 128 ≤ 73) (h2 : k + k' + (l + l' + (k + k') / 128) ≤ k'') :
    Approx val fin ε W k'' (l + l') (a + b) (r + s) := by
  have hA := ha.abs_le hε hW hk
  have hB := hb.abs_le hε hW hk'
  have hAB := abs_add_le (val a) (val b)
  have hL : |val a + val b| ≤ (l + l' + (k + k') / 128) * W := by linarith
  have hL0 := (abs_nonneg _).trans hL
  have h3 := mul_le_mul_of_nonneg_right h1 hW
  obtain ⟨f, i⟩ := S.add a b ha.1 hb.1 (by linarith)
  refine ⟨f, ?_, ?_⟩
  · have e1 := abs_add_three (val (a + b) - (val a + val b)) (val a - r) (val b - s)
    rw [show val (a + b) - (val a + val b) + (val a - r) + (val b - s) = val (a + b) - (r + s) by ring] at e1
    have e2 := mul_le_mul huε hL (abs_nonneg _) (hu.trans huε)
    have e3 := mul_le_mul_of_nonneg_right h2 (mul_nonneg (hu.trans huε) hW)
    linarith [ha.2.1, hb.2.1]
  · have := abs_add_le r s
    linarith [ha.2.2, hb.2.2]

theorem Approx.sub (ha : Approx val fin ε W k l a r) (hb : Approx val fin ε W k' l' b s) (hk : 0 ≤ k) (hk' : 0 ≤ k')
    (h1 : l + l' + (k + k') / 128 ≤ 73) (h2 : k + k' + (l + l' + (k + k') / 128) ≤ k'') :
    Approx val fin ε W k'' (l + l') (a - b) (r - s) := by
  have hA := ha.abs_le hε hW hk
  have hB := hb.abs_le hε hW hk'
  have hAB := abs_sub (val a) (val b)
  have hL : |val a - val b| ≤ (l + l' + (k + k') / 128) * W := by linarith
  have hL0 := (abs_nonneg _).trans hL
  have h3 := mul_le_mul_of_nonneg_right h1 hW
  obtain ⟨f, i⟩ := S.sub a b ha.1 hb.1 (by linarith)
  refine ⟨f, ?_, ?_⟩
  · have e1 := abs_add_three (val (a - b) - (val a - val b)) (val a - r) (s - val b)
    rw [show val (a - b) - (val a - val b) + (val a - r) + (s - val b) = val (a - b) - (r - s) by ring, abs_sub_comm s] at e1
    have e2 := mul_le_mul huε hL (abs_nonneg _) (hu.trans huε)
    have e3 := mul_le_mul_of_nonneg_right h2 (mul_nonneg (hu.trans huε) hW)
    linarith [ha.2.1, hb.2.1]
  · have := abs_sub r s
    linarith [ha.2.2, hb.2.2]

/-- A multiple by an exact number `c`. -/
theorem Approx.smul {x : F} {c : ℝ} (hx : fin x) (hc : val x = c) (hc1 : 1 ≤ c) (hη : η ≤ ε * W) (ha : Approx val fin ε W k l a r)
    (hk : 0 ≤ k) {K : ℝ} (h1 : K * (c * W) ≤ Ω) (h2 : l + k / 128 ≤ K) (h3 : k + (l + k / 128) + 1 ≤ k'') :
    Approx val fin ε (c * W) k'' l (x * a) (c * r) := by
  have hA := ha.abs_le hε hW hk
  have hc0 : 0 ≤ c := by linarith
  have hcW : 0 ≤ c * W := by positivity
  have hε0 := hu.trans huε
  have hA' := mul_le_mul_of_nonneg_left hA hc0
  have h4 := mul_le_mul_of_nonneg_right h2 hcW
  have hL : |val x * val a| ≤ (l + k / 128) * (c * W) := by rw [hc, abs_mul, abs_of_nonneg hc0]; linarith
  obtain ⟨f, i⟩ := S.mul x a hx ha.1 (by linarith)
  refine ⟨f, ?_, ?_⟩
  · have e1 := abs_add_le (val (x * a) - val x * val a) (c * (val a - r))
    rw [show val (x * a) - val x * val a + c * (val a - r) = val (x * a) - c * r by rw [hc]; ring, abs_mul, abs_of_nonneg hc0] at e1
    have e2 := mul_le_mul huε hL (abs_nonneg _) hε0
    have e3 := mul_le_mul_of_nonneg_left ha.2.1 hc0
    have e4 := mul_le_mul_of_nonneg_right hc1 (mul_nonneg hε0 hW)
    have e5 := mul_le_mul_of_nonneg_right h3 (mul_nonneg hε0 hcW)
    linarith
  · rw [abs_mul, abs_of_nonneg hc0]
    have := mul_le_mul_of_nonneg_left ha.2.2 hc0
    linarith

omit hΩ in
/-- A quotient by an exact number `c`. -/
theorem Approx.sdiv {x : F} {c : ℝ} (hx : fin x) (hc : val x = c) (hc1 : 1 ≤ c) (hη : η ≤ ε * W) (ha : Approx val fin ε (c * W) k l a r)
    (hk : 0 ≤ k) (h1 : 73 * W ≤ Ω) (h2 : l + k / 128 ≤ 73) (h3 : k + (l + k / 128) + 1 ≤ k'') :
    Approx val fin ε W k'' l (a / x) (r / c) := by
  have hc0 : 0 < c := by linarith
  have hcW : 0 ≤ c * W := by positivity
  have hA := ha.abs_le hε hcW hk
  have hε0 := hu.trans huε
  have h4 := mul_le_mul_of_nonneg_right h2 hW
  have hL : |val a / val x| ≤ (l + k / 128) * W := by rw [hc, abs_div, abs_of_pos hc0, div_le_iff₀ hc0]; linarith
  obtain ⟨f, i⟩ := S.div a x ha.1 hx (by rw [hc]; exact hc0.ne') (by linarith)
  refine ⟨f, ?_, ?_⟩
  · have e1 := abs_add_le (val (a / x) - val a / val x) ((val a - r) / c)
    rw [show val (a / x) - val a / val x + (val a - r) / c = val (a / x) - r / c by rw [hc]; ring, abs_div, abs_of_pos hc0] at e1
    have e2 := mul_le_mul huε hL (abs_nonneg _) hε0
    have e3 : |val a - r| / c ≤ k * (ε * W) := by rw [div_le_iff₀ hc0]; linarith [ha.2.1]
    have e5 := mul_le_mul_of_nonneg_right h3 (mul_nonneg hε0 hW)
    linarith
  · rw [abs_div, abs_of_pos hc0, div_le_iff₀ hc0]
    linarith [ha.2.2]

end

/-- An inner product. -/
theorem Approx.dot {ε A B kA lA kB lB k : ℝ} {a b : List F} {α β : ℕ → ℝ} (S : StandardFull F val fin u η Ω N γ d) (hγ : 0 ≤ γ)
    (hγε : γ ≤ ε) (hε : 128 * ε ≤ 1) (hA : 0 ≤ A) (hB : 0 ≤ B) (hη : η ≤ ε * (A * B)) (hΩ : 73 * (d * (A * B)) ≤ Ω)
    (ha : a.length = d) (hb : b.length = d) (ha' : ∀ j < d, Approx val fin ε A kA lA (a.getD j 0) (α j))
    (hb' : ∀ j < d, Approx val fin ε B kB lB (b.getD j 0) (β j)) (hkA : 0 ≤ kA) (hlA : 0 ≤ lA) (hkB : 0 ≤ kB)
    (h1 : (lA + kA / 128) * (lB + kB / 128) ≤ 36)
    (h2 : (lA + kA / 128) * (lB + kB / 128) + kA * (lB + kB / 128) + lA * kB + 2 ≤ k) :
    Approx val fin ε (d * (A * B)) k (lA * lB) (Arith.dot a b) (∑ j ∈ Finset.range d, α j * β j) := by
  have hε0 := hγ.trans hγε
  have hAB : 0 ≤ A * B := mul_nonneg hA hB
  have hp : ∀ j ∈ Finset.range d, |val (a.getD j 0) * val (b.getD j 0)| ≤ (lA + kA / 128) * (lB + kB / 128) * (A * B) := by
    intro j hj
    rw [Finset.mem_range] at hj
    rw [abs_mul]
    have e1 := (ha' j hj).abs_le hε hA hkA
    have e2 := (hb' j hj).abs_le hε hB hkB
    refine (mul_le_mul e1 e2 (abs_nonneg _) (by positivity)).trans (le_of_eq ?_)
    ring
  have hsum := Finset.sum_le_sum hp
  rw [Finset.sum_const, Finset.card_range, nsmul_eq_mul] at hsum
  have hd0 : (0 : ℝ) ≤ d := Nat.cast_nonneg d
  have hdAB : 0 ≤ d * (A * B) := mul_nonneg hd0 hAB
  obtain ⟨f, i⟩ := S.dot a b ha hb (fin_of_getD ha fun j hj => (ha' j hj).1) (fin_of_getD hb fun j hj => (hb' j hj).1) (by
    have := mul_le_mul_of_nonneg_right h1 hdAB
    linarith)
  refine ⟨f, ?_, ?_⟩
  · have e1 := abs_add_le (val (Arith.dot a b) - ∑ j ∈ Finset.range d, val (a.getD j 0) * val (b.getD j 0))
      (∑ j ∈ Finset.range d, val (a.getD j 0) * val (b.getD j 0) - ∑ j ∈ Finset.range d, α j * β j)
    rw [sub_add_sub_cancel] at e1
    have e2 : |∑ j ∈ Finset.range d, val (a.getD j 0) * val (b.getD j 0) - ∑ j ∈ Finset.range d, α j * β j| ≤
        d * ((kA * (lB + kB / 128) + lA * kB) * (ε * (A * B))) := by
      rw [← Finset.sum_sub_distrib]
      refine (Finset.abs_sum_le_sum_abs _ _).trans ?_
      have : ∀ j ∈ Finset.range d, |val (a.getD j 0) * val (b.getD j 0) - α j * β j| ≤
          (kA * (lB + kB / 128) + lA * kB) * (ε * (A * B)) := by
        intro j hj
        rw [Finset.mem_range] at hj
        have g1 := (hb' j hj).abs_le hε hB hkB
        rw [show val (a.getD j 0) * val (b.getD j 0) - α j * β j =
          (val (a.getD j 0) - α j) * val (b.getD j 0) + α j * (val (b.getD j 0) - β j) by ring]
        refine (abs_add_le _ _).trans ?_
        rw [abs_mul, abs_mul]
        have g2 := mul_le_mul (ha' j hj).2.1 g1 (abs_nonneg _) (by positivity)
        have g3 := mul_le_mul (ha' j hj).2.2 (hb' j hj).2.1 (abs_nonneg _) (by positivity)
        linarith
      have := Finset.sum_le_sum this
      rwa [Finset.sum_const, Finset.card_range, nsmul_eq_mul] at this
    have e3 := mul_le_mul hγε hsum (Finset.sum_nonneg fun _ _ => abs_nonneg _) hε0
    have e4 := mul_le_mul_of_nonneg_left hη hd0
    have e5 := mul_le_mul_of_nonneg_right h2 (mul_nonneg hε0 hdAB)
    linarith
  · refine (Finset.abs_sum_le_sum_abs _ _).trans ?_
    have : ∀ j ∈ Finset.range d, |α j * β j| ≤ lA * lB * (A * B) := by
      intro j hj
      rw [Finset.mem_range] at hj
      rw [abs_mul]
      refine (mul_le_mul (ha' j hj).2.2 (hb' j hj).2.2 (abs_nonneg _) (by positivity)).trans (le_of_eq ?_)
      ring
    have := Finset.sum_le_sum this
    rw [Finset.sum_const, Finset.card_range, nsmul_eq_mul] at this
    linarith

/-! ## The sums of cSIL -/

/-- The arithmetic of one more sample in a running sum: `s` is the exact sum of `n` numbers up to `A`, known up to `3 * g * n ^ 2 * A`. -/
theorem running_real {n : ℕ} {g A s x S X R : ℝ} (hn : 1 ≤ n) (hu : 0 ≤ u) (hug : u ≤ g) (hgn : 128 * (g * (n + 1)) ≤ 1)
    (hA : 0 ≤ A) (hs : |s| ≤ n * A) (hx : |x| ≤ A) (hS : |S - s| ≤ 3 * g * n ^ 2 * A) (hX : |X - x| ≤ 3 * (g * A))
    (hR : |R - (S + X)| ≤ u * |S + X|) : |S + X| ≤ 2 * ((n + 1) * A) ∧ |R - (s + x)| ≤ 3 * g * (n + 1) ^ 2 * A := by
  have hn1 : (1 : ℝ) ≤ n := by exact_mod_cast hn
  have hg : 0 ≤ g := hu.trans hug
  have hgA : 0 ≤ g * A := by positivity
  have h1 : 128 * (3 * g * n ^ 2 * A) ≤ 3 * (n * A) := by
    have := mul_le_mul_of_nonneg_right (show 128 * (g * n) ≤ 1 by linarith) (show 0 ≤ 3 * (n * A) by positivity)
    linarith
  have h2 : 128 * (g * A) ≤ n * A := by
    have := mul_le_mul_of_nonneg_right (show 128 * g ≤ 1 by
      have := mul_le_mul_of_nonneg_left (show (1 : ℝ) ≤ n + 1 by linarith) hg
      linarith) hA
    have := mul_le_mul_of_nonneg_right hn1 hA
    linarith
  have h3 : |S| ≤ n * A + 3 / 128 * (n * A) := by have := abs_le_of_err hS; linarith
  have h4 : |X| ≤ A + 3 / 128 * (n * A) := by have := abs_le_of_err hX; linarith
  have h5 := abs_add_le S X
  have h6 : |S + X| ≤ 9 / 8 * (n * A) + A := by linarith
  have hnA : 0 ≤ n * A := by positivity
  refine ⟨by linarith, ?_⟩
  have e1 := abs_add_three (R - (S + X)) (S - s) (X - x)
  rw [show R - (S + X) + (S - s) + (X - x) = R - (s + x) by ring] at e1
  have e2 := mul_le_mul hug h6 (abs_nonneg _) hg
  have e5 := mul_le_mul_of_nonneg_left hn1 hgA
  linarith

variable (h : Setting F val fin u η Ω M γ N d)
include h

/-- One more sample in a running sum. -/
theorem Setting.running {n : ℕ} {g A s x : ℝ} {a b : F} (hn : 1 ≤ n) (hnN : n + 1 ≤ N) (hug : u ≤ g) (hgγ : g ≤ γ) (hA : 0 ≤ A)
    (hΩ : 2 * (N * A) ≤ Ω) (fa : fin a) (fb : fin b) (hs : |s| ≤ n * A) (hx : |x| ≤ A) (hS : |val a - s| ≤ 3 * g * n ^ 2 * A)
    (hX : |val b - x| ≤ 3 * (g * A)) :
    fin (a + b) ∧ |val (a + b) - (s + x)| ≤ 3 * g * (n + 1) ^ 2 * A ∧ |s + x| ≤ (n + 1) * A := by
  obtain ⟨u0, uγ, γN, η0, ηu, ηγ, ηM, M0, Ω1, Ω2⟩ := h.moderate
  have hnN' : (n : ℝ) + 1 ≤ N := by exact_mod_cast hnN
  have hgn : 128 * (g * (n + 1)) ≤ 1 := by
    have := mul_le_mul hgγ hnN' (by positivity) (u0.trans uγ)
    linarith
  have z : |val a + val b - (val a + val b)| ≤ u * |val a + val b| := by rw [sub_self, abs_zero]; positivity
  obtain ⟨i1, -⟩ := running_real hn u0 hug hgn hA hs hx hS hX z
  obtain ⟨f, i2⟩ := h.full.add a b fa fb (by
    have := mul_le_mul_of_nonneg_right hnN' hA
    linarith)
  refine ⟨f, (running_real hn u0 hug hgn hA hs hx hS hX i2).2, ?_⟩
  have := abs_add_le s x
  linarith

/-- The sums of the samples and of their squares. -/
theorem Setting.silSums {l : List (List F)} (hl : l ≠ []) (hd : ∀ x ∈ l, x.length = d)
    (hx : ∀ x ∈ l, ∀ a ∈ x, fin a ∧ |val a| ≤ M) (hN : l.length ≤ N) :
    (∀ j < d, fin ((Sil.of l).g.getD j 0) ∧
      |val ((Sil.of l).g.getD j 0) - (l.map fun x => val (x.getD j 0)).sum| ≤ 3 * u * l.length ^ 2 * M ∧
      |(l.map fun x => val (x.getD j 0)).sum| ≤ l.length * M) ∧
    fin (Sil.of l).cp ∧
      |val (Sil.of l).cp - (l.map fun x => ∑ j ∈ Finset.range d, val (x.getD j 0) * val (x.getD j 0)).sum| ≤
        3 * γ * l.length ^ 2 * (d * M ^ 2) ∧
      |(l.map fun x => ∑ j ∈ Finset.range d, val (x.getD j 0) * val (x.getD j 0)).sum| ≤ l.length * (d * M ^ 2) := by
  obtain ⟨u0, uγ, γN, η0, ηu, ηγ, ηM, M0, Ω1, Ω2⟩ := h.moderate
  have hN1 : (1 : ℝ) ≤ N := by exact_mod_cast h.N1
  have hγ0 : 0 ≤ γ := u0.trans uγ
  have hT : 0 ≤ d * M ^ 2 := by positivity
  have hTN : d * M ^ 2 ≤ N * (d * M ^ 2) := by have := mul_le_mul_of_nonneg_right hN1 hT; linarith
  have hη : η ≤ γ * M ^ 2 := by have := mul_le_mul_of_nonneg_right hN1 η0; linarith
  have hγ1 : 128 * γ ≤ 1 := by have := mul_le_mul_of_nonneg_left hN1 hγ0; linarith
  -- one sample
  have hsq : ∀ x : List F, x.length = d → (∀ a ∈ x, fin a ∧ |val a| ≤ M) → fin (Arith.dot x x) ∧
      |val (Arith.dot x x) - ∑ j ∈ Finset.range d, val (x.getD j 0) * val (x.getD j 0)| ≤ 3 * (γ * (d * M ^ 2)) ∧
      |∑ j ∈ Finset.range d, val (x.getD j 0) * val (x.getD j 0)| ≤ d * M ^ 2 := by
    intro x hxd hx
    have hj : ∀ j < d, Approx val fin γ M 0 1 (x.getD j 0) (val (x.getD j 0)) := fun j hj => by
      obtain ⟨a1, a2⟩ := hx _ (getD_mem (show j < x.length by rw [hxd]; exact hj))
      exact ⟨a1, by simp, by simpa using a2⟩
    have := Approx.dot (k := 3) h.full hγ0 le_rfl hγ1 M0 M0 (by linarith) (by linarith) hxd hxd hj hj le_rfl zero_le_one le_rfl (by norm_num)
      (by norm_num)
    refine ⟨this.1, this.2.1.trans (le_of_eq (by ring)), this.2.2.trans (le_of_eq (by ring))⟩
  induction l using List.reverseRecOn with
  | nil => exact absurd rfl hl
  | append_singleton l x ih =>
    have hxl : x.length = d := hd x (by simp)
    have hxj : ∀ j < d, fin (x.getD j 0) ∧ |val (x.getD j 0)| ≤ M := fun j hj =>
      hx x (by simp) _ (getD_mem (show j < x.length by rw [hxl]; exact hj))
    obtain ⟨q1, q2, q3⟩ := hsq x hxl (hx x (by simp))
    by_cases e : l = []
    · subst e
      have e1 : Sil.of ([] ++ [x]) = Sil.one x := rfl
      rw [e1]
      simp only [List.nil_append, List.map_cons, List.map_nil, List.sum_cons, List.sum_nil, add_zero, List.length_cons, List.length_nil,
        zero_add, Nat.cast_one, one_pow, mul_one, one_mul]
      refine ⟨fun j hj => ⟨(hxj j hj).1, ?_, (hxj j hj).2⟩, q1, q2.trans (le_of_eq (by ring)), q3⟩
      rw [Sil.one, sub_self, abs_zero]
      positivity
    · have hn := List.length_pos_iff.mpr e
      have hdl : ∀ y ∈ l, y.length = d := fun y hy => hd y (by simp [hy])
      have hN' : l.length + 1 ≤ N := by simpa using hN
      obtain ⟨i1, i2, i3, i4⟩ := ih e hdl (fun y hy => hx y (by simp [hy])) (by omega)
      rw [Sil.of_append x e]
      simp only [List.map_append, List.map_cons, List.map_nil, List.sum_append, List.sum_cons, List.sum_nil, add_zero, List.length_append,
        List.length_cons, List.length_nil, zero_add, Nat.cast_add, Nat.cast_one, Sil.more]
      constructor
      · intro j hj
        rw [getD_zip (by rw [Sil.of_length e hdl]; exact hj) (by rw [hxl]; exact hj)]
        obtain ⟨f1, f2, f3⟩ := i1 j hj
        have := h.running hn hN' le_rfl uγ M0 (by linarith [mul_nonneg (by linarith : (0 : ℝ) ≤ N) M0]) f1 (hxj j hj).1 f3 (hxj j hj).2 f2
          (by rw [sub_self, abs_zero]; positivity)
        exact this
      · exact h.running hn hN' uγ le_rfl hT (by linarith) i2 q1 i4 q3 i3 q2

/-- What the errors are compared with. -/
theorem Setting.sizes {n : ℕ} (hn : 1 ≤ n) (hnN : n ≤ N) : 0 ≤ d * M ^ 2 ∧ 0 ≤ n * (d * M ^ 2) ∧ d * M ^ 2 ≤ n * (d * M ^ 2) ∧
    73 * (n * (d * M ^ 2)) ≤ Ω ∧ η ≤ γ * N * M ^ 2 ∧ η ≤ γ * N * (d * M ^ 2) ∧ 0 ≤ γ ∧ γ ≤ γ * N ∧ (1 : ℝ) ≤ n ∧ n * u ≤ γ * N ∧
    n * γ ≤ γ * N := by
  obtain ⟨u0, uγ, γN, η0, ηu, ηγ, ηM, M0, Ω1, Ω2⟩ := h.moderate
  obtain ⟨e1, e2, e3, e4, -⟩ := h.eps
  have hN1 : (1 : ℝ) ≤ N := by exact_mod_cast h.N1
  have hn1 : (1 : ℝ) ≤ n := by exact_mod_cast hn
  have hd1 : (1 : ℝ) ≤ d := by exact_mod_cast h.d1
  have hnN' : (n : ℝ) ≤ N := by exact_mod_cast hnN
  have hγ0 : 0 ≤ γ := u0.trans uγ
  have hT : 0 ≤ d * M ^ 2 := by positivity
  have h1 := mul_le_mul_of_nonneg_right hn1 hT
  have h2 := mul_le_mul_of_nonneg_right hnN' hT
  have h3 := mul_le_mul_of_nonneg_left hd1 (show 0 ≤ γ * N * M ^ 2 by positivity)
  have h4 := mul_le_mul_of_nonneg_left hN1 hγ0
  have h5 := mul_le_mul hnN' uγ u0 (by positivity)
  have h6 := mul_le_mul_of_nonneg_right hnN' hγ0
  exact ⟨hT, by positivity, by linarith, by linarith, e4, by linarith, hγ0, by linarith, hn1, by linarith, by linarith⟩

/-- The sum over the samples in `l` of feature `j`. -/
def colSum (val : F → ℝ) (l : List (List F)) (j : ℕ) : ℝ := (l.map fun x => val (x.getD j 0)).sum

/-- The sum over the samples in `l` of their squared norms. -/
def sqSums (val : F → ℝ) (d : ℕ) (l : List (List F)) : ℝ := (l.map fun x => ∑ j ∈ Finset.range d, val (x.getD j 0) * val (x.getD j 0)).sum

section
variable {l : List (List F)} (hl : l ≠ []) (hd : ∀ x ∈ l, x.length = d) (hx : ∀ x ∈ l, ∀ a ∈ x, fin a ∧ |val a| ≤ M) (hN : l.length ≤ N)
include hl hd hx hN

theorem Setting.silG {j : ℕ} (hj : j < d) : Approx val fin (γ * N) (l.length * M) 3 1 ((Sil.of l).g.getD j 0) (colSum val l j) := by
  obtain ⟨f, i1, i2⟩ := (h.silSums hl hd hx hN).1 j hj
  refine ⟨f, i1.trans ?_, i2.trans (le_of_eq (by ring))⟩
  have := mul_le_mul_of_nonneg_right (h.sizes (List.length_pos_iff.mpr hl) hN).2.2.2.2.2.2.2.2.2.1
    (show 0 ≤ 3 * (l.length * M) from by have := h.eps.2.2.2.2; positivity)
  linarith

theorem Setting.silCP : Approx val fin (γ * N) (l.length * (d * M ^ 2)) 3 1 (Sil.of l).cp (sqSums val d l) := by
  obtain ⟨-, f, i1, i2⟩ := h.silSums hl hd hx hN
  refine ⟨f, i1.trans ?_, i2.trans (le_of_eq (by ring))⟩
  obtain ⟨hT, hnT, -, -, -, -, -, -, -, -, hnγ⟩ := h.sizes (List.length_pos_iff.mpr hl) hN
  have := mul_le_mul_of_nonneg_right hnγ (show 0 ≤ 3 * (l.length * (d * M ^ 2)) by positivity)
  linarith

end

/-- The squared norm of a centroid. -/
theorem Setting.silWW {w : List F} {m : ℕ → ℝ} (hw : w.length = d) (hm : ∀ j < d, Approx val fin (γ * N) M 7 1 (w.getD j 0) (m j)) :
    Approx val fin (γ * N) (d * M ^ 2) 18 1 (Arith.dot w w) (∑ j ∈ Finset.range d, m j * m j) := by
  obtain ⟨hT, -, -, hΩ, hη, -, hγ, hγε, -⟩ := h.sizes le_rfl h.N1
  obtain ⟨-, e2, e3, -, M0⟩ := h.eps
  have := Approx.dot (k := 18) h.full hγ hγε e2 M0 M0 (by linarith) (by push_cast at hΩ; linarith) hw hw hm hm (by norm_num) zero_le_one
    (by norm_num) (by norm_num) (by norm_num)
  rw [← pow_two, mul_one] at this
  exact this

/-- A multiple of that. -/
theorem Setting.silNWW {n : ℕ} (hn : 1 ≤ n) (hnN : n ≤ N) {w : List F} {m : ℕ → ℝ} (hw : w.length = d)
    (hm : ∀ j < d, Approx val fin (γ * N) M 7 1 (w.getD j 0) (m j)) :
    Approx val fin (γ * N) (n * (d * M ^ 2)) 21 1 (Arith.ofNat n * Arith.dot w w) (n * ∑ j ∈ Finset.range d, m j * m j) := by
  obtain ⟨hT, -, hTn, hΩ, hη, hη', hγ, hγε, hn1, -⟩ := h.sizes hn hnN
  obtain ⟨e1, e2, e3, -, M0⟩ := h.eps
  obtain ⟨g1, g2⟩ := h.full.ofNat n hnN
  exact Approx.smul h.full h.moderate.u0 e1 e2 hT (by linarith) g1 g2 hn1 hη' (h.silWW hw hm) (by norm_num) hΩ (by norm_num) (by norm_num)

/-- Twice the inner product of a sum of `n` samples and a centroid. -/
theorem Setting.silGW {n : ℕ} (hn : 1 ≤ n) (hnN : n ≤ N) {g w : List F} {G m : ℕ → ℝ} (hg : g.length = d) (hw : w.length = d)
    (hG : ∀ j < d, Approx val fin (γ * N) (n * M) 3 1 (g.getD j 0) (G j)) (hm : ∀ j < d, Approx val fin (γ * N) M 7 1 (w.getD j 0) (m j)) :
    Approx val fin (γ * N) (n * (d * M ^ 2)) 34 2 (Arith.two * Arith.dot g w) (2 * ∑ j ∈ Finset.range d, G j * m j) := by
  obtain ⟨hT, hnT, hTn, hΩ, hη, hη', hγ, hγε, hn1, -⟩ := h.sizes hn hnN
  obtain ⟨e1, e2, e3, -, M0⟩ := h.eps
  obtain ⟨g1, g2⟩ := h.full.two
  have hn0 : (0 : ℝ) ≤ n := by linarith
  have e : (d : ℝ) * (n * M * M) = n * (d * M ^ 2) := by ring
  have h1 := Approx.dot (k := 14) h.full hγ hγε e2 (mul_nonneg hn0 M0) M0 (by
    have := mul_le_mul_of_nonneg_left hn1 (show 0 ≤ γ * N * M ^ 2 by positivity)
    linarith) (by rw [e]; exact hΩ) hg hw hG hm (by norm_num) zero_le_one (by norm_num) (by norm_num) (by norm_num)
  rw [e, mul_one] at h1
  have h2 := Approx.smul (k'' := 17) (K := 36) h.full h.moderate.u0 e1 e2 hnT hΩ g1 g2 (by norm_num)
    (hη'.trans (mul_le_mul_of_nonneg_left hTn e3)) h1 (by norm_num) (by linarith) (by norm_num) (by norm_num)
  have h3 := h2.scale
  norm_num at h3
  exact h3

section
variable {l : List (List F)} (hl : l ≠ []) (hd : ∀ x ∈ l, x.length = d) (hx : ∀ x ∈ l, ∀ a ∈ x, fin a ∧ |val a| ≤ M)
  {w : List F} {m : ℕ → ℝ} (hw : w.length = d) (hm : ∀ j < d, Approx val fin (γ * N) M 7 1 (w.getD j 0) (m j))
include hl hd hx hw hm

/-- An entry of the column of the cluster that got the sample. -/
theorem Setting.silNear (hN : l.length ≤ N) : Approx val fin (γ * N) (d * M ^ 2) 106 6 (Gen.near (Sil.of l) w)
    ((sqSums val d l + l.length * ∑ j ∈ Finset.range d, m j * m j - 2 * ∑ j ∈ Finset.range d, colSum val l j * m j) / l.length) := by
  have hn := List.length_pos_iff.mpr hl
  obtain ⟨hT, hnT, hTn, hΩ, hη, hη', hγ, hγε, hn1, -⟩ := h.sizes hn hN
  obtain ⟨e1, e2, e3, -, M0⟩ := h.eps
  have u0 := h.moderate.u0
  obtain ⟨g1, g2⟩ := h.full.ofNat _ hN
  have hn' : (Sil.of l).n = l.length := by rw [(Sil.of_nv l).1, (Stat.of_length hl hd).1]
  rw [Gen.near, hn']
  have h1 := Approx.add (k'' := 27) h.full u0 e1 e2 hnT hΩ (h.silCP hl hd hx hN) (h.silNWW hn hN hw hm) (by norm_num) (by norm_num)
    (by norm_num) (by norm_num)
  have h2 := Approx.sub (k'' := 66) h.full u0 e1 e2 hnT hΩ h1 (h.silGW hn hN (Sil.of_length hl hd) hw (fun j hj => h.silG hl hd hx hN hj) hm)
    (by norm_num) (by norm_num) (by norm_num) (by norm_num)
  have h3 := Approx.sdiv (k'' := 72) h.full u0 e1 e2 hT g1 g2 hn1 hη' h2 (by norm_num) (by linarith) (by norm_num) (by norm_num)
  exact h3.mono e3 hT le_rfl (by norm_num) (by norm_num) (by norm_num) (by norm_num)

/-- An entry of the row of a cluster that gets the sample `x`. -/
theorem Setting.silFar (hN : l.length + 1 ≤ N) {x : List F} (hxd : x.length = d) (hxx : ∀ a ∈ x, fin a ∧ |val a| ≤ M)
    {g : List F} {G : ℕ → ℝ} (hg : g.length = d)
    (hG : ∀ j < d, Approx val fin (γ * N) ((l.length + 1 : ℕ) * M) 3 1 (g.getD j 0) (G j)) :
    Approx val fin (γ * N) (d * M ^ 2) 106 6 (far (Sil.of l) x g w)
    ((sqSums val d l + ∑ j ∈ Finset.range d, (val (x.getD j 0) - m j) * (val (x.getD j 0) - m j) + l.length * ∑ j ∈ Finset.range d, m j * m j -
      2 * ∑ j ∈ Finset.range d, G j * m j) / (l.length + 1 : ℕ)) := by
  have hn := List.length_pos_iff.mpr hl
  have hNl : l.length ≤ N := by omega
  obtain ⟨-, hnT, -⟩ := h.sizes hn hNl
  obtain ⟨hT, hpT, hTp, hΩ, hη, hη', hγ, hγε, hp1, -⟩ := h.sizes (Nat.le_add_left 1 l.length) hN
  obtain ⟨e1, e2, e3, -, M0⟩ := h.eps
  have u0 := h.moderate.u0
  have hΩ1 := h.moderate.Ω1
  obtain ⟨g1, g2⟩ := h.full.ofNat _ hN
  have hn' : (Sil.of l).n = l.length := by rw [(Sil.of_nv l).1, (Stat.of_length hl hd).1]
  have hle : (l.length : ℝ) * (d * M ^ 2) ≤ (l.length + 1 : ℕ) * (d * M ^ 2) := by push_cast; linarith
  have h2T : 2 * (d * M ^ 2) ≤ (l.length + 1 : ℕ) * (d * M ^ 2) := by
    have : (2 : ℝ) ≤ (l.length + 1 : ℕ) := by exact_mod_cast (by omega : 2 ≤ l.length + 1)
    exact mul_le_mul_of_nonneg_right this hT
  have hdx : ∀ j < d, Approx val fin (γ * N) M 10 2 ((List.zipWith (· - ·) x w).getD j 0) (val (x.getD j 0) - m j) := by
    intro j hj
    rw [getD_zip (by rw [hxd]; exact hj) (by rw [hw]; exact hj)]
    obtain ⟨a1, a2⟩ := hxx _ (getD_mem (show j < x.length by rw [hxd]; exact hj))
    have hxj : |val (x.getD j 0) - val (x.getD j 0)| ≤ 0 * (γ * N * M) := by simp
    obtain ⟨f, i⟩ := h.full.sub (x.getD j 0) (w.getD j 0) a1 (hm j hj).1 (by
      have := (hm j hj).abs_le e2 M0 (by norm_num)
      have := abs_sub (val (x.getD j 0)) (val (w.getD j 0))
      have hN1 : (1 : ℝ) ≤ N := by exact_mod_cast h.N1
      have := mul_le_mul_of_nonneg_right hN1 M0
      linarith)
    refine ⟨f, ?_, ?_⟩
    · have b1 := abs_add_le (val (x.getD j 0 - w.getD j 0) - (val (x.getD j 0) - val (w.getD j 0))) (m j - val (w.getD j 0))
      rw [show val (x.getD j 0 - w.getD j 0) - (val (x.getD j 0) - val (w.getD j 0)) + (m j - val (w.getD j 0)) =
        val (x.getD j 0 - w.getD j 0) - (val (x.getD j 0) - m j) by ring, abs_sub_comm (m j)] at b1
      have b2 := (hm j hj).abs_le e2 M0 (by norm_num)
      have b3 := abs_sub (val (x.getD j 0)) (val (w.getD j 0))
      have b4 := mul_le_mul e1 (show |val (x.getD j 0) - val (w.getD j 0)| ≤ 3 * M by linarith) (abs_nonneg _) e3
      linarith [(hm j hj).2.1]
    · have := abs_sub (val (x.getD j 0)) (m j)
      linarith [(hm j hj).2.2]
  have hdl : (List.zipWith (· - ·) x w).length = d := by rw [List.length_zipWith, hxd, hw, min_self]
  have hdd := Approx.dot (k := 48) h.full hγ hγε e2 M0 M0 (by linarith) (by linarith) hdl hdl hdx hdx (by norm_num) (by norm_num)
    (by norm_num) (by norm_num) (by norm_num)
  rw [← pow_two] at hdd
  have hdd' : Approx val fin (γ * N) ((l.length + 1 : ℕ) * (d * M ^ 2)) 24 2
      (Arith.dot (List.zipWith (· - ·) x w) (List.zipWith (· - ·) x w))
      (∑ j ∈ Finset.range d, (val (x.getD j 0) - m j) * (val (x.getD j 0) - m j)) := by
    refine ⟨hdd.1, hdd.2.1.trans ?_, hdd.2.2.trans (by linarith)⟩
    have := mul_le_mul_of_nonneg_left h2T (show 0 ≤ 24 * (γ * N) by positivity)
    linarith
  rw [far, hn']
  have h1 := Approx.add (k'' := 31) h.full u0 e1 e2 hpT hΩ ((h.silCP hl hd hx hNl).mono e3 hnT hle (by norm_num) le_rfl (by norm_num) le_rfl)
    hdd' (by norm_num) (by norm_num) (by norm_num) (by norm_num)
  have h2 := Approx.add (k'' := 57) h.full u0 e1 e2 hpT hΩ h1
    ((h.silNWW hn hNl hw hm).mono e3 hnT hle (by norm_num) le_rfl (by norm_num) le_rfl) (by norm_num) (by norm_num) (by norm_num) (by norm_num)
  have h3 := Approx.sub (k'' := 98) h.full u0 e1 e2 hpT hΩ h2 (h.silGW (Nat.le_add_left 1 l.length) hN hg hw hG hm)
    (by norm_num) (by norm_num) (by norm_num) (by norm_num)
  have h4 := Approx.sdiv (k'' := 106) h.full u0 e1 e2 hT g1 g2 hp1 hη' h3 (by norm_num) (by linarith) (by norm_num) (by norm_num)
  exact h4.mono e3 hT le_rfl (by norm_num) le_rfl (by norm_num) (by norm_num)

end

/-- An entry of the row of a new cluster. -/
theorem Setting.silNew {w : List F} {m : ℕ → ℝ} (hw : w.length = d) (hm : ∀ j < d, Approx val fin (γ * N) M 7 1 (w.getD j 0) (m j))
    {x : List F} (hxd : x.length = d) (hxx : ∀ a ∈ x, fin a ∧ |val a| ≤ M) :
    Approx val fin (γ * N) (d * M ^ 2) 106 6 (Arith.dot x x + Arith.dot w w - Arith.dot x w)
      (∑ j ∈ Finset.range d, val (x.getD j 0) * val (x.getD j 0) + ∑ j ∈ Finset.range d, m j * m j -
        ∑ j ∈ Finset.range d, val (x.getD j 0) * m j) := by
  obtain ⟨hT, -, hTn, hΩ, hη, hη', hγ, hγε, -⟩ := h.sizes le_rfl h.N1
  obtain ⟨e1, e2, e3, -, M0⟩ := h.eps
  have u0 := h.moderate.u0
  have hΩ' : 73 * (d * M ^ 2) ≤ Ω := by linarith
  have hj : ∀ j < d, Approx val fin (γ * N) M 0 1 (x.getD j 0) (val (x.getD j 0)) := fun j hj => by
    obtain ⟨a1, a2⟩ := hxx _ (getD_mem (show j < x.length by rw [hxd]; exact hj))
    exact ⟨a1, by simp, by simpa using a2⟩
  have h1 := Approx.dot (k := 3) h.full hγ hγε e2 M0 M0 (by linarith) (by linarith) hxd hxd hj hj le_rfl zero_le_one le_rfl (by norm_num)
    (by norm_num)
  have h2 := Approx.dot (k := 11) h.full hγ hγε e2 M0 M0 (by linarith) (by linarith) hxd hw hj hm le_rfl zero_le_one (by norm_num)
    (by norm_num) (by norm_num)
  rw [← pow_two, mul_one] at h1 h2
  have h3 := Approx.add (k'' := 24) h.full u0 e1 e2 hT hΩ' h1 (h.silWW hw hm) (by norm_num) (by norm_num) (by norm_num) (by norm_num)
  have h4 := Approx.sub (k'' := 39) h.full u0 e1 e2 hT hΩ' h3 h2 (by norm_num) (by norm_num) (by norm_num) (by norm_num)
  exact h4.mono e3 hT le_rfl (by norm_num) (by norm_num) (by norm_num) (by norm_num)

/-! ## The matrix -/

omit h in
theorem sqSum_real (S : Samples F) (c : ℤ) : CSIL.sqSum (real val d S) c = sqSums val d (own S c) := by
  rw [CSIL.sqSum, sqSums, cluster_real, List.map_map]
  congr 2
  funext x
  rw [Function.comp, CSIL.dot, Finset.sum_range]

omit h in
theorem vecSum_real (S : Samples F) (c : ℤ) (i : Fin d) : CSIL.vecSum (real val d S) c i = colSum val (own S c) i := by
  rw [CSIL.vecSum, colSum, cluster_real, List.map_map]
  rfl

omit h in
theorem real_append (S : Samples F) (x : List F) (c : ℤ) :
    real val d (S ++ [(x, c)]) = real val d S ++ [((fun i => val (x.getD i 0) : Spec.Pt d), c)] := by
  rw [real, List.map_append]
  rfl

omit h in
theorem entry_row_old (S : Spec.Stream d) (x : Spec.Pt d) {a c : ℤ} (hac : a ≠ c) (hc : 0 < Spec.size S c) :
    CSIL.entry (S ++ [(x, c)]) c a = (CSIL.sqSum S c + ∑ i, (x i - Spec.centroid S a i) * (x i - Spec.centroid S a i) +
      Spec.size S c * ∑ i, Spec.centroid S a i * Spec.centroid S a i - 2 * ∑ i, (CSIL.vecSum S c i + x i) * Spec.centroid S a i) /
        (Spec.size S c + 1 : ℕ) := by
  rw [CSIL.entry_append_row S x hac, CSIL.crossScatter_expand, CSIL.sqSum_append_self, size_append_self, CSIL.vecSum_append_self,
    if_neg hc.ne', centroid_append_ne S x hac]
  have e1 : ∑ i, (x i - Spec.centroid S a i) * (x i - Spec.centroid S a i) = CSIL.dot x x + CSIL.dot (Spec.centroid S a) (Spec.centroid S a)
      - 2 * CSIL.dot x (Spec.centroid S a) := by
    rw [← CSIL.dist2_expand]; simp only [Spec.dist2, pow_two]
  have e2 : ∑ i, (CSIL.vecSum S c i + x i) * Spec.centroid S a i = CSIL.dot (CSIL.vecSum S c) (Spec.centroid S a) +
      CSIL.dot x (Spec.centroid S a) := CSIL.dot_add_left _ _ _
  have e3 : ∑ i, Spec.centroid S a i * Spec.centroid S a i = CSIL.dot (Spec.centroid S a) (Spec.centroid S a) := rfl
  rw [e1, e2, e3, CSIL.dot_add_left, ← add_div]
  congr 1
  push_cast
  ring

omit h in
theorem entry_row_new (S : Spec.Stream d) (x : Spec.Pt d) {a c : ℤ} (hac : a ≠ c) (hc : c ∉ Spec.labels S) :
    CSIL.entry (S ++ [(x, c)]) c a = ∑ i, x i * x i + ∑ i, Spec.centroid S a i * Spec.centroid S a i - ∑ i, x i * Spec.centroid S a i := by
  rw [CSIL.entry_append_row S x hac, CSIL.crossScatter_expand, CSIL.sqSum_append_self, size_append_self, CSIL.vecSum_append_self,
    CSIL.sqSum_new hc, CSIL.vecSum_new hc, CSIL.size_new hc, if_pos rfl, centroid_append_ne S x hac, CSIL.dot_add_left]
  simp only [CSIL.dot]
  simp
  ring

omit h in
theorem entry_own (S : Spec.Stream d) (x : Spec.Pt d) (c : ℤ) :
    CSIL.entry (S ++ [(x, c)]) c c = (CSIL.sqSum S c + ∑ i, (x i - Spec.centroid (S ++ [(x, c)]) c i) * (x i - Spec.centroid (S ++ [(x, c)]) c i) +
      Spec.size S c * ∑ i, Spec.centroid (S ++ [(x, c)]) c i * Spec.centroid (S ++ [(x, c)]) c i -
        2 * ∑ i, CSIL.vecSum S c i * Spec.centroid (S ++ [(x, c)]) c i) / (Spec.size S c + 1 : ℕ) := by
  rw [CSIL.entry_append_col, CSIL.crossScatter_expand, CSIL.sqSum_append_self, size_append_self, CSIL.vecSum_append_self]
  generalize Spec.centroid (S ++ [(x, c)]) c = w
  have e1 : ∑ i, (x i - w i) * (x i - w i) = CSIL.dot x x + CSIL.dot w w - 2 * CSIL.dot x w := by
    rw [← CSIL.dist2_expand]; simp only [Spec.dist2, pow_two]
  have e2 : ∑ i, CSIL.vecSum S c i * w i = CSIL.dot (CSIL.vecSum S c) w := rfl
  have e3 : ∑ i, w i * w i = CSIL.dot w w := rfl
  rw [e1, e2, e3, CSIL.dot_add_left]
  congr 1
  push_cast
  ring

omit h in
theorem Inputs.prefix {S : Samples F} {p : List F × ℤ} (D : Inputs val fin M N d (S ++ [p])) : Inputs val fin M N d S :=
  ⟨fun q hq => D.dim q (by simp [hq]), fun q hq => D.bound q (by simp [hq]), by have := D.length; simp at this; omega⟩

/-- The recorded centroid of a cluster. -/
theorem Setting.silV {S : Samples F} (D : Inputs val fin M N d S) {c : ℤ} (hc : c ∈ order S) : (sil S c).v.length = d ∧
    ∀ j < d, Approx val fin (γ * N) M 7 1 ((sil S c).v.getD j 0) (mean val (own S c) j) := by
  obtain ⟨h1, h2⟩ := h.centroid (Inputs.own_ne hc) D.own_dim D.own_bound (Inputs.own_le.trans D.length)
  rw [sil, (Sil.of_nv _).2]
  exact ⟨h1, fun j hj => ⟨(h2 j hj).1, (h2 j hj).2.1, by simpa using (h2 j hj).2.2⟩⟩

/-- An entry of the matrix. -/
theorem Setting.silEntry {S : Samples F} (D : Inputs val fin M N d S) {a b : ℤ} (ha : a ∈ order S) (hb : b ∈ order S) :
    Approx val fin (γ * N) (d * M ^ 2) 106 6 (cell S a b) (CSIL.entry (real val d S) a b) := by
  induction S using List.reverseRecOn with
  | nil => simp [order] at ha
  | append_singleton S p ih =>
    obtain ⟨x, c⟩ := p
    have D' := D.prefix
    have hxd : x.length = d := D.dim (x, c) (by simp)
    have hxx : ∀ a ∈ x, fin a ∧ |val a| ≤ M := D.bound (x, c) (by simp)
    have hmem : ∀ {e : ℤ}, e ∈ order (S ++ [(x, c)]) → e ≠ c → e ∈ order S := by
      intro e he hne
      rw [mem_order] at he ⊢
      simpa [hne] using he
    have hc' : c ∈ order (S ++ [(x, c)]) := by rw [mem_order]; simp
    have hlen : (own S c).length + 1 ≤ N := by
      have h1 := (Inputs.own_le (S := S) (c := c))
      have h2 := D.length
      simp at h2
      omega
    have hlo : (own S c).length ≤ N := by omega
    by_cases hac : a = c
    · subst hac
      by_cases hba : b = a
      · subst hba
        by_cases hold : b ∈ order S
        · obtain ⟨v1, v2⟩ := h.silV D hc'
          have := h.silFar (Inputs.own_ne hold) D'.own_dim D'.own_bound v1 v2 hlen hxd hxx (sil_g_length S hold D'.dim) fun j hj =>
            (h.silG (Inputs.own_ne hold) D'.own_dim D'.own_bound hlo hj).mono h.eps.2.2.1 (by have := h.eps.2.2.2.2; positivity)
              (mul_le_mul_of_nonneg_right (by push_cast; linarith) h.eps.2.2.2.2) (by norm_num) le_rfl zero_le_one le_rfl
          rw [cell_append_old S x hold, real_append, entry_own, ← real_append]
          simp only [centroid_real, vecSum_real, sqSum_real, size_real]
          simp only [Finset.sum_range] at this
          exact this
        · rw [cell_append_new S x hold, real_append, CSIL.entry_append_col, CSIL.crossScatter_self_singleton]
          · refine ⟨h.full.zero.1, ?_, ?_⟩
            · rw [h.full.zero.2, sub_self, abs_zero]
              have := h.eps.2.2.1
              positivity
            · rw [abs_zero]
              positivity
          · rw [size_append_self, CSIL.size_new]
            rw [labels_real, List.mem_toFinset]
            exact hold
      · have hb' := hmem hb hba
        obtain ⟨v1, v2⟩ := h.silV D' hb'
        by_cases hold : a ∈ order S
        · have hne := Inputs.own_ne hold
          have hd1 : ∀ y ∈ own S a ++ [x], y.length = d := by
            intro y hy
            rcases List.mem_append.mp hy with hy | hy
            · exact D'.own_dim y hy
            · rw [List.mem_singleton.mp hy]; exact hxd
          have hx1 : ∀ y ∈ own S a ++ [x], ∀ e ∈ y, fin e ∧ |val e| ≤ M := by
            intro y hy
            rcases List.mem_append.mp hy with hy | hy
            · exact D'.own_bound y hy
            · rw [List.mem_singleton.mp hy]; exact hxx
          have hg : List.zipWith (· + ·) (sil S a).g x = (Sil.of (own S a ++ [x])).g := by rw [Sil.of_append x hne]; rfl
          have := h.silFar hne D'.own_dim D'.own_bound v1 v2 hlen hxd hxx (g := List.zipWith (· + ·) (sil S a).g x)
            (G := colSum val (own S a ++ [x])) (by rw [hg]; exact Sil.of_length (by simp) hd1) fun j hj => by
              have := h.silG (l := own S a ++ [x]) (by simp) hd1 hx1 (by simpa using hlen) hj
              rw [hg]
              simpa using this
          rw [cell_append_row_old S x hold hba, real_append, entry_row_old _ _ hba (by
            rw [size_real]; exact List.length_pos_iff.mpr hne)]
          simp only [centroid_real, vecSum_real, sqSum_real, size_real]
          simp only [Finset.sum_range, colSum, List.map_append, List.sum_append, List.map_cons, List.map_nil, List.sum_cons, List.sum_nil,
            add_zero] at this
          exact this
        · have := h.silNew v1 v2 hxd hxx
          rw [cell_append_row_new S x hold hba, real_append, entry_row_new _ _ hba (by
            rw [labels_real, List.mem_toFinset]; exact hold)]
          simp only [centroid_real]
          simp only [Finset.sum_range] at this
          exact this
    · have ha' := hmem ha hac
      by_cases hbc : b = c
      · subst hbc
        obtain ⟨v1, v2⟩ := h.silV D hc'
        have := h.silNear (Inputs.own_ne ha') D'.own_dim D'.own_bound v1 v2 (Inputs.own_le.trans D'.length)
        rw [cell_append_col S x hac, real_append, CSIL.entry_append_col, CSIL.crossScatter_expand, CSIL.sqSum_append_ne _ _ hac,
          size_append_ne _ _ hac, CSIL.vecSum_append_ne _ _ hac, ← real_append]
        simp only [CSIL.dot, centroid_real, vecSum_real, sqSum_real, size_real]
        simp only [Finset.sum_range] at this
        exact this
      · rw [cell_append_ne S x hac hbc, real_append, CSIL.entry_append_ne _ _ hac hbc]
        exact ih D' ha' (hmem hb hbc)

/-! ## The value -/

omit h in
/-- The arithmetic of a silhouette coefficient whose terms may be negative. -/
theorem silSigned_real {y β T a b A B C Q : ℝ} (hy : 0 < y) (hT : 0 < T) (hβ : 1000 * y ≤ β) (hβ6 : β ≤ 6) (huy : u ≤ y)
    (hη : η ≤ u) (ha : |a| ≤ 6 * T) (hb : |b| ≤ 6 * T) (hm : β * T ≤ max a b) (hA : |A - a| ≤ 106 * (y * T)) (hB : |B - b| ≤ 106 * (y * T))
    (hC : |C - (B - A)| ≤ u * |B - A|) (hQ : |Q - C / max A B| ≤ u * |C / max A B| + η) :
    |B - A| ≤ 14 * T ∧ 0 < max A B ∧ |C / max A B| * β ≤ 15 ∧ |Q - (b - a) / max a b| * β ^ 2 ≤ 3100 * y ∧ |(b - a) / max a b| * β ≤ 12 := by
  obtain ⟨m, hm'⟩ : ∃ m, m = max a b := ⟨_, rfl⟩
  rw [← hm'] at hm ⊢
  have hβ0 : 0 < β := by linarith
  have hyT : 0 < y * T := by positivity
  have hβT : 0 < β * T := by positivity
  have hm0 : 0 < m := by linarith
  have hyβ : 1000 * (y * T) ≤ β * T := by have := mul_le_mul_of_nonneg_right hβ hT.le; linarith
  have hβT6 : β * T ≤ 6 * T := mul_le_mul_of_nonneg_right hβ6 hT.le
  have h1 : |b - a| ≤ 12 * T := by have := abs_sub b a; linarith
  have h2 : |B - A - (b - a)| ≤ 212 * (y * T) := by
    have := abs_sub (B - b) (A - a)
    rw [show B - b - (A - a) = B - A - (b - a) by ring] at this
    linarith
  have h3 : |B - A| ≤ 14 * T := by have := abs_le_of_err h2; linarith
  have h4 : |C - (b - a)| ≤ 226 * (y * T) := by
    have e1 := abs_add_le (C - (B - A)) (B - A - (b - a))
    rw [sub_add_sub_cancel] at e1
    have e2 := mul_le_mul huy h3 (abs_nonneg _) hy.le
    linarith
  obtain ⟨D, hD⟩ : ∃ D, D = max A B := ⟨_, rfl⟩
  rw [← hD] at hQ ⊢
  have h5 : |D - m| ≤ 106 * (y * T) := by
    rw [hD, hm']
    exact (abs_max_sub_max_le_max A B a b).trans (max_le hA hB)
  have hDm : 894 / 1000 * (β * T) ≤ D := by linarith [(abs_le.mp h5).1]
  have hD0 : 0 < D := by linarith
  obtain ⟨q, hq⟩ : ∃ q, q = (b - a) / m := ⟨_, rfl⟩
  have hqm : q * m = b - a := by rw [hq]; field_simp
  have hq1 : |q| * β ≤ 12 := by
    have e1 : |q| * m ≤ 12 * T := by rw [← abs_of_pos hm0, ← abs_mul, hqm]; exact h1
    have e2 := mul_le_mul_of_nonneg_left hm (abs_nonneg q)
    exact le_of_mul_le_mul_right (by linarith) hT
  rw [← hq]
  have h6 : |C / D - q| * β ^ 2 ≤ 2950 * y := by
    have e : C / D - q = ((C - (b - a)) - q * (D - m)) / D := by
      rw [← hqm]; field_simp; ring
    have e1 := abs_sub (C - (b - a)) (q * (D - m))
    rw [abs_mul] at e1
    have e2 : |C - (b - a) - q * (D - m)| * β ≤ 2628 * (y * T) := by
      have g1 := mul_le_mul_of_nonneg_right e1 hβ0.le
      have g2 := mul_le_mul h4 hβ6 hβ0.le (by positivity)
      have g3 := mul_le_mul hq1 h5 (abs_nonneg _) (by norm_num)
      linarith
    rw [e, abs_div, abs_of_pos hD0, div_mul_eq_mul_div, div_le_iff₀ hD0]
    have e3 := mul_le_mul_of_nonneg_right e2 hβ0.le
    have e4 := mul_le_mul_of_nonneg_left hDm (show 0 ≤ 2950 * y by positivity)
    have e5 : 0 ≤ y * T * β := by positivity
    linarith
  have h7 : |C / D| * β ≤ 15 := by
    have e1 := mul_le_mul_of_nonneg_right (abs_le_of_err (le_refl |C / D - q|)) hβ0.le
    have e2 : |C / D - q| * β ≤ 295 / 100 := by
      refine le_of_mul_le_mul_right ?_ hβ0
      linarith
    linarith
  refine ⟨h3, hD0, h7, ?_, hq1⟩
  have e1 := mul_le_mul_of_nonneg_right (abs_add_le (Q - C / D) (C / D - q)) (show 0 ≤ β ^ 2 by positivity)
  rw [sub_add_sub_cancel] at e1
  have e2 := mul_le_mul_of_nonneg_right hQ (show 0 ≤ β ^ 2 by positivity)
  have e3 := mul_le_mul huy (mul_le_mul h7 hβ6 hβ0.le (by norm_num)) (by positivity) hy.le
  have e4 := mul_le_mul (hη.trans huy) (mul_le_mul hβ6 hβ6 hβ0.le (by norm_num)) (by positivity) hy.le
  linarith

/-- For every cluster the larger of the two numbers of its coefficient, in exact arithmetic, is at least `c`. -/
def SilApartInc {n : ℕ} (S : Spec.Stream n) (c : ℝ) : Prop :=
  ∀ a ∈ Spec.labels S, c ≤ max (CSIL.entry S a a) (sInf (Spec.otherValues S a fun b => CSIL.entry S b a))

variable (E : StandardSil F val fin u Ω d) {S : Samples F} (D : Inputs val fin M N d S) (hk : 1 < (order S).length)
  (hu : 0 < u) (hη : η ≤ u ^ 2) (hΩu : 1 ≤ u * Ω) (hM : 0 < M) {β : ℝ} (hβ : 1000 * (γ * N) ≤ β)
  (hm : SilApartInc (real val d S) (β * (d * M ^ 2)))
include E D hk hu hη hΩu hM hβ hm

/-- The silhouette coefficient of a cluster. -/
theorem Setting.silCoeffInc {c : ℤ} (hc : c ∈ order S) :
    fin (silhouette S c) ∧
    |val (silhouette S c) - (sInf (Spec.otherValues (real val d S) c fun b => CSIL.entry (real val d S) b c) - CSIL.entry (real val d S) c c) /
      max (CSIL.entry (real val d S) c c) (sInf (Spec.otherValues (real val d S) c fun b => CSIL.entry (real val d S) b c))| * β ^ 2 ≤
        3100 * (γ * N) ∧
    |(sInf (Spec.otherValues (real val d S) c fun b => CSIL.entry (real val d S) b c) - CSIL.entry (real val d S) c c) /
      max (CSIL.entry (real val d S) c c) (sInf (Spec.otherValues (real val d S) c fun b => CSIL.entry (real val d S) b c))| * β ≤ 12 ∧
    β ≤ 6 ∧ ∃ a ∈ order S, ∃ b ∈ order S, Arith.truthy (cell S a b) = true := by
  have hS : S ≠ [] := by rintro rfl; simp [order] at hk
  have T := h.tables D hS
  obtain ⟨e1, e2, e3, e4, -⟩ := h.eps
  have hd1 : (1 : ℝ) ≤ d := by exact_mod_cast h.d1
  have hT : 0 < d * M ^ 2 := by positivity
  have hN1 : (1 : ℝ) ≤ N := by exact_mod_cast h.N1
  have hTN : d * M ^ 2 ≤ N * (d * M ^ 2) := by have := mul_le_mul_of_nonneg_right hN1 hT.le; linarith
  have Ω2 := h.moderate.Ω2
  obtain ⟨hne, hm1, hm2⟩ := T.sInf_other (fun b => CSIL.entry (real val d S) b c) hk c
  have hcell : ∀ b ∈ (order S).filter (· ≠ c), Approx val fin (γ * N) (d * M ^ 2) 106 6 (cell S b c) (CSIL.entry (real val d S) b c) :=
    fun b hb => h.silEntry D (List.mem_of_mem_filter hb) hc
  obtain ⟨f2, i2⟩ := low_near h.full hne (fun b hb => ⟨(hcell b hb).1, (hcell b hb).2.1⟩) hm1 hm2
  have b6 : |sInf (Spec.otherValues (real val d S) c fun b => CSIL.entry (real val d S) b c)| ≤ 6 * (d * M ^ 2) := by
    obtain ⟨b, hb, e⟩ := hm1
    rw [← e]
    exact (hcell b hb).2.2
  have hwit : ∃ b ∈ order S, fin (cell S b c) ∧ val (low (((order S).filter (· ≠ c)).map fun b => cell S b c)) = val (cell S b c) := by
    obtain ⟨p, l, hpl⟩ := List.exists_cons_of_ne_nil hne
    rw [hpl] at hcell ⊢
    rw [List.map_cons, low]
    obtain ⟨-, ⟨y, hy, e'⟩, -⟩ := h.full.minOf (cell S p c) (l.map fun j => cell S j c) (by
      intro y hy
      rw [← List.map_cons (f := fun j => cell S j c)] at hy
      obtain ⟨j, hj, rfl⟩ := List.mem_map.mp hy
      exact (hcell j hj).1)
    rw [← List.map_cons (f := fun j => cell S j c)] at hy
    obtain ⟨j, hj, rfl⟩ := List.mem_map.mp hy
    rw [← hpl] at hj
    exact ⟨j, List.mem_of_mem_filter hj, (h.silEntry D (List.mem_of_mem_filter hj) hc).1, e'⟩
  obtain ⟨j, hj, fj, ej⟩ := hwit
  obtain ⟨f1, i1, a6⟩ := h.silEntry D hc hc
  have hmi := hm c (by rw [labels_real]; exact List.mem_toFinset.mpr hc)
  rw [silhouette]
  obtain ⟨A, hA⟩ : ∃ A, A = cell S c c := ⟨_, rfl⟩
  have f1' := f1
  rw [← hA] at f1 i1 ⊢
  generalize CSIL.entry (real val d S) c c = a at *
  generalize low (((order S).filter (· ≠ c)).map fun b => cell S b c) = B at *
  generalize sInf (Spec.otherValues (real val d S) c fun b => CSIL.entry (real val d S) b c) = b at *
  have hβ6 : β ≤ 6 := le_of_mul_le_mul_right (hmi.trans (max_le ((le_abs_self _).trans a6) ((le_abs_self _).trans b6))) hT
  have hy : 0 < γ * N := hu.trans_le e1
  have hη4 : η ≤ u := by
    refine hη.trans ?_
    have := mul_le_mul_of_nonneg_left (show u ≤ 1 by linarith) hu.le
    linarith
  have z : ∀ y : ℝ, |y - y| ≤ u * |y| := fun y => by rw [sub_self, abs_zero]; positivity
  have zη : ∀ y : ℝ, |y - y| ≤ u * |y| + η := fun y => (z y).trans (by linarith [h.moderate.η0])
  obtain ⟨s1, -⟩ := silSigned_real hy hT hβ hβ6 e1 hη4 a6 b6 hmi i1 i2 (z _) (zη _)
  obtain ⟨g1, g2⟩ := h.full.sub B A f2 f1 (by linarith)
  obtain ⟨-, s2, s3, -⟩ := silSigned_real hy hT hβ hβ6 e1 hη4 a6 b6 hmi i1 i2 g2 (zη _)
  obtain ⟨m1, m2⟩ := E.max2 A B f1 f2
  obtain ⟨g3, g4⟩ := h.full.div (B - A) (Arith.max2 A B) g1 m1 (by rw [m2]; exact s2.ne') (by
    rw [m2]
    refine le_of_mul_le_mul_right ?_ (show 0 < u by exact hu)
    have q1 := mul_le_mul_of_nonneg_left (show u ≤ β by linarith) (abs_nonneg (val (B - A) / max (val A) (val B)))
    have q2 := mul_le_mul_of_nonneg_left (show 1000 * u ≤ β by linarith) (abs_nonneg (val (B - A) / max (val A) (val B)))
    linarith)
  rw [m2] at g4
  obtain ⟨-, -, -, s4, s5⟩ := silSigned_real hy hT hβ hβ6 e1 hη4 a6 b6 hmi i1 i2 g2 g4
  refine ⟨g3, s4, s5, hβ6, ?_⟩
  rcases lt_max_iff.mp s2 with hp | hp
  · exact ⟨c, hc, c, hc, E.truthy _ f1' (by rw [← hA]; exact hp.ne')⟩
  · exact ⟨j, hj, c, hc, E.truthy _ fj (by rw [← ej]; exact hp.ne')⟩

/-- cSIL -/
theorem Setting.near_cSIL_inc : fin (value d .cSIL S) ∧
    ∃ y, CSIL.actual (real val d S) = .fin y ∧ |val (value d .cSIL S) - y| ≤ 3500 * (γ * N / β ^ 2) := by
  have hp := fun c hc => h.silCoeffInc E D hk hu hη hΩu hM hβ hm (c := c) hc
  have hS : S ≠ [] := by rintro rfl; simp [order] at hk
  obtain ⟨c0, hc0⟩ : ∃ c, c ∈ order S := List.exists_mem_of_ne_nil _ (by intro e; rw [e] at hk; simp at hk)
  obtain ⟨-, -, -, hβ6, a, ha, b, hb, htr⟩ := hp c0 hc0
  obtain ⟨e1, e2, e3, e4, -⟩ := h.eps
  have hy : 0 < γ * N := hu.trans_le e1
  have hβ0 : 0 < β := by linarith
  have hd1 : (1 : ℝ) ≤ d := by exact_mod_cast h.d1
  have hT : 0 < d * M ^ 2 := by positivity
  have hN1 : (1 : ℝ) ≤ N := by exact_mod_cast h.N1
  have hv : value d .cSIL S = Arith.npSum ((order S).map (silhouette S)) / Arith.ofNat (order S).length := by
    rw [value, if_neg (by omega)]
    exact if_pos (List.any_eq_true.mpr ⟨a, ha, List.any_eq_true.mpr ⟨b, hb, htr⟩⟩)
  have hkN : (order S).length ≤ N := (Inputs.clusters_le (S := S)).trans D.length
  have hlN : ((order S).length : ℝ) ≤ N := by exact_mod_cast hkN
  have hsum : Sums val fin u Ω N (Arith.npSum : List F → F) := fun l hl => h.full.npSum l (hl.trans (le_max_left ..))
  obtain ⟨q, hq⟩ : ∃ q : ℤ → ℝ, q = fun c => (sInf (Spec.otherValues (real val d S) c fun b => CSIL.entry (real val d S) b c) -
      CSIL.entry (real val d S) c c) / max (CSIL.entry (real val d S) c c)
        (sInf (Spec.otherValues (real val d S) c fun b => CSIL.entry (real val d S) b c)) := ⟨_, rfl⟩
  have hk0 : (0 : ℝ) < (order S).length := by exact_mod_cast (by omega : 0 < (order S).length)
  have hspec : CSIL.actual (real val d S) = .fin (((order S).map q).sum / (order S).length) := by
    have hpos : ∀ c ∈ Spec.labels (real val d S), 0 < max (CSIL.entry (real val d S) c c)
        (sInf (Spec.otherValues (real val d S) c fun b => CSIL.entry (real val d S) b c)) :=
      fun c hc' => (mul_pos hβ0 hT).trans_le (hm c hc')
    have n1 : ¬ ∀ a ∈ Spec.labels (real val d S), ∀ b ∈ Spec.labels (real val d S), CSIL.entry (real val d S) a b = 0 := by
      intro hz
      have hl : ∀ {c}, c ∈ order S → c ∈ Spec.labels (real val d S) := fun hc => by rw [labels_real]; exact List.mem_toFinset.mpr hc
      have hp0 := hpos c0 (hl hc0)
      obtain ⟨-, ⟨b, hb, e⟩, -⟩ := (h.tables D hS).sInf_other (fun b => CSIL.entry (real val d S) b c0) hk c0
      rw [← e, hz _ (hl hc0) _ (hl hc0), hz _ (hl (List.mem_of_mem_filter hb)) _ (hl hc0), max_self] at hp0
      exact lt_irrefl _ hp0
    rw [CSIL.actual, CSIL.silValue, if_neg (by rw [numClusters_real]; omega), if_neg n1, Finset.sum_congr rfl (g := fun c => XR.fin (q c))
      (fun c hc => by rw [hq]; exact XR.fin_div_of_ne _ (hpos c hc).ne'), labels_real, List.sum_toFinset _ (order_nodup S), XR.sum_fin,
      numClusters_real, XR.fin_div_of_ne _ hk0.ne']
  have hp' : ∀ c ∈ order S, fin (silhouette S c) ∧ |val (silhouette S c) - q c| ≤ 3100 * (γ * N / β ^ 2) ∧ |q c| ≤ 12 / β := by
    intro c hc
    obtain ⟨p1, p2, p3, -⟩ := hp c hc
    rw [hq]
    refine ⟨p1, ?_, ?_⟩
    · rw [mul_div_assoc', le_div_iff₀ (by positivity)]; exact p2
    · rw [le_div_iff₀ hβ0]; exact p3
  rw [hv, hspec]
  obtain ⟨x, hx⟩ : ∃ x, x = γ * N / β ^ 2 := ⟨_, rfl⟩
  obtain ⟨i, hi⟩ : ∃ i, i = 1 / β := ⟨_, rfl⟩
  have hi0 : 0 < i := by rw [hi]; positivity
  have hx0 : 0 < x := by rw [hx]; positivity
  have hxi : 1000 * x ≤ i := by
    rw [hx, hi, mul_div_assoc', div_le_div_iff₀ (by positivity) hβ0]
    have := mul_le_mul_of_nonneg_right hβ hβ0.le
    linarith
  have hyi : γ * N * i ≤ 6 * x := by
    rw [hx, hi, mul_one_div, mul_div_assoc', div_le_div_iff₀ hβ0 (by positivity)]
    have := mul_le_mul_of_nonneg_left hβ6 (show 0 ≤ γ * N * β by positivity)
    linarith
  have hyx : γ * N ≤ 36 * x := by
    rw [hx, mul_div_assoc', le_div_iff₀ (by positivity)]
    have := mul_le_mul_of_nonneg_left (mul_le_mul hβ6 hβ6 hβ0.le (by norm_num)) hy.le
    linarith
  have hΩi : 32 * (N * i) ≤ Ω := by
    have q1 : 1000 * (γ * (N * i)) ≤ 1 := by
      have : β * i = 1 := by rw [hi]; field_simp
      have := mul_le_mul_of_nonneg_right hβ hi0.le
      linarith
    refine le_of_mul_le_mul_left ?_ hu
    have q2 := mul_le_mul_of_nonneg_right h.moderate.uγ (show 0 ≤ N * i by positivity)
    linarith
  have h12 : (12 : ℝ) / β = 12 * i := by rw [hi]; ring
  rw [← hx] at hp' ⊢
  rw [h12] at hp'
  obtain ⟨f, j⟩ := sum_near hsum hu.le (order S) hkN (fun c hc => ⟨(hp' c hc).1, (hp' c hc).2.1⟩) (b := fun _ => 16 * i)
    (fun c hc => by linarith [(hp' c hc).2.2]) (by
      rw [map_sum_const]
      have := mul_le_mul_of_nonneg_right hlN hi0.le
      linarith)
  rw [map_sum_const, map_sum_const] at j
  have hr1 : |((order S).map q).sum| ≤ (order S).length * (12 * i) := by
    refine (abs_list_sum _).trans ?_
    rw [List.map_map]
    have : ((order S).map (abs ∘ q)).sum ≤ ((order S).map fun _ => 12 * i).sum := List.sum_le_sum fun c hc => (hp' c hc).2.2
    rw [map_sum_const] at this
    exact this
  obtain ⟨g1, g2⟩ := h.full.ofNat _ hkN
  generalize Arith.npSum ((order S).map (silhouette S)) = s at *
  generalize ((order S).map q).sum = r at *
  have hku : (order S).length * u ≤ γ * N := by
    have h1 := mul_le_mul hlN h.moderate.uγ hu.le (by positivity)
    linarith
  have i2 : |val s / (order S).length - r / (order S).length| ≤ 3292 * x := by
    rw [← sub_div, abs_div, abs_of_pos hk0, div_le_iff₀ hk0]
    have h1 := mul_le_mul_of_nonneg_right hku (show (0 : ℝ) ≤ 32 * ((order S).length * i) by positivity)
    have h2 := mul_le_mul_of_nonneg_left hyi (show (0 : ℝ) ≤ 32 * (order S).length by positivity)
    linarith
  have i3 : |r / (order S).length| ≤ 12 * i := by
    rw [abs_div, abs_of_pos hk0, div_le_iff₀ hk0]
    linarith
  have i4 : |val s / (order S).length| ≤ 16 * i := by have := abs_le_of_err i2; linarith
  obtain ⟨f2, i5⟩ := h.full.div s (Arith.ofNat (order S).length) f g1 (by rw [g2]; exact hk0.ne') (by
    rw [g2]
    have := mul_le_mul_of_nonneg_right hN1 hi0.le
    linarith)
  rw [g2] at i5
  refine ⟨f2, _, rfl, ?_⟩
  have hη4 : η ≤ γ * N := by
    refine (hη.trans ?_).trans e1
    have := mul_le_mul_of_nonneg_left (show u ≤ 1 by linarith) hu.le
    linarith
  have h1 := abs_add_le (val (s / Arith.ofNat (order S).length) - val s / (order S).length)
    (val s / (order S).length - r / (order S).length)
  rw [sub_add_sub_cancel] at h1
  have h2 := mul_le_mul e1 i4 (abs_nonneg _) hy.le
  linarith

end Rounding
end Verif.Gen
