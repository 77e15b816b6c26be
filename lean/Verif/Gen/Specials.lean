import Verif.Gen.RefCSIL
import Verif.Gen.RoundingBatch

/-!
# How infinities and NaN spread

`bad` are the values that are not finite.  `Specials` lists the rules of IEEE-754 that are used: a value that is not finite survives an addition or
becomes NaN, `inf - inf` is NaN, and so on.  Nothing is said about finite values.
-/

namespace Verif.Gen

/-- The rules for values that are not finite, for samples with `d` features. -/
structure Specials (F : Type) [Arith F] (nan inf : F) (bad : F → Prop) (d : ℕ) : Prop where
  bad_nan : bad nan
  bad_inf : bad inf
  add {a : F} (b : F) : bad a → a + b = a ∨ a + b = nan
  add' {a : F} (b : F) : bad a → b + a = a ∨ b + a = nan
  sub {a : F} (b : F) : bad a → a - b = a ∨ a - b = nan
  sub_nan (a : F) : a - nan = nan
  sub_self {a : F} : bad a → a - a = nan
  mul_nan (a : F) : a * nan = nan
  nan_mul (a : F) : nan * a = nan
  div_nan (a : F) : a / nan = nan
  nan_div (a : F) : nan / a = nan
  oneMinusInv {a : F} {n : ℕ} : 1 ≤ n → bad a → Arith.oneMinusInv n * a = a ∨ Arith.oneMinusInv n * a = nan
  invNat {a : F} (n : ℕ) : bad a → Arith.invNat n * a = a ∨ Arith.invNat n * a = nan
  ofNat {a : F} (n : ℕ) : bad a → Arith.ofNat n * a = a ∨ Arith.ofNat n * a = nan
  two {a : F} : bad a → Arith.two * a = a ∨ Arith.two * a = nan
  one {a : F} : bad a → a * Arith.one = a ∨ a * Arith.one = nan
  div_ofNat {a : F} (n : ℕ) : bad a → a / Arith.ofNat n = a ∨ a / Arith.ofNat n = nan
  square {a : F} : bad a → a * a = inf ∨ a * a = nan
  sq_nan : Arith.sq nan = nan
  pySum {a : F} {l : List F} : a ∈ l → bad a → Arith.pySum l = a ∨ Arith.pySum l = nan
  npSum {a : F} {l : List F} : a ∈ l → bad a → Arith.npSum l = a ∨ Arith.npSum l = nan
  colMean {a : F} {l : List F} : a ∈ l → bad a → Arith.colMean l = a ∨ Arith.colMean l = nan
  minOf {a : F} {l : List F} : (∀ b ∈ a :: l, b = inf ∨ b = nan) → Arith.minOf a l = inf ∨ Arith.minOf a l = nan
  maxOf {a : F} {l : List F} : nan ∈ a :: l → Arith.maxOf a l = nan
  ratio : (inf - 0) / Arith.max2 0 inf = nan
  truthy {a : F} : bad a → Arith.truthy a = true
  dot {a b : List F} {j : ℕ} : a.length = d → b.length = d → j < d → bad (a.getD j 0) ∨ bad (b.getD j 0) →
    Arith.dot a b = a.getD j 0 * b.getD j 0 ∨ Arith.dot a b = nan
  sum2 {rows : List (List F)} {r : List F} : (∀ r ∈ rows, r.length = d) → r ∈ rows → nan ∈ r → Arith.sum2 rows = nan
  rowSum {l : List F} : nan ∈ l → Arith.rowSum l = nan

/-- `b` is `a` or NaN, and `a` is not finite. -/
def Like {F : Type} (nan : F) (bad : F → Prop) (a b : F) : Prop := bad a ∧ (b = a ∨ b = nan)

namespace Specials
variable {F : Type} [Arith F] {nan inf : F} {bad : F → Prop} {d : ℕ} (h : Specials F nan inf bad d)
local notation "Lk" => Like nan bad

omit [Arith F] in
theorem _root_.Verif.Gen.Like.refl {a : F} (ha : bad a) : Lk a a := ⟨ha, Or.inl rfl⟩

omit [Arith F] in
theorem _root_.Verif.Gen.Like.eq_nan {b : F} (hb : Lk nan b) : b = nan := hb.2.elim id id

include h

theorem trans {a b c : F} (hb : Lk a b) (hc : bad b → c = b ∨ c = nan) : Lk a c := by
  obtain ⟨ha, rfl | rfl⟩ := hb
  · exact ⟨ha, hc ha⟩
  · exact ⟨ha, Or.inr ((hc h.bad_nan).elim id id)⟩

theorem like_bad {a b : F} (hb : Lk a b) : bad b := by
  obtain ⟨ha, rfl | rfl⟩ := hb
  exacts [ha, h.bad_nan]

theorem like_sub {a b c : F} (hb : Lk a b) (hc : Lk a c) : b - c = nan := by
  obtain ⟨ha, rfl | rfl⟩ := hb
  · obtain ⟨-, rfl | rfl⟩ := hc
    exacts [h.sub_self ha, h.sub_nan _]
  · exact (h.sub c h.bad_nan).elim id id

theorem like_mul {a b c : F} (hb : Lk a b) (hc : Lk a c) : Lk inf (b * c) := by
  refine ⟨h.bad_inf, ?_⟩
  obtain ⟨ha, rfl | rfl⟩ := hb
  · obtain ⟨-, rfl | rfl⟩ := hc
    exacts [h.square ha, Or.inr (h.mul_nan _)]
  · exact Or.inr (h.nan_mul _)

theorem like_dot {a : F} {v w : List F} {j : ℕ} (hv : v.length = d) (hw : w.length = d) (hj : j < d) (h1 : Lk a (v.getD j 0))
    (h2 : Lk a (w.getD j 0)) : Lk inf (Arith.dot v w) := by
  refine h.trans (h.like_mul h1 h2) fun _ => h.dot hv hw hj (Or.inl (h.like_bad h1))

theorem dot_nan {v w : List F} {j : ℕ} (hv : v.length = d) (hw : w.length = d) (hj : j < d) (h1 : v.getD j 0 = nan) :
    Arith.dot v w = nan := by
  rcases h.dot hv hw hj (Or.inl (h1 ▸ h.bad_nan)) with e | e
  · rw [e, h1, h.nan_mul]
  · exact e

theorem nan_add (a : F) : nan + a = nan := (h.add a h.bad_nan).elim id id
theorem add_nan (a : F) : a + nan = nan := (h.add' a h.bad_nan).elim id id
theorem nan_sub (a : F) : nan - a = nan := (h.sub a h.bad_nan).elim id id

theorem pySum_nan {l : List F} (hl : nan ∈ l) : Arith.pySum l = nan := (h.pySum hl h.bad_nan).elim id id
theorem npSum_nan {l : List F} (hl : nan ∈ l) : Arith.npSum l = nan := (h.npSum hl h.bad_nan).elim id id

theorem high_nan {l : List F} (hl : nan ∈ l) : high l = nan := by
  cases l with
  | nil => simp at hl
  | cons a l => exact h.maxOf hl

/-! ## Running means -/

theorem blend_old {n : ℕ} {v x : List F} {a : F} {j : ℕ} (hn : 1 ≤ n) (hv : v.length = d) (hx : x.length = d) (hj : j < d)
    (ha : Lk a (v.getD j 0)) : Lk a ((blend n v x).getD j 0) := by
  rw [blend, Rounding.getD_zip (by simpa [hv] using hj) (by simpa [hx] using hj), Rounding.getD_map (by omega), Rounding.getD_map (by omega)]
  exact h.trans (h.trans ha (h.oneMinusInv hn)) (h.add _)

theorem blend_new {n : ℕ} {v x : List F} {j : ℕ} (hv : v.length = d) (hx : x.length = d) (hj : j < d)
    (ha : bad (x.getD j 0)) : Lk (x.getD j 0) ((blend n v x).getD j 0) := by
  rw [blend, Rounding.getD_zip (by simpa [hv] using hj) (by simpa [hx] using hj), Rounding.getD_map (by omega), Rounding.getD_map (by omega)]
  exact h.trans ⟨ha, h.invNat n ha⟩ (h.add' _)

/-- The running mean is the infinite feature, or NaN. -/
theorem mean_like {l : List (List F)} (hl : ∀ x ∈ l, x.length = d) {x : List F} (hx : x ∈ l) {j : ℕ} (hj : j < d) (hb : bad (x.getD j 0)) :
    Lk (x.getD j 0) ((Stat.of l).v.getD j 0) := by
  induction l using List.reverseRecOn with
  | nil => simp at hx
  | append_singleton l y ih =>
    have hy := hl y (by simp)
    have hl' : ∀ x ∈ l, x.length = d := fun x hx => hl x (by simp [hx])
    by_cases e : l = []
    · subst e
      obtain rfl : x = y := by simpa using hx
      exact Like.refl hb
    · rw [Stat.of_append _ e]
      have hv := (Stat.of_length e hl').2.1
      rcases List.mem_append.mp hx with hx | hx
      · exact h.blend_old (by omega) hv hy hj (ih hl' hx)
      · obtain rfl : x = y := by simpa using hx
        exact h.blend_new hv hy hj hb

/-- The compactness of two or more samples is NaN if a feature of one is not finite. -/
theorem cp_nan {l : List (List F)} (hl : ∀ x ∈ l, x.length = d) {x : List F} (hx : x ∈ l) {j : ℕ} (hj : j < d) (hb : bad (x.getD j 0))
    (h2 : 2 ≤ l.length) : (Stat.of l).cp = nan := by
  induction l using List.reverseRecOn with
  | nil => simp at hx
  | append_singleton l y ih =>
    have hy := hl y (by simp)
    have hl' : ∀ x ∈ l, x.length = d := fun x hx => hl x (by simp [hx])
    have e : l ≠ [] := by rintro rfl; simp at h2
    rw [Stat.of_append _ e]
    have hv := (Stat.of_length e hl').2.1
    have hg := (Stat.of_length e hl').2.2
    have hvb : (blend ((Stat.of l).n + 1) (Stat.of l).v y).length = d := blend_length hv hy
    simp only [Stat.more]
    rcases List.mem_append.mp hx with hx | hx
    · have h1 := h.mean_like hl' hx hj hb
      have h3 := h.blend_old (n := (Stat.of l).n + 1) (by omega) hv hy hj h1
      have hdv : (List.zipWith (· - ·) (Stat.of l).v (blend ((Stat.of l).n + 1) (Stat.of l).v y)).getD j 0 = nan := by
        rw [Rounding.getD_zip (by omega) (by omega)]
        exact h.like_sub h1 h3
      rw [h.dot_nan (by simp [hv, hvb]) (by simp [hv, hvb]) hj hdv, h.mul_nan, h.add_nan, h.nan_add]
    · obtain rfl : x = y := by simpa using hx
      have h3 := h.blend_new (n := (Stat.of l).n + 1) hv hy hj hb
      have hdx : (List.zipWith (· - ·) x (blend ((Stat.of l).n + 1) (Stat.of l).v x)).getD j 0 = nan := by
        rw [Rounding.getD_zip (by omega) (by omega)]
        exact h.like_sub (Like.refl hb) h3
      rw [h.dot_nan (by simp [hy, hvb]) (by simp [hy, hvb]) hj hdx, h.add_nan, h.nan_add, h.nan_add]

end Specials

/-- A sample of cluster `c` has a feature that is not finite. -/
structure Hit {F : Type} [Arith F] (bad : F → Prop) (d : ℕ) (S : Samples F) (c : ℤ) (x : List F) (j : ℕ) : Prop where
  dim : S.Dim d
  mem : (x, c) ∈ S
  lt : j < d
  bad : bad (x.getD j 0)

namespace Hit
variable {F : Type} [Arith F] {nan inf : F} {bad : F → Prop} {d : ℕ} {S : Samples F} {c : ℤ} {x : List F} {j : ℕ}
  (H : Hit bad d S c x j) (h : Specials F nan inf bad d)
local notation "Lk" => Like nan bad
include H

theorem mem_order : c ∈ order S := (Gen.mem_order S).mpr ⟨x, H.mem⟩
theorem mem_own : x ∈ own S c := by
  simp only [own, List.mem_map, List.mem_filter]
  exact ⟨(x, c), ⟨H.mem, by simp⟩, rfl⟩
theorem own_dim (b : ℤ) : ∀ x ∈ own S b, x.length = d := fun x hx => own_length S x H.dim hx

include h

theorem v_like : Lk (x.getD j 0) ((stat S c).v.getD j 0) := h.mean_like (H.own_dim c) H.mem_own H.lt H.bad

theorem mu_like : Lk (x.getD j 0) ((mu S).getD j 0) := by
  rw [Rounding.mu_eq]
  have hm : x ∈ S.map Prod.fst := List.mem_map.mpr ⟨_, H.mem, rfl⟩
  refine h.mean_like ?_ hm H.lt H.bad
  intro y hy
  obtain ⟨p, hp, rfl⟩ := List.mem_map.mp hy
  exact H.dim p hp

theorem cp_nan (h2 : 2 ≤ (own S c).length) : (stat S c).cp = nan := h.cp_nan (H.own_dim c) H.mem_own H.lt H.bad h2

theorem separation_nan : separation S c = nan := by
  have hv := stat_v_length S H.mem_order H.dim
  have hne : S ≠ [] := fun e => by have := H.mem; simp [e] at this
  have hm := mu_length S hne H.dim
  have hlt := H.lt
  have hz : (List.zipWith (· - ·) (stat S c).v (mu S)).getD j 0 = nan := by
    rw [Rounding.getD_zip (by omega) (by omega)]
    exact h.like_sub (H.v_like h) (H.mu_like h)
  have hmem : nan ∈ (List.zipWith (· - ·) (stat S c).v (mu S)).map Arith.sq := by
    refine List.mem_map.mpr ⟨nan, ?_, h.sq_nan⟩
    rw [← hz]
    exact Rounding.getD_mem (by simp [hv, hm, H.lt])
  rw [separation, h.pySum_nan hmem, h.mul_nan]

theorem CH (hk : 2 ≤ (order S).length) : value d .CH S = nan := by
  rw [value, if_neg (by omega)]
  rw [h.pySum_nan (List.mem_map.mpr ⟨c, H.mem_order, H.separation_nan h⟩), h.nan_div, h.nan_mul]

theorem WB (hk : 2 ≤ (order S).length) : value d .WB S = nan := by
  rw [value, if_neg (by omega)]
  rw [h.pySum_nan (List.mem_map.mpr ⟨c, H.mem_order, H.separation_nan h⟩), h.div_nan, h.nan_mul]

theorem XB (hk : 2 ≤ (order S).length) (h2 : 2 ≤ (own S c).length) : value d .XB S = nan := by
  rw [value, if_neg (by omega)]
  rw [h.pySum_nan (List.mem_map.mpr ⟨c, H.mem_order, H.cp_nan h h2⟩), h.nan_div]

theorem high_nan (h2 : 2 ≤ (own S c).length) : high ((order S).map fun c => (stat S c).cp / Arith.ofNat (stat S c).n) = nan :=
  h.high_nan (List.mem_map.mpr ⟨c, H.mem_order, by rw [H.cp_nan h h2, h.nan_div]⟩)

theorem GD43 (hk : 2 ≤ (order S).length) (h2 : 2 ≤ (own S c).length) : value d .GD43 S = nan := by
  rw [value, if_neg (by omega)]
  rw [H.high_nan h h2, h.mul_nan, h.div_nan]

theorem GD53 (hk : 2 ≤ (order S).length) (h2 : 2 ≤ (own S c).length) : value d .GD53 S = nan := by
  rw [value, if_neg (by omega)]
  rw [H.high_nan h h2, h.mul_nan, h.div_nan]

theorem spread_nan (h2 : 2 ≤ (own S c).length) : spread (stat S c) = nan := by
  rw [spread, if_neg (by rw [stat_n S H.mem_order H.dim]; omega), H.cp_nan h h2, h.nan_div]

omit [Arith F] H h in
theorem _root_.Verif.Gen.exists_other (c : ℤ) (hk : 2 ≤ (order S).length) : ∃ b ∈ order S, b ≠ c := by
  by_contra hn
  push Not at hn
  have h1 : (order S).Nodup := order_nodup S
  have h2 : (order S).toFinset ⊆ {c} := fun b hb => by simpa using hn b (List.mem_toFinset.mp hb)
  have h3 := Finset.card_le_card h2
  rw [List.toFinset_card_of_nodup h1, Finset.card_singleton] at h3
  omega

theorem DB (hk : 2 ≤ (order S).length) (h2 : 2 ≤ (own S c).length) : value d .DB S = nan := by
  rw [value, if_neg (by omega)]
  obtain ⟨b, hb, hbc⟩ := exists_other c hk
  have hq : quotients S b c = nan := by
    have hs := H.spread_nan h h2
    have hi : (order S).idxOf b ≠ (order S).idxOf c := fun e => hbc ((List.idxOf_inj hb).mp e)
    rcases lt_or_gt_of_ne hi with hi | hi
    · rw [quotients, if_neg (by omega), if_pos hi, quotient, hs, h.add_nan, h.nan_div, h.add_nan]
    · rw [quotients, if_pos hi, quotient, hs, h.nan_add, h.nan_div, h.nan_add]
  rw [h.npSum_nan (List.mem_map.mpr ⟨c, H.mem_order, h.high_nan (List.mem_map.mpr ⟨b, hb, hq⟩)⟩), h.nan_div]

theorem PS (hk : 2 ≤ (order S).length) (he : Arith.exp nan = nan) : value d .PS S = nan := by
  rw [value, if_neg (by omega)]
  have hv := stat_v_length S H.mem_order H.dim
  have hlt := H.lt
  have hb : Lk (x.getD j 0) ((vBar S d).getD j 0) := by
    have e : (vBar S d).getD j 0 = Arith.colMean ((order S).map fun c => (stat S c).v.getD j 0) := by
      simp [vBar, List.getD_eq_getElem?_getD, H.lt]
    rw [e]
    exact h.trans (H.v_like h) fun hb => h.colMean (List.mem_map.mpr ⟨c, H.mem_order, rfl⟩) hb
  have hl : (vBar S d).length = d := by simp [vBar]
  have hz : (List.zipWith (· - ·) (stat S c).v (vBar S d)).getD j 0 = nan := by
    rw [Rounding.getD_zip (by omega) (by omega)]
    exact h.like_sub (H.v_like h) hb
  have hB : betaT S d = nan := by
    rw [betaT, h.pySum_nan (List.mem_map.mpr ⟨c, H.mem_order, h.dot_nan (by simp [hv, hl]) (by simp [hv, hl]) H.lt hz⟩), h.nan_div]
  refine h.npSum_nan (List.mem_map.mpr ⟨c, H.mem_order, ?_⟩)
  rw [psTerm, hB, h.div_nan, he, h.sub_nan]

/-! ## cSIL -/

omit H in
theorem _root_.Verif.Gen.Specials.far_like {t : Stat F} {y g w : List F} {a : F} (hw : w.length = d) (hj : j < d) (ha : Lk a (w.getD j 0)) :
    Lk inf (far t y g w) :=
  h.trans (h.trans (h.trans (h.trans (h.like_dot hw hw hj ha ha) (h.ofNat _)) (h.add' _)) (h.sub _)) (h.div_ofNat _)

omit H in
theorem _root_.Verif.Gen.Specials.near_like {t : Stat F} {w : List F} {a : F} (hw : w.length = d) (hj : j < d) (ha : Lk a (w.getD j 0)) :
    Lk inf (near t w) :=
  h.trans (h.trans (h.trans (h.trans (h.like_dot hw hw hj ha ha) (h.ofNat _)) (h.add' _)) (h.sub _)) (h.div_ofNat _)

omit H in
theorem _root_.Verif.Gen.Specials.sum_like {l : List (List F)} (hl : ∀ x ∈ l, x.length = d) {x : List F} (hx : x ∈ l) {j : ℕ} (hj : j < d)
    (hb : bad (x.getD j 0)) : Lk (x.getD j 0) ((Sil.of l).g.getD j 0) := by
  induction l using List.reverseRecOn with
  | nil => simp at hx
  | append_singleton l y ih =>
    have hy := hl y (by simp)
    have hl' : ∀ x ∈ l, x.length = d := fun x hx => hl x (by simp [hx])
    by_cases e : l = []
    · subst e
      obtain rfl : x = y := by simpa using hx
      exact Like.refl hb
    · have hg := Sil.of_length e hl'
      rw [Sil.of_append _ e, Sil.more, Rounding.getD_zip (by omega) (by omega)]
      rcases List.mem_append.mp hx with hx | hx
      · exact h.trans (ih hl' hx) (h.add _)
      · obtain rfl : x = y := by simpa using hx
        exact h.trans (Like.refl hb) (h.add' _)

omit H h in
theorem back {y : List F} {e : ℤ} {S : Samples F} (H : Hit bad d (S ++ [(y, e)]) c x j) (hm : (x, c) ∈ S) : Hit bad d S c x j :=
  ⟨fun p hp => H.dim p (by simp [hp]), hm, H.lt, H.bad⟩

omit H h in
theorem mem_of_ne {y : List F} {e : ℤ} {S : Samples F} (H : Hit bad d (S ++ [(y, e)]) c x j) (hne : c ≠ e) : (x, c) ∈ S := by
  have hm := H.mem
  simp only [List.mem_append, List.mem_singleton, Prod.mk.injEq] at hm
  rcases hm with hm | ⟨-, rfl⟩
  exacts [hm, absurd rfl hne]

omit H in
/-- The column of a cluster of one sample that is not finite. -/
theorem cell_column (S : Samples F) (H : Hit bad d S c x j) (h1 : (own S c).length = 1) {b : ℤ} (hb : b ∈ order S) (hbc : b ≠ c) :
    Lk inf (cell S b c) := by
  induction S using List.reverseRecOn with
  | nil => simpa using H.mem
  | append_singleton S p ih =>
    obtain ⟨y, e⟩ := p
    by_cases hec : e = c
    · subst hec
      rw [cell_append_col S y hbc]
      refine h.near_like ?_ H.lt (a := x.getD j 0) ?_
      · exact sil_v_length _ H.mem_order H.dim
      · rw [sil_v]; exact H.v_like h
    · have hm := H.mem_of_ne (Ne.symm hec)
      have H' := H.back hm
      have hl : (sil S c).v.length = d := sil_v_length S H'.mem_order H'.dim
      have hlk : Lk (x.getD j 0) ((sil S c).v.getD j 0) := by rw [sil_v]; exact H'.v_like h
      by_cases heb : e = b
      · subst heb
        by_cases hbo : e ∈ order S
        · rw [cell_append_row_old S y hbo (Ne.symm hbc)]
          exact h.far_like hl H.lt hlk
        · rw [cell_append_row_new S y hbo (Ne.symm hbc)]
          exact h.trans (h.trans (h.like_dot hl hl H.lt hlk hlk) (h.add' _)) (h.sub _)
      · rw [cell_append_ne S y (Ne.symm heb) (Ne.symm hec)]
        refine ih H' ?_ ?_
        · rwa [own_append_ne S y (Ne.symm hec)] at h1
        · have := (Gen.mem_order _).mp hb
          obtain ⟨z, hz⟩ := this
          simp only [List.mem_append, List.mem_singleton, Prod.mk.injEq] at hz
          rcases hz with hz | ⟨-, rfl⟩
          exacts [(Gen.mem_order S).mpr ⟨z, hz⟩, absurd rfl heb]

omit H in
/-- The diagonal entry of a cluster of two or more samples, one of which is not finite. -/
theorem cell_diagonal (S : Samples F) (H : Hit bad d S c x j) (h2 : 2 ≤ (own S c).length) : cell S c c = nan := by
  induction S using List.reverseRecOn with
  | nil => simpa using H.mem
  | append_singleton S p ih =>
    obtain ⟨y, e⟩ := p
    by_cases hec : e = c
    · subst hec
      rw [own_append_self] at h2
      have hc : e ∈ order S := by
        by_contra hc
        rw [(own_eq_nil S).mpr hc] at h2
        simp at h2
      have hS : Samples.Dim d S := fun p hp => H.dim p (by simp [hp])
      have hy : y.length = d := H.dim (y, e) (by simp)
      rw [cell_append_old S y hc]
      have hw : (sil (S ++ [(y, e)]) e).v.length = d := sil_v_length _ H.mem_order H.dim
      have hwl : Lk (x.getD j 0) ((sil (S ++ [(y, e)]) e).v.getD j 0) := by rw [sil_v]; exact H.v_like h
      have hlt := H.lt
      rw [far]
      rcases List.mem_append.mp H.mem with hm | hm
      · have H' := H.back hm
        have hg : (sil S e).g.length = d := sil_g_length S hc hS
        have hgl : Lk (x.getD j 0) ((sil S e).g.getD j 0) := h.sum_like (H'.own_dim e) H'.mem_own H.lt H.bad
        have h3 := h.trans (h.trans (h.like_dot hw hw H.lt hwl hwl) (h.ofNat (sil S e).n)) (h.add' ((sil S e).cp +
          Arith.dot (List.zipWith (· - ·) y (sil (S ++ [(y, e)]) e).v) (List.zipWith (· - ·) y (sil (S ++ [(y, e)]) e).v)))
        have h4 := h.trans (h.like_dot hg hw H.lt hgl hwl) h.two
        rw [h.like_sub h3 h4, h.nan_div]
      · obtain rfl : x = y := by simpa using hm
        have hz : (List.zipWith (· - ·) x (sil (S ++ [(x, e)]) e).v).getD j 0 = nan := by
          rw [Rounding.getD_zip (by omega) (by omega)]
          exact h.like_sub (Like.refl H.bad) hwl
        rw [h.dot_nan (by simp [hy, hw]) (by simp [hy, hw]) H.lt hz, h.add_nan, h.nan_add, h.nan_sub, h.nan_div]
    · have H' := H.back (H.mem_of_ne (Ne.symm hec))
      rw [cell_append_ne S y (Ne.symm hec) (Ne.symm hec)]
      rw [own_append_ne S y (Ne.symm hec)] at h2
      exact ih H' h2

omit H h in
theorem _root_.Verif.Gen.cell_one (S : Samples F) (c : ℤ) (h1 : (own S c).length = 1) : cell S c c = 0 := by
  induction S using List.reverseRecOn with
  | nil => simp [own] at h1
  | append_singleton S p ih =>
    obtain ⟨y, e⟩ := p
    by_cases hec : e = c
    · subst hec
      rw [own_append_self, List.length_append, List.length_singleton] at h1
      exact cell_append_new S y ((own_eq_nil S).mp (List.eq_nil_of_length_eq_zero (by omega)))
    · rw [cell_append_ne S y (Ne.symm hec) (Ne.symm hec)]
      rw [own_append_ne S y (Ne.symm hec)] at h1
      exact ih h1

theorem cSIL (hk : 2 ≤ (order S).length) : value d .cSIL S = nan := by
  obtain ⟨b, hb, hbc⟩ := exists_other c hk
  have hpos : 0 < (own S c).length := List.length_pos_of_mem H.mem_own
  have key : silhouette S c = nan ∧ ∃ a, a ∈ order S ∧ bad (cell S a c) := by
    rcases Nat.lt_or_ge (own S c).length 2 with h1 | h2
    · have h1 : (own S c).length = 1 := by omega
      have hcol : ∀ b ∈ order S, b ≠ c → Lk inf (cell S b c) := fun b hb hbc => cell_column h S H h1 hb hbc
      refine ⟨?_, b, hb, h.like_bad (hcol b hb hbc)⟩
      have hall : ∀ r ∈ ((order S).filter (· ≠ c)).map fun b => cell S b c, r = inf ∨ r = nan := by
        intro r hr
        obtain ⟨b, hb, rfl⟩ := List.mem_map.mp hr
        obtain ⟨hb, hbc⟩ := List.mem_filter.mp hb
        exact (hcol b hb (by simpa using hbc)).2
      have hne : ((order S).filter (· ≠ c)).map (fun b => cell S b c) ≠ [] := by
        intro e
        have : cell S b c ∈ ((order S).filter (· ≠ c)).map fun b => cell S b c :=
          List.mem_map.mpr ⟨b, List.mem_filter.mpr ⟨hb, by simpa using hbc⟩, rfl⟩
        rw [e] at this
        simp at this
      rw [silhouette, cell_one S c h1]
      revert hall hne
      generalize ((order S).filter (· ≠ c)).map (fun b => cell S b c) = l
      intro hall hne
      cases l with
      | nil => exact absurd rfl hne
      | cons r l =>
        dsimp only [low]
        rcases h.minOf hall with e | e <;> rw [e]
        · exact h.ratio
        · rw [h.nan_sub, h.nan_div]
    · have hd := cell_diagonal h S H h2
      exact ⟨by rw [silhouette, hd, h.sub_nan, h.nan_div], c, H.mem_order, hd ▸ h.bad_nan⟩
  obtain ⟨hs, a, ha, hbad⟩ := key
  rw [value, if_neg (by omega)]
  have ht : ((order S).any fun a => (order S).any fun b => Arith.truthy (cell S a b)) = true := by
    simp only [List.any_eq_true]
    exact ⟨a, ha, c, H.mem_order, h.truthy hbad⟩
  simp only [ht, if_true]
  rw [h.npSum_nan (List.mem_map.mpr ⟨c, H.mem_order, hs⟩), h.nan_div]

end Hit

/-! ## Batches -/

namespace Specials
variable {F : Type} [Arith F] {nan inf : F} {bad : F → Prop} {d : ℕ} (h : Specials F nan inf bad d)
local notation "Lk" => Like nan bad

section
variable {l : List (List F)} {x : List F} {j : ℕ} (hl : ∀ x ∈ l, x.length = d) (hx : x ∈ l) (hj : j < d) (hb : bad (x.getD j 0))
include h hx hj hb

theorem colMeans_like : Lk (x.getD j 0) ((colMeans d l).getD j 0) := by
  rw [Rounding.colMeans_getD hj]
  exact ⟨hb, h.colMean (List.mem_map.mpr ⟨x, hx, rfl⟩) hb⟩

include hl

theorem sqDiff_nan : nan ∈ sqDiff x (colMeans d l) := by
  have hxd := hl x hx
  have hc : (colMeans d l).length = d := by simp [colMeans]
  have hz : (List.zipWith (· - ·) x ((colMeans d l).map (· * Arith.one))).getD j 0 = nan := by
    rw [Rounding.getD_zip (by omega) (by simpa [hc] using hj), Rounding.getD_map (by omega)]
    exact h.like_sub (Like.refl hb) (h.trans (h.colMeans_like hx hj hb) h.one)
  refine List.mem_map.mpr ⟨nan, ?_, h.sq_nan⟩
  rw [← hz]
  exact Rounding.getD_mem (by simp [hxd, hc, hj])

theorem batch_cp_nan : (Stat.batch d l).cp = nan := by
  refine h.sum2 ?_ (List.mem_map.mpr ⟨x, hx, rfl⟩) (h.sqDiff_nan hl hx hj hb)
  intro r hr
  obtain ⟨y, hy, rfl⟩ := List.mem_map.mp hr
  simp [sqDiff, colMeans, hl y hy]

end

/-- A row of part `i` has a feature that is not finite: every batch value is NaN. -/
theorem batch {k : ℕ} {P : ℕ → List (List F)} {rows : List (List F)} {i : ℕ} {x : List F} {j : ℕ} (h : Specials F nan inf bad d)
    (hP : ∀ i, ∀ x ∈ P i, x.length = d) (hk : 2 ≤ k) (hi : i < k) (hx : x ∈ P i) (hj : j < d) (hb : bad (x.getD j 0)) {I : Index}
    (hI : I ≠ .rCIP) (he : I = .PS → Arith.exp nan = nan) : Batch.value d k P rows I = nan := by
  have hik : i ∈ List.range k := List.mem_range.mpr hi
  have hcp := h.batch_cp_nan (hP i) hx hj hb
  have hsum : Arith.pySum ((List.range k).map fun i => (Stat.batch d (P i)).cp) = nan := h.pySum_nan (List.mem_map.mpr ⟨i, hik, hcp⟩)
  have hsp : Batch.spread d P i = nan := by rw [Batch.spread, hcp, h.nan_div]
  have hhi : high ((List.range k).map (Batch.spread d P)) = nan := h.high_nan (List.mem_map.mpr ⟨i, hik, hsp⟩)
  obtain ⟨o, ho, hoi⟩ : ∃ o < k, o ≠ i := by
    by_cases h0 : i = 0
    · exact ⟨1, by omega, by omega⟩
    · exact ⟨0, by omega, Ne.symm h0⟩
  cases I with
  | CH => simp only [Batch.value]; rw [hsum, h.div_nan, h.nan_mul]
  | WB => simp only [Batch.value]; rw [hsum, h.nan_div, h.nan_mul]
  | XB => simp only [Batch.value]; rw [hsum, h.nan_div]
  | GD43 => simp only [Batch.value]; rw [hhi, h.mul_nan, h.div_nan]
  | GD53 => simp only [Batch.value]; rw [hhi, h.mul_nan, h.div_nan]
  | DB =>
    simp only [Batch.value]
    have hq : Batch.both (Batch.quotient d P) i o = nan := by
      rcases lt_or_gt_of_ne hoi with e | e
      · rw [Batch.both, if_neg (by omega), if_pos e, Batch.quotient, hsp, h.add_nan, h.nan_div, h.add_nan]
      · rw [Batch.both, if_pos e, Batch.quotient, hsp, h.nan_add, h.nan_div, h.nan_add]
    rw [h.npSum_nan (List.mem_map.mpr ⟨i, hik, h.high_nan (List.mem_map.mpr ⟨o, List.mem_range.mpr ho, hq⟩)⟩), h.nan_div]
  | PS =>
    simp only [Batch.value]
    have hv : (colMeans d (P i)).length = d := by simp [colMeans]
    have hl : (Batch.vBar d k P).length = d := by simp [Batch.vBar, colMeans]
    have h1 := h.colMeans_like hx hj hb
    have h2 : Lk (x.getD j 0) ((Batch.vBar d k P).getD j 0) := by
      rw [Batch.vBar, Rounding.colMeans_getD hj]
      refine h.trans h1 fun hb => h.colMean (List.mem_map.mpr ⟨colMeans d (P i), List.mem_map.mpr ⟨i, hik, rfl⟩, rfl⟩) hb
    have hz : (List.zipWith (· - ·) (colMeans d (P i)) (Batch.vBar d k P)).getD j 0 = nan := by
      rw [Rounding.getD_zip (by omega) (by omega)]
      exact h.like_sub h1 h2
    have hB : Batch.betaT d k P = nan := by
      rw [Batch.betaT, h.pySum_nan (List.mem_map.mpr ⟨i, hik, h.dot_nan (by simp [hv, hl]) (by simp [hv, hl]) hj hz⟩), h.nan_div]
    refine h.npSum_nan (List.mem_map.mpr ⟨i, hik, ?_⟩)
    rw [Batch.psTerm, hB, h.div_nan, he rfl, h.sub_nan]
  | cSIL =>
    have hc : Batch.cell d P i i = nan := by
      have hm : nan ∈ (P i).map fun x => Arith.rowSum (sqDiff x (colMeans d (P i))) :=
        List.mem_map.mpr ⟨x, hx, h.rowSum (h.sqDiff_nan (hP i) hx hj hb)⟩
      rw [Batch.cell, h.pySum_nan hm, h.nan_div]
    have hs : Batch.silhouette d k P i = nan := by rw [Batch.silhouette, hc, h.sub_nan, h.nan_div]
    have ht : ((List.range k).any fun a => (List.range k).any fun b => Arith.truthy (Batch.cell d P a b)) = true := by
      simp only [List.any_eq_true]
      exact ⟨i, hik, i, hik, by rw [hc]; exact h.truthy h.bad_nan⟩
    simp only [Batch.value, ht, if_true]
    rw [h.npSum_nan (List.mem_map.mpr ⟨i, hik, hs⟩), h.nan_div]
  | rCIP => exact absurd rfl hI

end Specials
end Verif.Gen
