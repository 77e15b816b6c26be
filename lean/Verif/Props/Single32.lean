import Verif.Gen.SingleStd
import Verif.Props.AnyArith

/-!
# C96: samples in single precision

`Verif/Gen/Single.lean` explains which operations numpy carries out in single precision when the samples are arrays of `float32`: in the incremental
methods of XB, DB, GD43, GD53 and PS only the product `(1 / n_new) * sample`.
-/

namespace Verif.Gen
open Py B64

variable {L : Lib} {d : ℕ}

/-- The classes treated here. -/
def Five (I : Index) : Prop := I = .XB ∨ I = .DB ∨ I = .GD43 ∨ I = .GD53 ∨ I = .PS

/-- The stream as arrays of single precision. -/
def single (S : Samples (F64 L)) : Samples (S32 L) := S.map fun p => (p.1.map S32.ofSample, p.2)

theorem single_dim {S : Samples (F64 L)} (hS : S.Dim d) : (single S).Dim d := by
  intro p hp
  obtain ⟨q, hq, rfl⟩ := List.mem_map.mp hp
  rw [List.length_map]
  exact hS q hq

theorem single_take (S : Samples (F64 L)) (n : ℕ) : single (S.take n) = (single S).take n := List.map_take

theorem single_same (S : Samples (F64 L)) : (S32.same L).Same (single S) S := by
  have row : ∀ x : List (F64 L), List.Forall₂ S32.Is (x.map S32.ofSample : List (S32 L)) x := by
    intro x
    induction x with
    | nil => exact .nil
    | cons a x ih => exact .cons (fun _ => rfl) ih
  induction S with
  | nil => exact .nil
  | cons p S ih => exact .cons ⟨row p.1, rfl⟩ ih

theorem Five.cov {I : Index} (h : Five I) : I ≠ .rCIP := by rintro rfl; rcases h with h | h | h | h | h <;> cases h
theorem Five.sil {I : Index} (h : Five I) : I ≠ .cSIL := by rintro rfl; rcases h with h | h | h | h | h <;> cases h

/-- **C96**: `get_cvi` accepts the samples, and every value for which single precision made no difference (`hit`: some product that the value depends on is
another number in single precision than in double precision) is, bit for bit, the value for the same samples as arrays of doubles. -/
theorem C96_partial (I : Index) (hI : Five I) (S : Samples (F64 L)) (hS : S.Dim d) :
    ∃ (vs : List (S32 L)) (ws : List (F64 L)), (feed (mod (S32 L) I) (single S) (mod (S32 L) I).fresh).val = .ok vs ∧ (feed (mod (F64 L) I) S (mod (F64 L) I).fresh).val = .ok ws ∧
      vs.length = S.length ∧ ws.length = S.length ∧
      ∀ (i : ℕ) (v : S32 L) (w : F64 L), vs[i]? = some v → ws[i]? = some w → v.hit = false → v.num = w := by
  refine ⟨_, _, C62_every_arithmetic I hI.cov _ (single_dim hS), C62_every_arithmetic I hI.cov S hS, ?_, ?_, ?_⟩
  · simp [List.length_inits, single]
  · simp [List.length_inits]
  · intro i v w hv hw hit
    rw [List.getElem?_map, List.getElem?_tail] at hv hw
    by_cases hi : i + 1 < S.inits.length
    · have hi' : i + 1 < (single S).inits.length := by simpa [List.length_inits, single] using hi
      rw [List.getElem?_eq_getElem hi', List.getElem_inits, ← single_take] at hv
      rw [List.getElem?_eq_getElem hi, List.getElem_inits] at hw
      simp only [Option.map_some, Option.some.injEq] at hv hw
      subst hv hw
      exact (single_same (S.take (i + 1))).value d I (fun e => absurd e hI.sil) hit
    · rw [List.getElem?_eq_none (by omega)] at hw
      cases hw

theorem own_single (S : Samples (F64 L)) (c : ℤ) : own (single S) c = (own S c).map fun x => x.map S32.ofSample := by
  unfold own single
  rw [List.filter_map, List.map_map, List.map_map]
  rfl

/-- **C96**, centroids: the centroid recorded for a cluster of up to `2 ^ 24` samples has an error of at most `2 ^ -22` of the largest feature, plus what
double precision contributes.  The first part does not grow with the number of samples. -/
theorem C96_centroid (I : Index) (hI : Five I) (S : Samples (F64 L)) (hS : S.Dim d) {M : ℝ} (hM1 : (2 : ℝ) ^ (-100 : ℤ) ≤ M)
    (hM2 : M ≤ (2 : ℝ) ^ (120 : ℤ)) (hx : ∀ p ∈ S, ∀ a ∈ p.1, B64.Fin a ∧ |B64.val a| ≤ M) {vs : List (S32 L)} {o : Obj (S32 L)}
    (h : feed (mod (S32 L) I) (single S) (mod (S32 L) I).fresh = .ok vs o) {c : ℤ} (hc : ∃ x, (x, c) ∈ S) (hN : (own S c).length ≤ 2 ^ 24) {j : ℕ}
    (hj : j < d) :
    ∃ v a, o.centroid c = some v ∧ v[j]? = some a ∧ B64.Fin a.num ∧
      |B64.val a.num - ((own S c).map fun x => B64.val (x.getD j (0 : F64 L))).sum / (own S c).length| ≤
        ((2 : ℝ) ^ (-22 : ℤ) + (own S c).length * (2 : ℝ) ^ (-49 : ℤ)) * M := by
  have hM0 : 0 < M := lt_of_lt_of_le (by positivity) hM1
  have hne : S ≠ [] := by rintro rfl; obtain ⟨x, hx⟩ := hc; cases hx
  have hne' : single S ≠ [] := by simpa [single] using hne
  have hc1 : ∃ x, (x, c) ∈ single S := by
    obtain ⟨x, hx⟩ := hc
    exact ⟨_, List.mem_map.mpr ⟨(x, c), hx, rfl⟩⟩
  have hc' := (C63_own_samples I (fun e => absurd e hI.cov) (single S) (single_dim hS) hne' h).1 c hc1
  have hown : own (single S) c ≠ [] := fun e => (own_eq_nil _).mp e ((mem_order _).mpr hc1)
  have hlen : (own (single S) c).length = (own S c).length := by rw [own_single, List.length_map]
  obtain ⟨a, h1, h2, mt, h3, h4⟩ := S32.centroid hM1 hM2 (l := own (single S) c) (d := d) hown
    (fun x hx => own_length (single S) x (single_dim hS) hx)
    (fun x hx' a ha => by
      rw [own_single] at hx'
      obtain ⟨y, hy, rfl⟩ := List.mem_map.mp hx'
      obtain ⟨b, hb, rfl⟩ := List.mem_map.mp ha
      simp only [own, List.mem_map, List.mem_filter] at hy
      obtain ⟨p, ⟨hp, _⟩, rfl⟩ := hy
      exact ⟨rfl, (hx p hp b hb).1, (hx p hp b hb).2⟩) (by rwa [hlen]) hj
  refine ⟨_, a, hc'.2.1, h1, h2, ?_⟩
  have hmean : Rounding.mean S32.real (own (single S) c) j =
      ((own S c).map fun x => B64.val (x.getD j (0 : F64 L))).sum / (own S c).length := by
    rw [Rounding.mean, hlen, own_single, List.map_map]
    congr 2
    apply List.map_congr_left
    intro x hx
    have hjx : j < x.length := by rw [own_length S x hS hx]; exact hj
    simp only [Function.comp_apply, List.getD_eq_getElem?_getD, List.getElem?_map, List.getElem?_eq_getElem hjx, Option.map_some, Option.getD_some]
    rfl
  rw [hmean] at h4
  rw [hlen] at h3
  have e22 : (2 : ℝ) ^ (-22 : ℤ) = 1 / 2 ^ 22 := by rw [zpow_neg]; norm_num
  have e49 : (2 : ℝ) ^ (-49 : ℤ) = 1 / 2 ^ 49 := by rw [zpow_neg]; norm_num
  rw [e22, e49]
  have h5 := abs_sub_le (S32.real a) mt (((own S c).map fun x => B64.val (x.getD j (0 : F64 L))).sum / (own S c).length)
  have h6 : (((own S c).length : ℝ) - 1) * (1 / 2 ^ 49 * M) ≤ (own S c).length * (1 / 2 ^ 49 * M) :=
    mul_le_mul_of_nonneg_right (by linarith) (by positivity)
  change |S32.real a - _| ≤ _
  linarith

/-! ## It does make a difference -/

/-- Three samples 16777214 in one cluster and 16777215 in another.  All are numbers of single precision. -/
def shore : Samples (F64 Lib.plain) :=
  [([B64.ofNat 16777214], 0), ([B64.ofNat 16777214], 0), ([B64.ofNat 16777214], 0), ([B64.ofNat 16777215], 1)]

/-- The binary64 number. -/
def bits (a : F64 L) : B64 := a

/-- The last value that `get_cvi` returned. -/
def lastOf {F : Type} [Arith F] (I : Index) (S : Samples F) : Option F := ((feed (mod F I) S (mod F I).fresh).val.toOption).bind List.getLast?

theorem lastOf_eq {F : Type} [Arith F] {I : Index} (hI : I ≠ .rCIP) {S : Samples F} (hS : S.Dim d) (hne : S ≠ []) :
    lastOf I S = some (value d I S) := by
  rw [lastOf, C62_every_arithmetic I hI S hS]
  simp only [Except.toOption, Option.bind_some, List.getLast?_map]
  have : S.inits.tail.getLast? = some S := by
    have hl : 0 < S.length := List.length_pos_iff.mpr hne
    rw [List.getLast?_eq_getElem?, List.getElem?_tail, List.length_tail, List.length_inits,
      List.getElem?_eq_getElem (by rw [List.length_inits]; omega), List.getElem_inits, List.take_of_length_le (by omega)]
  rw [this]; rfl

theorem shore_dim : shore.Dim 1 := by
  intro p hp
  simp only [shore, List.mem_cons, List.not_mem_nil, or_false] at hp
  rcases hp with rfl | rfl | rfl | rfl <;> rfl

/-- **C96** (rounding): a number halfway between two multiples of `2 ^ s` is rounded to the even one. -/
theorem C96_ties (s a b n : ℕ) (hb : 0 < b) (h : 2 * a = (2 * n + 1) * (b * 2 ^ s)) :
    B64.nearest s a b = (if n % 2 = 0 then n else n + 1) * 2 ^ s := by
  have hw : 0 < b * 2 ^ s := by positivity
  unfold B64.nearest
  generalize b * 2 ^ s = w at h hw
  have h2 : 2 * a = 2 * (n * w) + w := by rw [h]; ring
  have hlt : a - n * w < w := by omega
  have hdiv : a / w = n := by
    refine (Nat.div_eq_iff hw).mpr ⟨by omega, ?_⟩
    have : n * w + w = (n + 1) * w := by ring
    omega
  have hmod : a % w = a - n * w := by
    have := Nat.div_add_mod a w
    rw [hdiv, Nat.mul_comm] at this
    omega
  have e : 2 * (a % w) = w := by omega
  simp only [e, lt_irrefl, false_or, true_and, hdiv]

/-- `2 ^ 24 + 1` and `2 ^ 24 + 3` lie halfway. -/
example : B64.to32 (B64.ofNat (2 ^ 24 + 1)) = B64.ofNat (2 ^ 24) ∧ B64.to32 (B64.ofNat (2 ^ 24 + 3)) = B64.ofNat (2 ^ 24 + 4) := by
  decide +kernel

/-- **C96**, the bits differ, and more than the bits: one cluster of three equal samples and one of a single sample at distance 1.  As arrays of doubles
XB and DB are 0, the best value there is, GD43 is infinite and GD53 is `0 / 0`.  As arrays of single precision XB is more than 1/6, DB more than 1/5, GD43 less
than 4 and GD53 less than 1/2. -/
theorem C96_false : (∀ p ∈ shore, ∀ a ∈ p.1, IsSingle a) ∧
    (lastOf .XB shore).map bits = some (B64.fin false 0) ∧ (lastOf .XB (single shore)).map (fun a => B64.lt (B64.intDiv 1 6) (bits a.num)) = some true ∧
    (lastOf .DB shore).map bits = some (B64.fin false 0) ∧ (lastOf .DB (single shore)).map (fun a => B64.lt (B64.intDiv 1 5) (bits a.num)) = some true ∧
    (lastOf .GD43 shore).map bits = some (B64.inf false) ∧ (lastOf .GD43 (single shore)).map (fun a => B64.lt (bits a.num) (B64.intDiv 4 1)) = some true ∧
    (lastOf .GD53 shore).map bits = some B64.nan ∧ (lastOf .GD53 (single shore)).map (fun a => B64.lt (bits a.num) (B64.intDiv 1 2)) = some true := by
  have h0 : shore ≠ [] := List.cons_ne_nil _ _
  have hs : single shore ≠ [] := List.cons_ne_nil _ _
  have last : ∀ {I : Index} {b : B64}, I ≠ .rCIP → bits (value 1 I shore) = b → (lastOf I shore).map bits = some b := by
    intro I b hI h
    rw [lastOf_eq hI shore_dim h0, Option.map_some, h]
  have last' : ∀ {I : Index} {f : S32 .plain → Bool}, I ≠ .rCIP → f (value 1 I (single shore)) = true → (lastOf I (single shore)).map f = some true := by
    intro I b hI h
    rw [lastOf_eq hI (single_dim shore_dim) hs, Option.map_some, h]
  refine ⟨?_, last (by decide) ?_, last' (by decide) ?_, last (by decide) ?_, last' (by decide) ?_, last (by decide) ?_, last' (by decide) ?_,
    last (by decide) ?_, last' (by decide) ?_⟩
  · intro p hp a ha
    simp only [shore, List.mem_cons, List.not_mem_nil, or_false] at hp
    rcases hp with rfl | rfl | rfl | rfl <;> rw [List.mem_singleton.mp ha] <;> decide +kernel
  all_goals decide +kernel

/-! ## Examples -/

/-- Two samples per cluster: single precision makes no difference, and the values are those for doubles. -/
def pairsOf : Samples (F64 Lib.plain) :=
  [([B64.ofNat 1], 0), ([B64.ofNat 4], 0), ([B64.ofNat 10], 1), ([B64.ofNat 13], 1)]

theorem pairsOf_dim : pairsOf.Dim 1 := by
  intro p hp
  simp only [pairsOf, List.mem_cons, List.not_mem_nil, or_false] at hp
  rcases hp with rfl | rfl | rfl | rfl <;> rfl

example : S32.hit (value 1 .XB (single pairsOf)) = false ∧ bits (S32.num (value 1 .XB (single pairsOf))) = B64.intDiv 9 (4 * 81) := by
  decide +kernel

/-- With three samples in a cluster it does. -/
example : S32.hit (value 1 .XB (single shore)) = true := by decide +kernel

/-- The hypotheses of `C96_centroid`: finite samples of size up to `2 ^ 24`. -/
example : (∀ p ∈ shore, ∀ a ∈ p.1, B64.Fin a ∧ |B64.val a| ≤ (2 : ℝ) ^ (24 : ℤ)) ∧ (2 : ℝ) ^ (-100 : ℤ) ≤ (2 : ℝ) ^ (24 : ℤ) ∧
    (2 : ℝ) ^ (24 : ℤ) ≤ (2 : ℝ) ^ (120 : ℤ) ∧ (own shore 0).length = 3 := by
  have v : ∀ n : ℕ, n < 2 ^ 24 → B64.Fin (B64.ofNat n) ∧ |B64.val (B64.ofNat n)| ≤ (2 : ℝ) ^ (24 : ℤ) := by
    intro n hn
    obtain ⟨h1, h2⟩ := ofNat_val (n := n) (by omega)
    refine ⟨h1.isFin, ?_⟩
    rw [h2, Nat.abs_cast]
    have : (n : ℝ) ≤ 2 ^ 24 := by exact_mod_cast hn.le
    exact_mod_cast this
  refine ⟨?_, ?_, ?_, by decide⟩
  · intro p hp a ha
    simp only [shore, List.mem_cons, List.not_mem_nil, or_false] at hp
    rcases hp with rfl | rfl | rfl | rfl <;> rw [List.mem_singleton.mp ha] <;> exact v _ (by norm_num)
  · exact zpow_le_zpow_right₀ (by norm_num) (by norm_num)
  · exact zpow_le_zpow_right₀ (by norm_num) (by norm_num)

end Verif.Gen
