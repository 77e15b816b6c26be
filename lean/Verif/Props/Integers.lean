import Verif.Gen.TypedCov
import Verif.Gen.All

/-!
# C91: samples of integers

The full statement: the values for samples given as arrays of 64-bit integers are the values for the same samples given as floats.

It is false (`C91_false`): numpy keeps the type of the array, cSIL's `np.inner(sample, sample)` (cSIL.py:72, 124) is then computed in 64-bit
integers, and wraps around from `2 ^ 63` on without a warning.  So does `np.transpose(subset) @ subset` in rCIP's batch mode (rCIP.py:186).

`C91_partial`, `C91_binary64` and the corresponding theorems for rCIP say when it is true: for incremental cSIL, when `2 * N * M` stays below `2 ^ 63`
(in binary64: below `2 ^ 53`, from which on not every integer is a float), where `N` is the number of samples and `M` a bound of their squared
norms; for rCIP in batch mode when `N * M` does.  Samples of integers and of floats may be mixed.
-/

namespace Verif.Gen
open Typed

variable {F : Type} [Arith F] [FromInt F] {d : ℕ}

/-! ## The statements -/

/-- The samples of integers among `T` have `d` features and squared norms of at most `M`. -/
def IntsWithin (d : ℕ) (M : ℤ) (T : List (TVec F × ℤ)) : Prop :=
  ∀ p ∈ T, ∀ l, p.1 = .ints l → l.length = d ∧ (l.map fun z => z ^ 2).sum ≤ M

/-- Every value, and every attribute of the object, is the same for samples of integers and of floats. -/
def SameAsFloats (T : List (TVec F × ℤ)) : Prop :=
  (Typed.feed T Typed.fresh).mapState toObj = Verif.feed (mod F .cSIL) (T.map fun p => (p.1.float, p.2)) (mod F .cSIL).fresh

/-- The same for one call of `rCIP().get_cvi` in batch mode. -/
def BatchSameAsFloats (F : Type) [Arith F] [FromInt F] (data : IArr) (labels : List ℤ) : Prop :=
  Verif.getCvi (mod F .rCIP) (.d2 data.float) (.arr labels) (mod F .rCIP).fresh =
    (Typed.batch data labels (mod F .rCIP).fresh.core).mapState fun c => { (mod F .rCIP).fresh with core := c }

theorem sameAsFloats {B M : ℤ} (hF : IntExact F B d) (hM : 1 ≤ M) (T : List (TVec F × ℤ)) (hd : ∀ p ∈ T, p.1.float.length = d)
    (hT : IntsWithin d M T) (hB : 2 * (T.length * M) ≤ B) : SameAsFloats T := by
  refine feed_eq hF hM T (fun p hp => ?_) ?_ [] Typed.fresh (by intro p hp; cases hp) ⟨.inl ⟨rfl, rfl⟩, by intro z hz; cases hz⟩ (by simpa using hB)
  · obtain ⟨x, c⟩ := p
    cases x with
    | ints l => exact hT _ hp l rfl
    | flts l => trivial
  · intro p hp
    obtain ⟨q, hq, rfl⟩ := List.mem_map.mp hp
    exact hd q hq

/-! ## cSIL, fed one sample at a time -/

/-- Exact arithmetic. -/
theorem C91_partial {M : ℤ} (hM : 1 ≤ M) (T : List (TVec XR × ℤ)) (hd : ∀ p ∈ T, p.1.float.length = d) (hT : IntsWithin d M T)
    (hB : 2 * (T.length * M) < 2 ^ 63) : SameAsFloats T := sameAsFloats (XR.intExact d) hM T hd hT (by omega)

/-- binary64, with any order of additions in `np.inner`. -/
theorem C91_binary64 {L : Lib} (hL : L.Dots d) (hd0 : 0 < d) {M : ℤ} (hM : 1 ≤ M) (T : List (TVec (F64 L) × ℤ))
    (hd : ∀ p ∈ T, p.1.float.length = d) (hT : IntsWithin d M T) (hB : 2 * (T.length * M) < 2 ^ 53) : SameAsFloats T :=
  sameAsFloats (F64.intExact hL hd0) hM T hd hT (by omega)

/-! ## rCIP, in batch mode -/

/-- Exact arithmetic. -/
theorem C91_rCIP (data : IArr) (labels : List ℤ) {M : ℤ} (hl : ∀ r ∈ data.rows, r.length = data.cols)
    (hr : ∀ r ∈ data.rows, (r.map fun z => z ^ 2).sum ≤ M) (hM : labels.length * M < 2 ^ 63) : BatchSameAsFloats XR data labels := by
  refine batch_entries hl hr (fun rows h1 hn hr' _ i hi j _ k w => ?_) _ rfl
  obtain ⟨r, hr0⟩ := List.exists_mem_of_length_pos (show 0 < rows.length by omega)
  have hM0 : 0 ≤ M := (normSq_nonneg r).trans (hr' r hr0)
  have : (rows.length : ℤ) * M ≤ labels.length * M := mul_le_mul_of_nonneg_right (by exact_mod_cast hn) hM0
  rw [XR.entry hr' (by omega) hi]

/-- binary64, with any order of additions in `@` and any `10.0 ** x` that is not negative. -/
theorem C91_rCIP_binary64 {L : Lib} (hp : L.Products) (data : IArr) (labels : List ℤ) (hδ : (L.delta data.cols).Plus) {M : ℤ}
    (hl : ∀ r ∈ data.rows, r.length = data.cols) (hr : ∀ r ∈ data.rows, (r.map fun z => z ^ 2).sum ≤ M) (hM : labels.length * M < 2 ^ 53) :
    BatchSameAsFloats (F64 L) data labels := by
  refine batch_entries hl hr (fun rows h1 hn hr' hl' i hi j hj k w => ?_) _ rfl
  obtain ⟨r, hr0⟩ := List.exists_mem_of_length_pos (show 0 < rows.length by omega)
  have hM0 : 0 ≤ M := (normSq_nonneg r).trans (hr' r hr0)
  have : (rows.length : ℤ) * M ≤ labels.length * M := mul_le_mul_of_nonneg_right (by exact_mod_cast hn) hM0
  exact F64.entry hp hδ hr' hl' (by omega) (by omega) hM0 hi hj k w

/-! ## Where it fails -/

/-- Two clusters of one sample each; the square of the first sample exceeds `2 ^ 63`. -/
def large {L : Lib} : List (TVec (F64 L) × ℤ) := [(.ints [3037000500], 0), (.ints [0], 1)]

theorem large_values : (Typed.feed large (Typed.fresh : TObj (F64 .plain))).val = .ok [B64.fin false 0, B64.inf true] := by
  decide +kernel

theorem large_floats : (Verif.feed (mod (F64 .plain) .cSIL) (large.map fun p => (p.1.float, p.2)) (mod (F64 .plain) .cSIL).fresh).val =
    .ok [B64.fin false 0, B64.ofNat 1] := by
  decide +kernel

theorem C91_false : ¬ ∀ T : List (TVec (F64 .plain) × ℤ), (∀ p ∈ T, p.1.float.length = 1) → SameAsFloats T := by
  intro h
  have e := h large (by decide)
  have e1 := congrArg Res.val e
  rw [large_floats] at e1
  have e2 := large_values
  revert e1 e2
  cases Typed.feed large (Typed.fresh : TObj (F64 .plain)) with
  | err _ _ => intro e1; cases e1
  | ok a o =>
    intro e1 e2
    rw [Except.ok.inj e2] at e1
    have e1 : (.ok [B64.fin false 0, B64.inf true] : Except PyErr (List B64)) = .ok [B64.fin false 0, B64.ofNat 1] := e1
    revert e1
    decide +kernel

/-- Two samples whose squares are in range and whose sum, `2 ^ 63`, is not (`_CP[0]`). -/
def sums {L : Lib} : List (TVec (F64 L) × ℤ) := [(.ints [2 ^ 31], 0), (.ints [2 ^ 31], 0), (.ints [0], 1)]

/-- A sample whose square is in range, but not multiplied by the size of the other cluster (cSIL.py:93). -/
def weights {L : Lib} : List (TVec (F64 L) × ℤ) := [(.ints [0], 0), (.ints [0], 0), (.ints [2 ^ 31], 1)]

/-- Each of the three integer operations matters: the square (`large_values`), the sum of the squares, and the multiple of the square.
The last value is `-inf` in place of 1. -/
theorem C91_places_false :
    (Typed.feed sums (Typed.fresh : TObj (F64 .plain))).val = .ok [B64.fin false 0, B64.fin false 0, B64.inf true] ∧
    (Verif.feed (mod (F64 .plain) .cSIL) (sums.map fun p => (p.1.float, p.2)) (mod (F64 .plain) .cSIL).fresh).val =
      .ok [B64.fin false 0, B64.fin false 0, B64.ofNat 1] ∧
    (Typed.feed weights (Typed.fresh : TObj (F64 .plain))).val = .ok [B64.fin false 0, B64.fin false 0, B64.inf true] ∧
    (Verif.feed (mod (F64 .plain) .cSIL) (weights.map fun p => (p.1.float, p.2)) (mod (F64 .plain) .cSIL).fresh).val =
      .ok [B64.fin false 0, B64.fin false 0, B64.ofNat 1] := by
  refine ⟨?_, ?_, ?_, ?_⟩ <;> decide +kernel

/-- A library that is right for one feature and equal centroids: the determinant of a matrix of one entry is the entry, its inverse the
reciprocal; `exp(0)` is one; `10.0 ** (-12.0)` and `1 / np.sqrt(2 * np.pi)` are represented by `2 ** (-40)` and `0.5`. -/
def Lib.single : Lib := { Lib.plain with
  exp := fun _ => B64.ofNat 1
  delta := fun _ => B64.div (B64.ofNat 1) (B64.ofNat (2 ^ 40))
  normConst := fun _ => .ok (B64.div (B64.ofNat 1) (B64.ofNat 2))
  mm := fun A B i j => B64.total (List.zipWith B64.mul (A.rows.getD i []) (B.rows.map fun r => r.getD j (B64.fin false 0)))
  vm := fun v B j => B64.total (List.zipWith B64.mul v (B.rows.map fun r => r.getD j (B64.fin false 0)))
  det := fun A => .ok ((A.rows.getD 0 []).getD 0 B64.nan)
  inv := fun A => .ok ⟨1, [[B64.div (B64.ofNat 1) ((A.rows.getD 0 []).getD 0 B64.nan)]]⟩ }

theorem Lib.single_products : Lib.single.Products := by
  intro A B i j _ _
  have e : List.zipWith B64.mul (A.rows.getD i []) (B.rows.map fun r => r.getD j (B64.fin false 0)) =
      ((A.rows.getD i []).zip (B.rows.map fun r => r.getD j (B64.fin false 0))).map fun p => B64.mul p.1 p.2 := by
    rw [List.zip, List.map_zipWith]
  show B64.DotOf _ (B64.total _)
  rw [e]
  exact total_dot _

/-- Two equal rows in one cluster, and the same row in another; `2 ^ 64 + 2 ^ 64` is `0` in 64-bit integers. -/
def twins : IArr := ⟨1, [[2 ^ 32], [2 ^ 32], [2 ^ 32]]⟩

/-- The value for the integers is NaN, as the variance of the first cluster is negative. -/
theorem twins_value : (Typed.batch twins [0, 0, 1] (mod (F64 .single) .rCIP).fresh.core).val = .ok B64.nan := by decide +kernel

/-- The value for the floats is not. -/
theorem twins_floats : ∃ x : B64, B64.lt (B64.ofNat 1) x ∧
    (Verif.getCvi (mod (F64 .single) .rCIP) (.d2 twins.float) (.arr [0, 0, 1]) (mod (F64 .single) .rCIP).fresh).val = .ok x :=
  ⟨(Verif.getCvi (mod (F64 .single) .rCIP) (.d2 twins.float) (.arr [0, 0, 1]) (mod (F64 .single) .rCIP).fresh).val.toOption.getD B64.nan,
    by decide +kernel, by decide +kernel⟩

theorem C91_rCIP_false : ¬ ∀ (data : IArr) (labels : List ℤ), (∀ r ∈ data.rows, r.length = data.cols) → BatchSameAsFloats (F64 .single) data labels := by
  intro h
  have e := congrArg Res.val (h twins [0, 0, 1] (by decide))
  obtain ⟨x, hx, hv⟩ := twins_floats
  have hv' : (Verif.getCvi (mod (F64 .single) .rCIP) (.d2 twins.float) (.arr [0, 0, 1]) (mod (F64 .single) .rCIP).fresh).val = .ok x := hv
  rw [hv'] at e
  have e2 := twins_value
  revert e e2
  cases Typed.batch twins [0, 0, 1] (mod (F64 .single) .rCIP).fresh.core with
  | err _ _ => intro e; cases e
  | ok a o =>
    intro e e2
    rw [Except.ok.inj e2] at e
    have e : (.ok x : Except PyErr B64) = .ok B64.nan := e
    rw [Except.ok.inj e] at hx
    exact absurd hx (by decide +kernel)

/-! ## Cases that meet the hypotheses -/

/-- Samples of integers and one of floats, in two clusters. -/
def mixed (L : Lib) : List (TVec (F64 L) × ℤ) := [(.ints [3, -4], 5), (.ints [1000, 0], 2), (.flts [B64.ofNat 1, B64.ofNat 2], 5), (.ints [-7, 90], 2)]

theorem mixed_within (L : Lib) : IntsWithin 2 1000000 (mixed L) := by
  intro p hp l hl
  simp only [mixed, List.mem_cons, List.not_mem_nil, or_false] at hp
  rcases hp with rfl | rfl | rfl | rfl <;> first | (obtain rfl := TVec.ints.inj hl; decide) | cases hl

example {L : Lib} (hL : L.Dots 2) : SameAsFloats (mixed L) :=
  C91_binary64 hL (by norm_num) (M := 1000000) (by norm_num) (mixed L) (by
    intro p hp
    simp only [mixed, List.mem_cons, List.not_mem_nil, or_false] at hp
    rcases hp with rfl | rfl | rfl | rfl <;> rfl) (mixed_within L) (by norm_num [mixed])

/-- With the numbers of `C91_false`, but small enough. -/
example : SameAsFloats ([(.ints [1518500249], 0), (.ints [0], 1)] : List (TVec XR × ℤ)) :=
  C91_partial (d := 1) (M := 1518500249 ^ 2) (by norm_num) _ (by
    intro p hp
    simp only [List.mem_cons, List.not_mem_nil, or_false] at hp
    rcases hp with rfl | rfl <;> rfl) (by
    intro p hp l hl
    simp only [List.mem_cons, List.not_mem_nil, or_false] at hp
    rcases hp with rfl | rfl <;> (obtain rfl := TVec.ints.inj hl; decide)) (by norm_num)

example : BatchSameAsFloats (F64 .single) ⟨1, [[2 ^ 25], [-7], [2 ^ 25]]⟩ [0, 0, 1] :=
  C91_rCIP_binary64 Lib.single_products _ _ (B64.plus_div (B64.plus_ofNat 1) (B64.plus_ofNat _)) (M := 2 ^ 50) (by decide) (by decide) (by norm_num)

example : BatchSameAsFloats XR ⟨2, [[2 ^ 30, 1], [-7, 0], [2 ^ 30, 5]]⟩ [0, 0, 1] :=
  C91_rCIP _ _ (M := 2 ^ 60 + 25) (by decide) (by decide) (by norm_num)

end Verif.Gen
