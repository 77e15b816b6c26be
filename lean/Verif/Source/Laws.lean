import Verif.Source.Run

set_option linter.unusedSectionVars false
set_option linter.constructorNameAsVariable false

namespace Verif.Source

/-- The constants and quotients that `Arith` has as single operations are what Python computes for the expressions they stand
for, and the builtin `sum` adds from the left, starting with zero.  Nothing is said about rounding. -/
class Laws (F : Type) [Arith F] : Prop where
  zero : (0 : F) = Arith.ofNat 0
  one : (Arith.one : F) = Arith.ofNat 1
  two : (Arith.two : F) = Arith.ofNat 2
  /-- `1 - 1 / n` -/
  oneMinusInv (n : ℕ) : n ≠ 0 → (Arith.oneMinusInv n : F) = Arith.ofNat 1 - Arith.intDiv 1 n
  /-- `1 / n` -/
  invNat (n : ℕ) : n ≠ 0 → (Arith.invNat n : F) = Arith.intDiv 1 n
  /-- `1 / (n - 1)` -/
  invPred (n : ℕ) : 2 ≤ n → (Arith.invPred n : F) = Arith.intDiv 1 ((n : ℤ) - 1)
  /-- `(n - k) / (k - 1)` -/
  chFactor (n k : ℕ) : 2 ≤ k → (Arith.chFactor n k : F) = Arith.intDiv ((n : ℤ) - k) ((k : ℤ) - 1)
  /-- `sum(l)` -/
  pySum (l : List F) : Arith.pySum l = l.foldl (· + ·) 0

/-- The two constants of `rCIP` and `-0.5` are what Python computes for the expressions they stand for. -/
structure LitLaws {F : Type} [Arith F] (K : Lits F) : Prop where
  /-- `-0.5` -/
  negHalf : -(K.lit 1 2) = Arith.negHalf
  /-- `10.0 ** (-12.0 / dim)` -/
  delta (d : ℕ) : d ≠ 0 → K.fpow (K.lit 10 1) (-(K.lit 12 1) / Arith.ofNat d) = .ok (Arith.delta d)
  /-- `1 / np.sqrt((2 * np.pi) ** dim)` -/
  normConst (d : ℕ) : Arith.normConst d =
    K.ipow (Arith.ofNat 2 * K.pi) d >>= fun y => .ok (Arith.ofNat 1 / Arith.sqrt y)

variable {F : Type} [Arith F] [Laws F]

@[pyrun] theorem law_oneMinus (n : ℕ) :
    (Arith.ofNat 1 - Arith.invNat (n + 1) : F) = Arith.oneMinusInv (n + 1) := by
  rw [Laws.oneMinusInv (n + 1) (by omega), Laws.invNat (n + 1) (by omega)]
@[pyrun] theorem law_inv (n : ℕ) : (Arith.intDiv 1 ((n : ℤ) + 1) : F) = Arith.invNat (n + 1) := by
  rw [Laws.invNat (n + 1) (by omega)]; push_cast; rfl
@[pyrun] theorem law_two : (Arith.ofNat 2 : F) = Arith.two := Laws.two.symm
@[pyrun] theorem law_zero : (Arith.ofNat 0 : F) = 0 := Laws.zero.symm

/-- A running mean has the shape of its arguments, so the inner products with itself cannot fail. -/
theorem inner_self (a : Vec F) : Gen.Vec.inner a a = .ok (Arith.dot a a) := by simp [Gen.Vec.inner]

attribute [pyrun] inner_self Gen.runningMean Gen.compactnessNew Gen.gNew Gen.oldStats appendN appendCP vstackV vstackG incClusters
  setN setV setCP setG setD onCore Base.setup Base.setupBatch Vec.zeros

theorem divInt_nat (a b : ℕ) : (divInt false a b : Except PyErr F) = Gen.pyDiv a b := by
  by_cases h : b = 0 <;> simp [divInt, Gen.pyDiv, h]
theorem divInt_int (a b : ℤ) : (divInt false a b : Except PyErr F) = Gen.pyDiv a b := by
  by_cases h : b = 0 <;> simp [divInt, Gen.pyDiv, h]
theorem divInt_ne (np : Bool) (a : ℤ) {b : ℤ} (h : b ≠ 0) :
    (divInt np a b : Except PyErr F) = .ok (Arith.intDiv a b) := by
  simp only [divInt]; rw [if_neg h]
theorem law_ch (n : ℕ) {k : ℕ} (h : 1 < k) :
    (Arith.intDiv ((n : ℤ) - k) ((k : ℤ) - 1) : F) = Arith.chFactor n k := (Laws.chFactor n k h).symm
/-- `n_clusters > 1` -/
theorem gt_one (b : Bool) (k : ℕ) : cmpFn .gt (.int b (k : ℤ) : Val F) (.int false 1) = .ok (decide (k > 1)) := by
  simp only [cmpFn]
  congr 1
  exact decide_eq_decide.mpr (by omega)

/-- Run both sides in step; a read that was made before gives the same value again. -/
macro "pysteps" : tactic => `(tactic| repeat' first
  | with_reducible rfl
  | with_reducible refine andThen_same fun _ _ => ?_
  | with_reducible refine (andThen_of_ok (by assumption) _ _).trans ?_
  | with_reducible refine Eq.trans ?_ (andThen_of_ok (by assumption) _ _).symm)

end Verif.Source
