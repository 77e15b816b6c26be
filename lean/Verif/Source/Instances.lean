import Verif.Source.Laws
import Verif.Gen.B64
import Verif.Gen.Cents

/-! # Arithmetics that satisfy `Laws` -/

namespace Verif.Source
open Gen

theorem foldl_sum {M : Type} [AddCommMonoid M] (l : List M) (a : M) : l.foldl (· + ·) a = a + l.sum := by
  induction l generalizing a with
  | nil => simp
  | cons b l ih => rw [List.foldl_cons, ih, List.sum_cons, add_assoc]

instance : Laws XR where
  zero := by show XR.fin 0 = XR.fin ((0 : ℕ) : ℝ); simp
  one := by show XR.fin 1 = XR.fin ((1 : ℕ) : ℝ); simp
  two := by show XR.fin 2 = XR.fin ((2 : ℕ) : ℝ); simp
  oneMinusInv n _ := by
    show XR.fin _ = XR.fin ((1 : ℕ) : ℝ) - XR.fin (((1 : ℤ) : ℝ) / ((n : ℤ) : ℝ))
    simp
  invNat n _ := by show XR.fin _ = XR.fin (((1 : ℤ) : ℝ) / ((n : ℤ) : ℝ)); simp
  invPred n _ := by show XR.fin _ = XR.fin (((1 : ℤ) : ℝ) / (((n : ℤ) - 1 : ℤ) : ℝ)); simp
  chFactor n k _ := by
    show XR.fin _ = XR.fin ((((n : ℤ) - (k : ℤ) : ℤ) : ℝ) / ((((k : ℤ) - 1 : ℤ)) : ℝ)); simp
  pySum l := by show l.sum = _; rw [foldl_sum]; simp

instance (L : Lib) : Laws (F64 L) where
  zero := by show B64.fin false 0 = B64.ofNat 0; decide +kernel
  one := rfl
  two := rfl
  oneMinusInv _ _ := rfl
  invNat _ _ := rfl
  invPred _ _ := rfl
  chFactor _ _ _ := rfl
  pySum _ := rfl

instance : Laws Cents where
  zero := by decide +kernel
  one := rfl
  two := rfl
  oneMinusInv n _ := by show (⟨_⟩ : Cents) = ⟨_⟩; simp [Arith.ofNat, Arith.intDiv]
  invNat n _ := by show (⟨_⟩ : Cents) = ⟨_⟩; simp
  invPred n _ := by show (⟨_⟩ : Cents) = ⟨_⟩; simp
  chFactor _ _ _ := rfl
  pySum _ := rfl

/-- `-0.5`, `10.0 ** (-12.0 / dim)` and `np.pi` over the reals. -/
noncomputable def realLits : Lits XR where
  lit a b := .fin ((a : ℝ) / (b : ℝ))
  pi := .fin Real.pi
  fpow x y := match x, y with
    | .fin a, .fin b => .ok (.fin (a ^ b))
    | _, _ => .ok .nan
  ipow x n := match x with
    | .fin a => .ok (.fin (a ^ n))
    | _ => .ok .nan

theorem realLits_laws : LitLaws realLits where
  negHalf := by
    show -XR.fin _ = XR.fin _
    rw [XR.fin_neg, XR.fin_inj]; norm_num
  delta d hd := by
    have hd' : (d : ℝ) ≠ 0 := by exact_mod_cast hd
    show (match XR.fin (((10 : ℕ) : ℝ) / ((1 : ℕ) : ℝ)), -XR.fin (((12 : ℕ) : ℝ) / ((1 : ℕ) : ℝ)) / XR.fin (d : ℝ) with
      | .fin a, .fin b => (.ok (.fin (a ^ b)) : Except PyErr XR)
      | _, _ => .ok .nan) = .ok (.fin ((10 : ℝ) ^ (-(12 : ℝ) / (d : ℝ))))
    rw [XR.fin_neg, XR.fin_div_of_ne _ hd']
    norm_num
  normConst d := by
    show (.ok (.fin 1 / XR.sqrt (.fin ((2 * Real.pi) ^ d))) : Except PyErr XR) =
      (match XR.fin ((2 : ℕ) : ℝ) * XR.fin Real.pi with
      | .fin a => (.ok (.fin (a ^ d)) : Except PyErr XR)
      | _ => .ok .nan) >>= fun y => .ok (XR.fin ((1 : ℕ) : ℝ) / XR.sqrt y)
    rw [XR.fin_mul]
    simp

/-- Float literals and `np.pi` in binary64: the binary64 number nearest to the quotient, and the nearest to `π`; the powers are the
library's. -/
def b64Lits (L : Lib) (fpow : B64 → B64 → Except PyErr B64) (ipow : B64 → ℕ → Except PyErr B64) : Lits (F64 L) where
  lit a b := B64.intDiv a b
  pi := B64.intDiv 884279719003555 281474976710656
  fpow := fpow
  ipow := ipow

/-- `LitLaws` asks of a binary64 library only that its two constants are computed with its powers. -/
theorem b64Lits_laws (L : Lib) (fpow : B64 → B64 → Except PyErr B64) (ipow : B64 → ℕ → Except PyErr B64)
    (h1 : ∀ d, d ≠ 0 → fpow (B64.ofNat 10) (B64.div (B64.neg (B64.ofNat 12)) (B64.ofNat d)) = .ok (L.delta d))
    (h2 : ∀ d, L.normConst d = ipow (B64.mul (B64.ofNat 2) (B64.intDiv 884279719003555 281474976710656)) d >>= fun y =>
      .ok (B64.div (B64.ofNat 1) (B64.sqrt y))) : LitLaws (b64Lits L fpow ipow) where
  negHalf := by show B64.neg (B64.intDiv 1 2) = B64.intDiv (-1) 2; decide +kernel
  delta d hd := by
    have e1 : B64.intDiv (10 : ℕ) (1 : ℕ) = B64.ofNat 10 := by decide +kernel
    have e2 : B64.intDiv (12 : ℕ) (1 : ℕ) = B64.ofNat 12 := by decide +kernel
    show fpow (B64.intDiv (10 : ℕ) (1 : ℕ)) (B64.div (B64.neg (B64.intDiv (12 : ℕ) (1 : ℕ))) (B64.ofNat d)) = .ok (L.delta d)
    rw [e1, e2]; exact h1 d hd
  normConst d := h2 d

end Verif.Source
