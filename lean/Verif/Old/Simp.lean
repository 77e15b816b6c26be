import Lean

/-! # The simp set that runs programs of the older interface -/

/-- Equations that run a program of `Verif/Old/Text.lean`. -/
register_simp_attr oldrun
