import Lean

/-! # The simp set that runs programs -/

/-- Equations that run a program of `Verif/Source/Text.lean`. -/
register_simp_attr pyrun
