import Mathlib.Tactic.Attr.Register
/-! The simp set for exact symbolic execution. -/
register_simp_attr okk
