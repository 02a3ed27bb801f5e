import Lean

/-! # The simp set for running C -/

/-- Rules that run a piece of C. -/
register_simp_attr crun
