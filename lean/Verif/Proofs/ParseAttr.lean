import Lean.Meta.Tactic.Simp.RegisterCommand
/-
The simp set of symbolic execution.
-/
/-- Equations for running the parser on printed trees. -/
register_simp_attr zx
