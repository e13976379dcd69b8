import Lean.Meta.Tactic.Simp.RegisterCommand

/-! # A simp set for inverting successful runs -/

/-- Lemmas that take a successful run apart. -/
register_simp_attr runs_ok
