import Lean.Meta.Tactic.Simp.RegisterCommand

/-- Simp set that reduces model operations on finite values to operations on real numbers. -/
register_simp_attr fl
