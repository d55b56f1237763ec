import Lean.Meta.Tactic.Simp.RegisterCommand

/-- Rewriting of model operations to field operations. -/
register_simp_attr ops_eq
