import Lean.Meta.Tactic.Simp.RegisterCommand

/-- Rules that compute the weakest precondition of C computations. -/
register_simp_attr wp
