import Lean.Meta.Tactic.Simp.RegisterCommand
import Lean.LabelAttribute

/-! # The simp set `sem` (semantic base, not a part of /repo) -/

/-- Rules that evaluate syntax trees of C in states whose variables are listed. -/
register_simp_attr sem
