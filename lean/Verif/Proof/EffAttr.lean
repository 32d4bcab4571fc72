import Lean.Meta.Tactic.Simp.RegisterCommand

/-! # Sets of lemmas for C71 -/

/-- Lemmas that reduce `Fine` of a list of accesses to the accesses. -/
register_simp_attr fine

/-- Lemmas that reduce `NoMod` of a list of accesses to the accesses. -/
register_simp_attr nomod
