import Lean.Meta.Tactic.Simp.RegisterCommand
/-!
# A set of simp lemmas for running programs
-/

/-- Lemmas that run programs. -/
register_simp_attr text
