import Lean.Meta.Tactic.Simp.RegisterCommand
/-- rules about the spans of a value -/
register_simp_attr al
