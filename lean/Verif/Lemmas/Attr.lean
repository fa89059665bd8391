import Lean.Meta.Tactic.Simp.RegisterCommand

/-- Rewriting rules that run machine code (`M`). -/
register_simp_attr mrun
