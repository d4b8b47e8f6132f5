import Lean.Meta.Tactic.Simp.RegisterCommand
/-!
# Simplification rules for functions that do not look at the output, the input and the debugger
-/

/-- Rules `f (s.seen o i d) … = f s …`. -/
register_simp_attr seen
