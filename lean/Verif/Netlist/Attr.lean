/- The simp set that unfolds netlists. -/
import Lean.Meta.Tactic.Simp.RegisterCommand

/-- Unfolds the definitions generated from the netlists. -/
register_simp_attr netlist
