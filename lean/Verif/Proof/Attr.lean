/-
  The simp set used to execute parsers symbolically.
-/
import Lean.Meta.Tactic.Simp.RegisterCommand

/-- Lemmas that execute a parser on a state with a known prefix of the input. -/
register_simp_attr run
