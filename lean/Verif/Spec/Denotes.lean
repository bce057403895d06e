/-
  Specification: which declaration a mangled name denotes.
-/
import Verif.Spec.Grammar

namespace Undname.Spec

/-- The name `m` denotes the declaration `t`: it begins with a symbol of the grammar, or it is (as a whole) one of the
symbols that must end with the input, or it begins with a hashed name that is not followed by the marker of a
locator. -/
def Denotes (E : Env) (m : Text) (t : T) : Prop :=
  (∃ x rest tb', m = x ++ rest ∧ Gram E .sym {} t x tb') ∨
  (∃ tb', Gram E .symEnd {} t m tb') ∨
  (∃ u rest, m = hashed u ++ rest ∧ '@' ∉ u ∧ ¬ locator <+: rest ∧ t = hashT (hashed u))

end Undname.Spec
