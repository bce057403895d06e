/-
  Properly nested brackets (C30): a small specification that does not mention the model.
-/
import Verif.Model.Basic

namespace Undname.Spec

/-- Texts whose brackets are properly nested: between an opening bracket and the closing bracket of its kind
stands a text whose brackets are properly nested. -/
inductive Nested (pairs : List (Char × Char)) : Text → Prop
  | nil : Nested pairs []
  | other {c t} : (∀ p ∈ pairs, c ≠ p.1 ∧ c ≠ p.2) → Nested pairs t → Nested pairs (c :: t)
  | pair {o c a b} : (o, c) ∈ pairs → Nested pairs a → Nested pairs b → Nested pairs (o :: a ++ c :: b)

/-- Parentheses, square brackets and braces. -/
def hard : List (Char × Char) := [('(', ')'), ('[', ']'), ('{', '}')]

/-- With angle brackets. -/
def soft : List (Char × Char) := ('<', '>') :: hard

/-- The operator codes whose text contains `<` or `>`: `>>`, `<<`, `->`, `->*`, `<`, `<=`, `>`, `>=`, `>>=`, `<<=`
and `<=>`. -/
def angleCodes : List Text := [c!"5", c!"6", c!"C", c!"J", c!"M", c!"N", c!"O", c!"P", c!"_2", c!"_3", c!"__M"]

end Undname.Spec
