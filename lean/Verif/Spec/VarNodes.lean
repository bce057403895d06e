/-
  Specification: how many nodes a variable costs, in closed form.
-/
import Verif.Spec.Decl
import Verif.Spec.Nodes

namespace Undname.Spec

namespace Ty

/-- The names of the class, struct, union or enum of a type. -/
def names : Ty → List Text
  | .prim .. => []
  | .tag _ p _ _ => p
  | .ptr _ _ to | .ref to | .rref to => to.names

/-- Is there one? -/
def paths : Ty → Nat
  | .prim .. => 0
  | .tag .. => 1
  | .ptr _ _ to | .ref to | .rref to => to.paths

/-- The pointers and references, and what they finally point to. -/
def layers : Ty → Nat
  | .prim .. | .tag .. => 1
  | .ptr _ _ to | .ref to | .rref to => to.layers + 1

end Ty

/-- The number of different names in a list. -/
def distinct (l : List Text) : Nat := l.eraseDups.length

/-- The nodes of a variable: one for every name, one for each of the first ten different names, two for every
qualified name, one for every layer of the type, and one for the variable. -/
def varNodes (name : List Text) (t : Ty) : Nat :=
  (name ++ t.names).length + min 10 (distinct (name ++ t.names)) + 2 * (1 + t.paths) + t.layers + 1

-- `int x`, and `N::C *N::C::x`
example : varNodes [c!"x"] (.prim .Int false false) = 6 := by decide +kernel
example : varNodes [c!"x", c!"C", c!"N"] (.ptr false false (.tag .Class [c!"C", c!"N"] false false)) = 15 := by decide +kernel

end Undname.Spec
