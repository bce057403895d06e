/-
  Specification: the symbols of `Spec/MangledSym.lean` whose text is unambiguous. As in `Spec/Plain.lean`, what the
  text does not show is fixed. Nothing here refers to the demangler.
-/
import Verif.Spec.Plain
import Verif.Spec.MangledSym

namespace Undname.Spec.Cxx

section
variable (key : Text)

/-- Guards: the text does not show whether they are visible, nor the number 0. -/
def Sym.plain : Sym → Bool
  | .decl d => d.plain key
  | .table _ cls _ _ target => cls.plain key && target.plain key
  | .baseDescriptor _ _ _ _ cls | .baseArray cls | .hierarchy cls => cls.plain key
  | .vcall cls _ cc => convLetters.contains cc && cls.plain key
  | .guard _ visible scope n => visible && decide (n ≠ 0) && scope.plain key
  | .initVar _ st name scope ty _ s => (Decl.var st name scope ty).plain key && s.plain key
  | .initName _ name scope _ s => ident name && scope.plain key && s.plain key

def EndSym.plain : EndSym → Bool
  | .typeDescriptor t | .typeName t => t.plain key
  | .guard _ visible scope => visible && scope.plain key

end

end Undname.Spec.Cxx
