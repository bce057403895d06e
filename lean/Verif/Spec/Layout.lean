/-
  Specification: texts with tidy blanks, and the identifiers that occur in declarations.
-/
import Verif.Spec.MangledSym

namespace Undname.Spec

/-- No blank stands before these. -/
def noBlankBefore : List Char := [' ', ')', ']', '>', '}', ',', ':']
/-- No blank stands after these. -/
def noBlankAfter : List Char := [' ', '(', '[', '<', '{', '`']

/-- No blank at either end, no two blanks in a row, no blank after an opening or before a closing bracket or before a
comma or colon. -/
structure Tidy (t : Text) : Prop where
  first : t.head? ≠ some ' '
  last : t.getLast? ≠ some ' '
  before : ∀ c ∈ noBlankBefore, ¬ [' ', c] <:+: t
  after : ∀ c ∈ noBlankAfter, ¬ [c, ' '] <:+: t

/-- Identifiers without blanks that do not begin with a closing or end with an opening bracket (they may be unusual
otherwise, such as `<lambda_1>`). -/
def TidyId (s : Text) : Prop :=
  ' ' ∉ s ∧ (∀ c ∈ noBlankBefore, s.head? ≠ some c) ∧ ∀ c ∈ noBlankAfter, s.getLast? ≠ some c

namespace Cxx

/-! ### The identifiers of a declaration -/

mutual
def Ty.idents : Ty → List Text
  | .prim .. => []
  | .tag _ p _ _ => p.idents
  | .ptr _ _ to => to.idents
  | .fptr _ s => s.idents
  | .aptr _ _ _ _ el => el.idents
  | .mptr _ _ cls to => cls.idents ++ to.idents
  | .mfptr _ cls _ s => cls.idents ++ s.idents
def Sig.idents : Sig → List Text
  | .mk _ ret ps _ _ => ret.idents ++ ps.idents
def Tys.idents : Tys → List Text
  | .nil => []
  | .cons t ts => t.idents ++ ts.idents
def Path.idents : Path → List Text
  | .nil => []
  | .cons s p => s.idents ++ p.idents
def Seg.idents : Seg → List Text
  | .id s => [s]
  | .tm s as => s :: as.idents
  | .anon _ => []
  | .loc _ d => d.idents
def Args.idents : Args → List Text
  | .nil => []
  | .ty t as => t.idents ++ as.idents
  | .int _ _ as => as.idents
  | .pack as => as.idents
  | .fn s as => s.idents ++ as.idents
  | .mfn _ s as => s.idents ++ as.idents
  | .arr _ _ _ el as => el.idents ++ as.idents
  | .tmpl p as => p.idents ++ as.idents
  | .addr d as => d.idents ++ as.idents
  | .ref d as => d.idents ++ as.idents
  | .memFn d _ as => d.idents ++ as.idents
  | .memData _ as => as.idents
def Targs.idents : Targs → List Text
  | .none => []
  | .some as => as.idents
def Head.idents : Head → List Text
  | .id s => [s]
  | .tm s as => s :: as.idents
  | .op _ ta => ta.idents
  | .lit s => [s]
def Decl.idents : Decl → List Text
  | .var _ name scope ty => name.idents ++ scope.idents ++ ty.idents
  | .fn _ name scope s => name.idents ++ scope.idents ++ s.idents
  | .structor _ targs _ s scope _ ps _ _ => targs.idents ++ s.idents ++ scope.idents ++ ps.idents
  | .conv targs _ cls s => targs.idents ++ cls.idents ++ s.idents
end

def Sym.idents : Sym → List Text
  | .decl d => d.idents
  | .table _ cls _ _ target => cls.idents ++ target.idents
  | .baseDescriptor _ _ _ _ cls | .baseArray cls | .hierarchy cls | .vcall cls _ _ => cls.idents
  | .guard _ _ scope _ => scope.idents
  | .initVar _ st name scope ty _ s => (Decl.var st name scope ty).idents ++ s.idents
  | .initName _ name scope k s => (Decl.fn k (.id name) scope s).idents

def EndSym.idents : EndSym → List Text
  | .typeDescriptor t | .typeName t => t.idents
  | .guard _ _ scope => scope.idents

end Cxx
end Undname.Spec
