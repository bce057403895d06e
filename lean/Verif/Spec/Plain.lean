/-
  Specification: declarations whose C++ text is unambiguous. Every identifier is an identifier of C++ (not a
  keyword), all anonymous namespaces are that of one translation unit, and what the text does not show is fixed:
  whether a function is exported (the second letter of each calling convention), empty packs, the mark of
  variables in functions. A conversion is one of a class, and not to a pointer to
  a function or array (C++ has no syntax for those but through a `typedef`). Nothing here refers to the demangler.
-/
import Verif.Spec.Mangler

namespace Undname.Spec.Cxx

/-- A character of identifiers. -/
def idc (c : Char) : Bool := c.isAlphanum || c == '_' || c == '$' || decide (128 ≤ c.toNat)

/-- The keywords (and `nullptr_t`) that occur in declarations. -/
def reserved : List Text :=
  [c!"void", c!"bool", c!"char", c!"signed", c!"unsigned", c!"char8_t", c!"char16_t", c!"char32_t", c!"short", c!"int",
   c!"long", c!"__int64", c!"wchar_t", c!"float", c!"double", c!"nullptr_t", c!"auto", c!"decltype",
   c!"class", c!"struct", c!"union", c!"enum", c!"const", c!"volatile", c!"__restrict", c!"__unaligned", c!"noexcept",
   c!"private", c!"protected", c!"public", c!"static", c!"virtual", c!"extern", c!"operator",
   c!"__cdecl", c!"__pascal", c!"__thiscall", c!"__stdcall", c!"__fastcall", c!"__clrcall", c!"__eabi", c!"__vectorcall"]

/-- An identifier. -/
def ident (s : Text) : Bool :=
  !s.isEmpty && s.all idc && (s.head?.all fun c => !c.isDigit) && !reserved.contains s

/-- It ends in a letter or digit. -/
def endsWell (s : Text) : Bool := s.getLast?.any fun c => decide (c.toNat < 128) && c.isAlphanum

def PK.isRef : PK → Bool
  | .star .. => false
  | _ => true

/-- A reference. -/
def Ty.isRef : Ty → Bool
  | .ptr k .. | .fptr k .. | .aptr k .. | .mptr k .. | .mfptr k .. => k.isRef
  | _ => false

/-- A fundamental type or a class. -/
def Ty.isBase : Ty → Bool
  | .prim .. | .tag .. => true
  | _ => false

/-- Neither `const` nor `volatile`, if it is a fundamental type or a class. -/
def Ty.bare : Ty → Bool
  | .prim _ c v | .tag _ _ c v => !c && !v
  | _ => true

/-- Nothing of the type is written after the name of what has it: no pointer to a function or array. -/
def Ty.noRight : Ty → Bool
  | .prim .. | .tag .. => true
  | .ptr _ _ to | .mptr _ _ _ to => to.noRight
  | .fptr .. | .aptr .. | .mfptr .. => false

/-- The result type. -/
def Sig.res : Sig → Ty
  | .mk _ ret _ _ _ => ret

def isVoid : Ty → Bool
  | .prim .Void false false => true
  | _ => false

/-- The name of a class: a template instantiation, or an identifier that ends in a letter or digit. -/
def Path.className : Path → Bool
  | .cons (.id s) _ => endsWell s
  | .cons (.tm ..) _ => true
  | _ => false

def Path.isNil : Path → Bool
  | .nil => true
  | _ => false

/-- An identifier or a template instantiation: the name of a variable is no operator. -/
def Head.isName : Head → Bool
  | .id _ | .tm .. => true
  | _ => false

/-- No template arguments. -/
def Targs.isNone : Targs → Bool
  | .none => true
  | .some _ => false

/-- An identifier or a template instantiation. -/
def Seg.isNamed : Seg → Bool
  | .id _ | .tm .. => true
  | _ => false

/-- The letters of the calling conventions, for functions that are not exported. -/
def convLetters : List Char := ['A', 'C', 'E', 'G', 'I', 'M', 'O', 'Q']

section
variable (key : Text)

mutual
/-- There are no pointers or references to references. The qualifiers of elements of arrays are only written down
apart from the type of the elements if that is a class or a fundamental type. -/
def Ty.plain : Ty → Bool
  | .prim .. => true
  | .tag _ p _ _ => p.className && p.plain
  | .ptr _ _ to => !to.isRef && to.plain
  | .fptr _ s => s.plain
  | .aptr _ c v dims el => (el.isBase || (!c && !v)) && el.bare && !el.isRef && !dims.isEmpty && el.plain
  | .mptr k _ cls to => !k.isRef && !cls.isNil && cls.plain && !to.isRef && to.plain
  | .mfptr k cls _ s => !k.isRef && !cls.isNil && cls.plain && s.plain
def Sig.plain : Sig → Bool
  | .mk cc ret ps _ _ => convLetters.contains cc && ret.plain && ps.plain
/-- No parameter has type `void`. -/
def Tys.plain : Tys → Bool
  | .nil => true
  | .cons t ts => !isVoid t && t.plain && ts.plain
def Path.plain : Path → Bool
  | .nil => true
  | .cons s p => s.plain && p.plain
def Seg.plain : Seg → Bool
  | .id s => ident s
  | .tm s as => ident s && as.plain
  | .anon k => k == key
  | .loc _ d => d.plain
/-- A function type without qualifiers is `fn`, not `mfn`. -/
def Args.plain : Args → Bool
  | .nil => true
  | .ty t as => t.plain && as.plain
  | .int _ _ as => as.plain
  | .pack _ => false
  | .fn s as => s.plain && as.plain
  | .mfn q s as => decide (q ≠ {}) && s.plain && as.plain
  | .arr c v dims el as => (el.isBase || (!c && !v)) && el.bare && !el.isRef && !dims.isEmpty && el.plain && as.plain
  | .tmpl p as => !p.isNil && p.plain && as.plain
  | .addr d as => d.plain && as.plain
  | .ref d as => d.plain && as.plain
  | .memFn d offs as => !offs.isEmpty && d.plain && as.plain
  | .memData offs as => !offs.isEmpty && as.plain
def Targs.plain : Targs → Bool
  | .none => true
  | .some as => as.plain
def Head.plain : Head → Bool
  | .id s => ident s
  | .tm s as => ident s && as.plain
  | .op o ta => !(opName o).isEmpty && ta.plain
  | .lit s => !s.isEmpty && s.all idc
def Decl.plain : Decl → Bool
  | .var st name scope ty => decide (st ≠ .localStatic) && name.isName && name.plain && scope.plain && ty.plain
  | .fn _ name scope s => name.plain && scope.plain && s.plain
  | .structor _ targs _ s scope cc ps _ _ => targs.plain && (targs.isNone || s.isNamed) && s.plain && scope.plain && convLetters.contains cc && ps.plain
  | .conv targs _ cls s => targs.plain && !cls.isNil && s.res.noRight && cls.plain && s.plain
end

end

end Undname.Spec.Cxx
