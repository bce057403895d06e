/-
  Specification: types, variables and functions of a small language, how they are mangled and how they are
  declared in C++. Self-contained; used to state the round-trip properties.
-/
import Verif.Spec.Shows

namespace Undname.Spec

/-- A type: a fundamental type or a class/struct/union/enum, with `const`/`volatile`, or a pointer or
reference to a type (only a pointer itself can be `const`/`volatile`). -/
inductive Ty where
  | prim (k : PrimitiveKind) (c v : Bool)
  | tag (k : TagKind) (path : List Text) (c v : Bool)
  | ptr (c v : Bool) (to : Ty)
  | ref (to : Ty)
  | rref (to : Ty)

namespace Ty

/-- `const` and `volatile`, each after a blank. -/
def cvAfter (c v : Bool) : Text := (if c then c!" const" else []) ++ (if v then c!" volatile" else [])

/-- `const`, `volatile` or `const volatile`. -/
def cvWords (c v : Bool) : Text :=
  if c then (if v then c!"const volatile" else c!"const") else (if v then c!"volatile" else [])

/-- The letter for the qualifiers of what a pointer points to. -/
def cvLetter (c v : Bool) : Char := if c then (if v then 'D' else 'B') else (if v then 'C' else 'A')

/-- The letter for the qualifiers of a pointer itself. -/
def ptrLetter (c v : Bool) : Char := if c then (if v then 'S' else 'Q') else (if v then 'R' else 'P')

/-- The qualifier letter of a type. -/
def letter : Ty → Char
  | .prim _ c v | .tag _ _ c v => cvLetter c v
  | .ptr .. | .ref _ | .rref _ => 'A'

/-- `E` on 64-bit targets. -/
def wide (b : Bool) : Text := if b then c!"E" else []

/-- The mangled type, without the qualifiers of a non-pointer (these are written by the context). With
`w`, as on 64-bit targets. -/
def mangle (w : Bool) : Ty → Text
  | .prim k _ _ => primCode k
  | .tag k p _ _ => tagCode k ++ manglePath p
  | .ptr c v to => ptrLetter c v :: wide w ++ letter to :: mangle w to
  | .ref to => c!"A" ++ wide w ++ letter to :: mangle w to
  | .rref to => c!"$$Q" ++ wide w ++ letter to :: mangle w to

/-- The C++ type, except that a blank is missing between a word and a following `*` or name. -/
def cpp (E : Env) : Ty → Text
  | .prim k c v => primName k ++ cvAfter c v
  | .tag k p c v => tagName k ++ c!" " ++ showPath p ++ cvAfter c v
  | .ptr c v to => sp E (cpp E to) ++ c!"*" ++ cvWords c v
  | .ref to => sp E (cpp E to) ++ c!"&"
  | .rref to => sp E (cpp E to) ++ c!"&&"

/-- The class, struct, union and enum names are paths. -/
def Ok : Ty → Prop
  | .prim .. => True
  | .tag _ p _ _ => IsPath p
  | .ptr _ _ to | .ref to | .rref to => to.Ok

instance decOk : (t : Ty) → Decidable t.Ok
  | .prim .. => .isTrue trivial
  | .tag _ p _ _ => inferInstanceAs (Decidable (IsPath p))
  | .ptr _ _ to => decOk to
  | .ref to => decOk to
  | .rref to => decOk to

/-- The qualifier suffix of a variable: those of the type, or of what the pointer points to. -/
def suffix (w : Bool) : Ty → Text
  | .prim _ c v | .tag _ _ c v => [cvLetter c v]
  | .ptr _ _ to | .ref to | .rref to => wide w ++ [letter to]

end Ty

/-- A global variable. -/
def mangleVar (w : Bool) (name : List Text) (t : Ty) : Text :=
  c!"?" ++ manglePath name ++ c!"3" ++ t.mangle w ++ t.suffix w

/-- Its declaration. -/
def declareVar (E : Env) (name : List Text) (t : Ty) : Text := sp E (t.cpp E) ++ showPath name

-- `const char *const volatile N::x`, for 64 bits
example : mangleVar true [c!"x", c!"N"] (.ptr true true (.prim .Char true false)) = c!"?x@N@@3SEBDEB" := by decide

/-! ### Functions -/

/-- Calling conventions that are one word. -/
def convWord : Char → Option Text
  | 'A' | 'B' => some c!"__cdecl"
  | 'C' | 'D' => some c!"__pascal"
  | 'E' | 'F' => some c!"__thiscall"
  | 'G' | 'H' => some c!"__stdcall"
  | 'I' | 'J' => some c!"__fastcall"
  | 'M' | 'N' => some c!"__clrcall"
  | 'O' | 'P' => some c!"__eabi"
  | 'Q' => some c!"__vectorcall"
  | _ => none

/-- A function: calling convention, return type (none for constructors and destructors), parameters; is it
variadic, is it `noexcept`? -/
structure Fn where
  cc : Char
  ret : Option Ty
  params : List Ty
  variadic : Bool := false
  noexc : Bool := false

namespace Fn

/-- A return type: with `?` and a letter if it is qualified (a pointer is never). -/
def mangleRet (w : Bool) : Option Ty → Text
  | none => c!"@"
  | some (.prim k c v) => if c || v then '?' :: Ty.cvLetter c v :: primCode k else primCode k
  | some (.tag k p c v) => '?' :: Ty.cvLetter c v :: (Ty.tag k p c v).mangle w
  | some t => t.mangle w

/-- The parameter list: `X` if there are none, else the types and an end mark. -/
def mangleParams (w : Bool) (f : Fn) : Text :=
  if f.params.isEmpty && !f.variadic then c!"X"
  else f.params.flatMap (Ty.mangle w) ++ (if f.variadic then c!"Z" else c!"@")

/-- The mangled signature. -/
def mangle (w : Bool) (f : Fn) : Text :=
  f.cc :: mangleRet w f.ret ++ mangleParams w f ++ (if f.noexc then c!"_E" else c!"Z")

/-- `(int, char *, ...)`. -/
def cppParams (E : Env) (f : Fn) : Text :=
  c!"(" ++ (if f.params.isEmpty then (if f.variadic then c!"..." else c!"void")
    else join c!", " (f.params.map (Ty.cpp E)) ++ (if f.variadic then c!", ..." else [])) ++ c!")"

/-- The parameter types are well-formed and, unless they are pointers, unqualified (qualifiers of parameters
are not part of the type of a function); none is `void`. -/
def IsParam : Ty → Prop
  | .prim k c v => k ≠ .Void ∧ c = false ∧ v = false
  | .tag _ p c v => IsPath p ∧ c = false ∧ v = false
  | t => t.Ok

instance : DecidablePred IsParam := fun t => by
  cases t <;> unfold IsParam <;> infer_instance

structure Ok (f : Fn) : Prop where
  ret : ∀ t, f.ret = some t → t.Ok
  params : ∀ t ∈ f.params, IsParam t

end Fn

end Undname.Spec

namespace Undname.Spec

/-- A global function (or a member of a namespace). -/
def mangleFn (w : Bool) (name : List Text) (f : Fn) : Text :=
  c!"?" ++ manglePath name ++ c!"Y" ++ f.mangle w

/-- The return type and a blank. -/
def Fn.cppRet (E : Env) (f : Fn) : Text :=
  match f.ret with
  | some t => t.cpp E ++ c!" "
  | none => []

/-- Its declaration. -/
def declareFn (E : Env) (conv : Text) (name : List Text) (f : Fn) : Text :=
  f.cppRet E ++ conv ++ c!" " ++ showPath name ++ f.cppParams E ++ (if f.noexc then c!" noexcept" else [])

/-- Member functions: the letter, what it says, and whether there is a `this` object. -/
def memberCodes : List (Char × Text × Bool) :=
  [('A', c!"private: ", true), ('C', c!"private: static ", false), ('E', c!"private: virtual ", true),
   ('I', c!"protected: ", true), ('K', c!"protected: static ", false), ('M', c!"protected: virtual ", true),
   ('Q', c!"public: ", true), ('S', c!"public: static ", false), ('U', c!"public: virtual ", true)]

/-- A member function; `c` and `v` are the qualifiers of `this`. -/
def mangleMember (w : Bool) (name : List Text) (code : Char) (this c v : Bool) (f : Fn) : Text :=
  c!"?" ++ manglePath name ++ [code] ++ (if this then Ty.wide w ++ [Ty.cvLetter c v] else []) ++ f.mangle w

/-- Its declaration. -/
def declareMember (E : Env) (what conv : Text) (name : List Text) (this c v : Bool) (f : Fn) : Text :=
  what ++ f.cppRet E ++ conv ++ c!" " ++ showPath name ++ f.cppParams E ++
    (if this then Ty.cvAfter c v else []) ++ (if f.noexc then c!" noexcept" else [])

end Undname.Spec
