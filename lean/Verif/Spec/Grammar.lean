/-
  Specification: the grammar of mangled names, as inference rules relating a text to the declaration it
  denotes. Nothing here refers to the parser of the model.

  `Gram E cat tb t x tb'`: with the back-reference tables `tb`, the text `x` is a phrase of category `cat`,
  denotes the tree `t`, and leaves the tables `tb'`. The flags `E` matter only because a template
  instantiation is memorized by its printed text.
-/
import Verif.Spec.Tree
import Verif.Spec.Numbers
import Verif.Spec.Strings

namespace Undname.Spec

/-! ### Code tables -/

/-- Qualifier letters. -/
def cvCodes : List (Char × CV) :=
  [('A', {}), ('B', { c := true }), ('C', { v := true }), ('D', { c := true, v := true })]

/-- Qualifier letters of class members. -/
def memberCvCodes : List (Char × CV) :=
  [('Q', {}), ('R', { c := true }), ('S', { v := true }), ('T', { c := true, v := true })]

/-- `E` (64-bit), `I` (`__restrict`), `F` (`__unaligned`), in this order. -/
structure Ext where
  e : Bool := false
  i : Bool := false
  f : Bool := false

def Ext.code (x : Ext) : Text :=
  (if x.e then c!"E" else []) ++ (if x.i then c!"I" else []) ++ (if x.f then c!"F" else [])

def Ext.cv (x : Ext) : CV := { r := x.i, u := x.f }

/-- Pointers. -/
def ptrCodes : List (Text × CV) :=
  [(c!"P", {}), (c!"Q", { c := true }), (c!"R", { v := true }), (c!"S", { c := true, v := true })]

/-- Pointers and references. -/
def refCodes : List (Text × CV × PointerAffinity) :=
  [(c!"P", {}, .Pointer), (c!"Q", { c := true }, .Pointer), (c!"R", { v := true }, .Pointer),
   (c!"S", { c := true, v := true }, .Pointer), (c!"A", {}, .Reference), (c!"$$Q", {}, .RValueReference)]

def primCode : PrimitiveKind → Text
  | .Void => c!"X" | .Bool => c!"_N" | .Char => c!"D" | .Schar => c!"C" | .Uchar => c!"E" | .Char8 => c!"_Q"
  | .Char16 => c!"_S" | .Char32 => c!"_U" | .Short => c!"F" | .Ushort => c!"G" | .Int => c!"H"
  | .Uint => c!"I" | .Long => c!"J" | .Ulong => c!"K" | .Int64 => c!"_J" | .Uint64 => c!"_K"
  | .Wchar => c!"_W" | .Float => c!"M" | .Double => c!"N" | .Ldouble => c!"O" | .Nullptr => c!"$$T"
  | .Auto => c!"_P" | .DecltypeAuto => c!"_T"

def tagCode : TagKind → Text
  | .Union => c!"T" | .Struct => c!"U" | .Class => c!"V" | .Enum => c!"W4"

/-- Calling conventions; any other letter means none. -/
def convCodes : List (Char × CallingConv) :=
  [('A', .Cdecl), ('B', .Cdecl), ('C', .Pascal), ('D', .Pascal), ('E', .Thiscall), ('F', .Thiscall),
   ('G', .Stdcall), ('H', .Stdcall), ('I', .Fastcall), ('J', .Fastcall), ('M', .Clrcall), ('N', .Clrcall),
   ('O', .Eabi), ('P', .Eabi), ('Q', .Vectorcall), ('S', .Swift), ('W', .SwiftAsync)]

def convOf (c : Char) : Option CallingConv := convCodes.lookup c

def refCode : Option FunctionRefQualifier → Text
  | none => [] | some .Reference => c!"G" | some .RValueReference => c!"H"

def throwCode (noexc : Bool) : Text := if noexc then c!"_E" else c!"Z"

/-- Operators: the codes after `?`. -/
def basicOps : List (Char × IFK) :=
  [('2', .New), ('3', .Delete), ('4', .Assign), ('5', .RightShift), ('6', .LeftShift), ('7', .LogicalNot),
   ('8', .Equals), ('9', .NotEquals), ('A', .ArraySubscript), ('C', .Pointer), ('D', .Dereference),
   ('E', .Increment), ('F', .Decrement), ('G', .Minus), ('H', .Plus), ('I', .BitwiseAnd),
   ('J', .MemberPointer), ('K', .Divide), ('L', .Modulus), ('M', .LessThan), ('N', .LessThanEqual),
   ('O', .GreaterThan), ('P', .GreaterThanEqual), ('Q', .Comma), ('R', .Parens), ('S', .BitwiseNot),
   ('T', .BitwiseXor), ('U', .BitwiseOr), ('V', .LogicalAnd), ('W', .LogicalOr), ('X', .TimesEqual),
   ('Y', .PlusEqual), ('Z', .MinusEqual)]

/-- The codes after `?_`. -/
def underOps : List (Char × IFK) :=
  [('0', .DivEqual), ('1', .ModEqual), ('2', .RshEqual), ('3', .LshEqual), ('4', .BitwiseAndEqual),
   ('5', .BitwiseOrEqual), ('6', .BitwiseXorEqual), ('D', .VbaseDtor), ('E', .VecDelDtor),
   ('F', .DefaultCtorClosure), ('G', .ScalarDelDtor), ('H', .VecCtorIter), ('I', .VecDtorIter),
   ('J', .VecVbaseCtorIter), ('K', .VdispMap), ('L', .EHVecCtorIter), ('M', .EHVecDtorIter),
   ('N', .EHVecVbaseCtorIter), ('O', .CopyCtorClosure), ('T', .LocalVftableCtorClosure), ('U', .ArrayNew),
   ('V', .ArrayDelete)]

/-- The codes after `?__`. -/
def dunderOps : List (Char × IFK) :=
  [('A', .ManVectorCtorIter), ('B', .ManVectorDtorIter), ('C', .EHVectorCopyCtorIter),
   ('D', .EHVectorVbaseCopyCtorIter), ('G', .VectorCopyCtorIter), ('H', .VectorVbaseCopyCtorIter),
   ('I', .ManVectorVbaseCopyCtorIter), ('L', .CoAwait), ('M', .Spaceship)]

/-- Codes after `?_` and `?__` that are read as operators without a name. -/
def underNone : List Char := c!"789ABCPQRSWXYZ"
def dunderNone : List Char := c!"0123456789EFJNOPQRSTUVWXYZ"

/-- Which numbers follow the class of a function. -/
inductive AdjKind where
  | none | static | disp | dispex
  deriving DecidableEq, Repr

/-- Function classes. The near and far variants do not differ. -/
def classCodes : List (Text × FnKind × AdjKind) :=
  [(c!"A", { access := some .priv }, .none), (c!"B", { access := some .priv }, .none),
   (c!"C", { access := some .priv, isStatic := true }, .none), (c!"D", { access := some .priv, isStatic := true }, .none),
   (c!"E", { access := some .priv, isVirtual := true }, .none), (c!"F", { access := some .priv, isVirtual := true }, .none),
   (c!"G", { access := some .priv }, .static), (c!"H", { access := some .priv }, .static),
   (c!"I", { access := some .prot }, .none), (c!"J", { access := some .prot }, .none),
   (c!"K", { access := some .prot, isStatic := true }, .none), (c!"L", { access := some .prot, isStatic := true }, .none),
   (c!"M", { access := some .prot, isVirtual := true }, .none), (c!"N", { access := some .prot, isVirtual := true }, .none),
   (c!"O", { access := some .prot, isVirtual := true }, .static), (c!"P", { access := some .prot, isVirtual := true }, .static),
   (c!"Q", { access := some .publ }, .none), (c!"R", { access := some .publ }, .none),
   (c!"S", { access := some .publ, isStatic := true }, .none), (c!"T", { access := some .publ, isStatic := true }, .none),
   (c!"U", { access := some .publ, isVirtual := true }, .none), (c!"V", { access := some .publ, isVirtual := true }, .none),
   (c!"W", { access := some .publ, isVirtual := true }, .static), (c!"X", { access := some .publ, isVirtual := true }, .static),
   (c!"Y", {}, .none), (c!"Z", {}, .none),
   (c!"$0", { access := some .priv, isVirtual := true }, .disp), (c!"$1", { access := some .priv, isVirtual := true }, .disp),
   (c!"$2", { access := some .prot, isVirtual := true }, .disp), (c!"$3", { access := some .prot, isVirtual := true }, .disp),
   (c!"$4", { access := some .publ, isVirtual := true }, .disp), (c!"$5", { access := some .publ, isVirtual := true }, .disp),
   (c!"$R0", { access := some .priv, isVirtual := true }, .dispex), (c!"$R1", { access := some .priv, isVirtual := true }, .dispex),
   (c!"$R2", { access := some .prot, isVirtual := true }, .dispex), (c!"$R3", { access := some .prot, isVirtual := true }, .dispex),
   (c!"$R4", { access := some .publ, isVirtual := true }, .dispex), (c!"$R5", { access := some .publ, isVirtual := true }, .dispex)]

/-- A function has a `this` object if it is a non-static member. -/
def FnKind.hasThis (k : FnKind) : Bool := k.access.isSome && !k.isStatic

def storageCodes : List (Char × StorageClass) :=
  [('0', .PrivateStatic), ('1', .ProtectedStatic), ('2', .PublicStatic), ('3', .Global),
   ('4', .FunctionLocalStatic)]

/-- Tables of a class: the codes after the first `?`, and the name of the table. -/
def tableCodes : List (Text × Text) :=
  [(c!"?_7", c!"`vftable'"), (c!"?_8", c!"`vbtable'"), (c!"?_S", c!"`local vftable'"),
   (c!"?_R4", c!"`RTTI Complete Object Locator'")]

/-- Other data of a class. -/
def untypedCodes : List (Text × Text) :=
  [(c!"?_R2", c!"`RTTI Base Class Array'"), (c!"?_R3", c!"`RTTI Class Hierarchy Descriptor'")]

/-! ### Numbers -/

/-- A signed 64-bit number. -/
inductive EncSigned : List Char → Int → Prop where
  | mk {x : List Char} {n : Nat} {neg : Bool} (h : EncInt x n neg) (hn : n < 2 ^ 63) :
      EncSigned x (if neg then -(n : Int) else n)

/-- Offsets are truncated to 32 bits, unsigned or signed. -/
def low32u (i : Int) : Nat := (i % 2 ^ 32).toNat
def low32s (i : Int) : Int := (i + 2 ^ 31) % 2 ^ 32 - 2 ^ 31

/-- The numbers after the class of a function. -/
inductive EncAdjust : AdjKind → List Char → Adjust → Prop where
  | none : EncAdjust .none [] .none
  | static {x i} : EncSigned x i → EncAdjust .static x (.adjustor (low32u i))
  | disp {x y d i} : EncSigned x d → EncSigned y i → EncAdjust .disp (x ++ y) (.vtordisp (low32s d) (low32u i))
  | dispex {x y z u a b d i} : EncSigned x a → EncSigned y b → EncSigned z d → EncSigned u i →
      EncAdjust .dispex (x ++ y ++ z ++ u) (.vtordispex (low32s a) (low32s b) (low32s d) (low32u i))

/-- A list of array bounds. -/
inductive EncDims : List Char → List Nat → Prop where
  | nil : EncDims [] []
  | cons {x y n ns} : EncNat x n → EncDims y ns → EncDims (x ++ y) (n :: ns)

/-- A list of signed numbers. -/
inductive EncInts : List Char → List Int → Prop where
  | nil : EncInts [] []
  | cons {x y i is} : EncSigned x i → EncInts y is → EncInts (x ++ y) (i :: is)

/-- The number of a local scope: a digit, `@` for 0, or hexadecimal digits without a leading zero. -/
inductive EncScope : List Char → Nat → Prop where
  | digit (d : Nat) (h : d < 10) : EncScope [Char.ofNat ('0'.toNat + d)] (d + 1)
  | zero : EncScope c!"@" 0
  | hex (c : Char) (ds : List Char) (hc : IsHex c) (h0 : c ≠ 'A') (h : ∀ x ∈ ds, IsHex x) :
      EncScope (c :: ds ++ c!"@") (hexValue (c :: ds) % 2 ^ 64)

/-! ### Trees -/

namespace T

/-- Appends to a list. -/
def snoc : T → T → T
  | .cons a as, x => .cons a (snoc as x)
  | _, x => .cons x .nil

/-- A list with one element. -/
def one (t : T) : T := .cons t .nil

/-- Adds qualifiers to a type. -/
def addQ (q : CV) : T → T
  | .prim q' k => .prim (q'.or q) k
  | .tag q' k n => .tag (q'.or q) k n
  | .ptr q' a c t => .ptr (q'.or q) a c t
  | .array q' d e => .array (q'.or q) d e
  | .sig f r p => .sig { f with cv := f.cv.or q } r p
  | .thunk f a r p => .thunk { f with cv := f.cv.or q } a r p
  | t => t

/-- Replaces the qualifiers of a type. -/
def setQ (q : CV) : T → T
  | .prim _ k => .prim q k
  | .tag _ k n => .tag q k n
  | .ptr _ a c t => .ptr q a c t
  | .array _ d e => .array q d e
  | .sig f r p => .sig { f with cv := q } r p
  | .thunk f a r p => .thunk { f with cv := q } a r p
  | t => t

/-- Gives template arguments to an identifier. -/
def withArgs : T → T → T
  | .named s _, a => .named s (one (arr a))
  | .op o _, a => .op o (one (arr a))
  | .lit s _, a => .lit s (one (arr a))
  | .conv _ t, a => .conv (one (arr a)) t
  | .structor d c _, a => .structor d c (one (arr a))
  | t, _ => t

/-- Identifiers that do not depend on the class or the type of the symbol they name. -/
def isPlain : T → Bool
  | .named .. | .op .. | .lit .. => true
  | _ => false

def isPtr : T → Bool
  | .ptr .. => true
  | _ => false

/-- The last element of a list. -/
def last : T → Option T
  | .cons a .nil => some a
  | .cons _ as => last as
  | _ => none

/-- The name of a symbol. -/
def nameOf : T → Option T
  | .var _ n _ | .fn n _ | .table _ n _ | .same n => some n
  | _ => none

/-- The unqualified name of a symbol. -/
def ident (t : T) : Option T :=
  match t.nameOf with
  | some (.qname items) => items.last
  | _ => none

end T

/-! ### Back-references -/

/-- The tables of names and parameter types seen so far. -/
structure Tbl where
  names : List Text := []
  params : List T := []

namespace Tbl

/-- Names are memorized once; there is room for ten. -/
def note (tb : Tbl) (s : Text) : Tbl :=
  if tb.names.length < 10 ∧ s ∉ tb.names then { tb with names := tb.names ++ [s] } else tb

/-- Parameter types are memorized as long as there is room for them. -/
def noteParam (tb : Tbl) (t : T) : Tbl :=
  if tb.params.length < 10 then { tb with params := tb.params ++ [t] } else tb

end Tbl

/-- The digit of an index. -/
def digit (i : Nat) : Text := [Char.ofNat ('0'.toNat + i)]

/-- A plain name: not empty, without `@`, starting neither with a digit nor with `?`. -/
structure Name (s : Text) : Prop where
  ne : s ≠ []
  at_ : '@' ∉ s
  head : ∀ c, s.head? = some c → c.isDigit = false ∧ c ≠ '?'

instance (s : Text) : Decidable (Name s) :=
  decidable_of_iff (s ≠ [] ∧ '@' ∉ s ∧ ∀ c ∈ s.head?, c.isDigit = false ∧ c ≠ '?')
    ⟨fun h => ⟨h.1, h.2.1, fun c hc => h.2.2 c hc⟩, fun h => ⟨h.ne, h.at_, fun c hc => h.head c hc⟩⟩

/-- Texts that fit into the output buffer. -/
def Fits (s : Text) : Prop := utf8Len s < 2 ^ 20

/-! ### Literals and hashed names -/

/-- The kind of characters of a literal, by their width. -/
def charKind (w : Nat) : CharKind := if w = 2 then .Char16 else if w = 4 then .Char32 else .Char

/-- The characters of a literal of `n` bytes that are shown: not the terminator of a complete literal. -/
def narrowShown (n : Nat) (bytes : List Nat) : List Nat :=
  if bytes.length < n then chars (charWidth n bytes) bytes else (chars (charWidth n bytes) bytes).dropLast

/-- The same for a wide literal; more than 64 bytes are taken for an incomplete literal. -/
def wideShown (n : Nat) (vs : List Nat) : List Nat :=
  if n ≤ 64 ∧ n % 2 = 0 then vs.eraseIdx (n / 2 - 1) else vs

/-- A name replaced by its hash. -/
def hashed (u : Text) : Text := c!"??@" ++ u ++ c!"@"

/-- The marker that may follow it. -/
def locator : Text := c!"??_R4@"

/-- A symbol known only by its hash. -/
def hashT (s : Text) : T := .same (.qname (T.one (.named s .nil)))

/-- The name of a local scope. -/
def localName (E : Env) (s : T) (n : Nat) : Text := c!"`" ++ s.text E ++ c!"'::`" ++ nat n ++ c!"'"

/-! ### Reserved beginnings -/

/-- What follows the first `?` of symbols that are not declarations. -/
def reserved : List Text :=
  [c!"?@", c!"?_7", c!"?_8", c!"?_9", c!"?_A", c!"?_B", c!"?_C", c!"?_P", c!"?_R0", c!"?_R1", c!"?_R2", c!"?_R3",
   c!"?_R4", c!"?_S", c!"?__E", c!"?__F", c!"?__J"]

/-- The text does not begin as one of them. -/
def Free (x : Text) : Prop := ∀ code ∈ reserved, ¬ code <+: x

instance (x : Text) : Decidable (Free x) := inferInstanceAs (Decidable (∀ code ∈ reserved, ¬ code <+: x))

/-! ### Phrases -/

/-- What may follow a phrase that is not complete in itself. -/
inductive Follow where
  /-- no `?` -/
  | noQ
  /-- not the marker of hashed names -/
  | noLocator
  deriving DecidableEq

def Follow.ok : Follow → Text → Prop
  | .noQ, y => y.head? ≠ some '?'
  | .noLocator, y => ¬ locator <+: y

/-- The categories of phrases. -/
inductive Cat where
  /-- a type -/
  | ty
  /-- a type that may be preceded by `?` and qualifiers -/
  | tyR
  /-- an optional return type: a list of length at most one -/
  | ret
  /-- a list of parameters -/
  | plist
  /-- a parameter list with its end; is it variadic? -/
  | params (variadic : Bool)
  /-- a function type; has it a `this` object? -/
  | fty (this : Bool)
  /-- the innermost part of the name of a type -/
  | uname
  /-- an identifier in full -/
  | fid
  /-- a template instantiation -/
  | tmpl
  /-- an enclosing scope -/
  | piece
  /-- the enclosing scopes (outermost first) and their end -/
  | scopes
  /-- the qualified name of a type -/
  | qtn
  /-- template arguments and their end -/
  | targs
  /-- a template argument; after `$M`? -/
  | targ (auto : Bool)
  /-- a template argument that must not be followed by certain texts -/
  | targN (auto : Bool) (f : Follow)
  /-- the unqualified name of a symbol -/
  | sname
  /-- the class and type of a function: a signature -/
  | fenc
  /-- a symbol without the initial `?` -/
  | decl
  /-- a symbol -/
  | sym
  /-- a symbol that ends with the input -/
  | symEnd
  deriving DecidableEq

open Cat in
/-- The grammar. -/
inductive Gram (E : Env) : Cat → Tbl → T → Text → Tbl → Prop where
  -- types
  | prim {tb} (k : PrimitiveKind) : Gram E ty tb (.prim {} k) (primCode k) tb
  | tag {tb n x tb'} (k : TagKind) : Gram E qtn tb n x tb' → Gram E ty tb (.tag {} k n) (tagCode k ++ x) tb'
  | ptr {tb t x tb' code cv a ch q} (e : Ext) : (code, cv, a) ∈ refCodes → (ch, q) ∈ cvCodes →
      Gram E ty tb t x tb' →
      Gram E ty tb (.ptr (cv.or e.cv) a .nil (t.addQ q)) (code ++ e.code ++ ch :: x) tb'
  | ptrRefMember {tb t x tb' code cv a ch q} (e : Ext) : (code, cv, a) ∈ refCodes → a ≠ .Pointer →
      (ch, q) ∈ memberCvCodes → Gram E ty tb t x tb' →
      Gram E ty tb (.ptr (cv.or e.cv) a .nil (t.addQ q)) (code ++ e.code ++ ch :: x) tb'
  | ptrFn {tb t x tb' code cv a} : (code, cv, a) ∈ refCodes → Gram E (fty false) tb t x tb' →
      Gram E ty tb (.ptr cv a .nil t) (code ++ '6' :: x) tb'
  | ptrMember {tb n x tb1 t y tb' code cv ch q} (e : Ext) : (code, cv) ∈ ptrCodes → (ch, q) ∈ memberCvCodes →
      Gram E qtn tb n x tb1 → Gram E ty tb1 t y tb' →
      Gram E ty tb (.ptr (cv.or e.cv) .Pointer n.one (t.setQ q)) (code ++ e.code ++ ch :: x ++ y) tb'
  | ptrMemberFn {tb n x tb1 t y tb' code cv} : (code, cv) ∈ ptrCodes → Gram E qtn tb n x tb1 →
      Gram E (fty true) tb1 t y tb' →
      Gram E ty tb (.ptr cv .Pointer n.one t) (code ++ '8' :: x ++ y) tb'
  | array {tb t z tb' x y dims} : EncNat x dims.length → dims ≠ [] → EncDims y dims →
      Gram E ty tb t z tb' → Gram E ty tb (.array {} dims t) ('Y' :: x ++ y ++ z) tb'
  | arrayQ {tb t z tb' x y dims ch q} : EncNat x dims.length → dims ≠ [] → EncDims y dims →
      (ch, q) ∈ cvCodes → Gram E ty tb t z tb' →
      Gram E ty tb (.array q dims t) ('Y' :: x ++ y ++ c!"$$C" ++ ch :: z) tb'
  | fnType {tb t x tb'} : Gram E (fty false) tb t x tb' → Gram E ty tb t (c!"$$A6" ++ x) tb'
  | fnTypeThis {tb t x tb'} : Gram E (fty true) tb t x tb' → Gram E ty tb t (c!"$$A8@@" ++ x) tb'
  | custom {tb i x tb'} : Gram E uname tb i x tb' → Gram E ty tb (.custom i) ('?' :: x ++ c!"@") tb'
  | customOdd {tb u} : '@' ∉ u → u.head? ≠ some '$' →
      Gram E ty tb (.custom (.named ('?' :: u) .nil)) (c!"??" ++ u ++ c!"@@") (tb.note ('?' :: u))
  | resPlain {tb t x tb'} : Gram E ty tb t x tb' → x.head? ≠ some '?' → Gram E tyR tb t x tb'
  | resQual {tb t x tb' ch q} : (ch, q) ∈ cvCodes ++ memberCvCodes → Gram E ty tb t x tb' →
      Gram E tyR tb (t.addQ q) ('?' :: ch :: x) tb'
  -- function types
  | retNone {tb} : Gram E ret tb .nil c!"@" tb
  | retSome {tb t x tb'} : Gram E tyR tb t x tb' → Gram E ret tb t.one x tb'
  | pNil {tb} : Gram E plist tb .nil [] tb
  | pBack {tb ts x tb' i t} : i < 10 → tb.params[i]? = some t → Gram E plist tb ts x tb' →
      Gram E plist tb (.cons t ts) (digit i ++ x) tb'
  | pLetter {tb t x tb1 ts y tb'} : Gram E ty tb t x tb1 → x.length = 1 → Gram E plist tb1 ts y tb' →
      Gram E plist tb (.cons t ts) (x ++ y) tb'
  | pType {tb t x tb1 ts y tb'} : Gram E ty tb t x tb1 → x.length ≠ 1 →
      Gram E plist (tb1.noteParam t) ts y tb' → Gram E plist tb (.cons t ts) (x ++ y) tb'
  | pVoid {tb} : Gram E (params false) tb .nil c!"X" tb
  | pFixed {tb ts x tb'} : Gram E plist tb ts x tb' → x.head? ≠ some 'X' →
      Gram E (params false) tb (T.one (.arr ts)) (x ++ c!"@") tb'
  | pVariadic {tb ts x tb'} : Gram E plist tb ts x tb' → x.head? ≠ some 'X' →
      Gram E (params true) tb (T.one (.arr ts)) (x ++ c!"Z") tb'
  | fn {tb r x tb1 ps y tb' v} (cc : Char) (noexc : Bool) : Gram E ret tb r x tb1 →
      Gram E (params v) tb1 ps y tb' →
      Gram E (fty false) tb (.sig { conv := convOf cc, variadic := v, isNoexcept := noexc } r ps)
        (cc :: x ++ y ++ throwCode noexc) tb'
  | fnThis {tb r x tb1 ps y tb' v ch q} (e : Ext) (rf : Option FunctionRefQualifier) (cc : Char) (noexc : Bool) :
      (ch, q) ∈ cvCodes ++ memberCvCodes → Gram E ret tb r x tb1 → Gram E (params v) tb1 ps y tb' →
      Gram E (fty true) tb
        (.sig { cv := e.cv.or q, conv := convOf cc, ref := rf, variadic := v, isNoexcept := noexc } r ps)
        (e.code ++ refCode rf ++ ch :: cc :: x ++ y ++ throwCode noexc) tb'
  -- names
  | uBack {tb i s} : i < 10 → tb.names[i]? = some s → Gram E uname tb (.named s .nil) (digit i) tb
  | uName {tb s} : Name s → Gram E uname tb (.named s .nil) (s ++ c!"@") (tb.note s)
  | uTmpl {tb i x tb'} : Gram E tmpl tb i x tb' → i.isPlain = true → Fits (i.text E) →
      Gram E uname tb i x (tb'.note (i.text E))
  | fName {tb s} : Name s → Gram E fid tb (.named s .nil) (s ++ c!"@") (tb.note s)
  | fOp {tb c k} : (c, k) ∈ basicOps → Gram E fid tb (.op (some k) .nil) ['?', c] tb
  | fOpUnder {tb c k} : (c, k) ∈ underOps → Gram E fid tb (.op (some k) .nil) ['?', '_', c] tb
  | fOpDunder {tb c k} : (c, k) ∈ dunderOps → Gram E fid tb (.op (some k) .nil) ['?', '_', '_', c] tb
  | fOpNone {tb c} : c ∈ underNone → Gram E fid tb (.op none .nil) ['?', '_', c] tb
  | fOpNone2 {tb c} : c ∈ dunderNone → Gram E fid tb (.op none .nil) ['?', '_', '_', c] tb
  | fLit {tb s} : s ≠ [] → '@' ∉ s → Gram E fid tb (.lit s .nil) (c!"?__K" ++ s ++ c!"@") tb
  | fCtor {tb} : Gram E fid tb (.structor false .nil .nil) c!"?0" tb
  | fDtor {tb} : Gram E fid tb (.structor true .nil .nil) c!"?1" tb
  | fConv {tb} : Gram E fid tb (.conv .nil .nil) c!"?B" tb
  | tmpl {tb i x tb1 as y tb2} : Gram E fid {} i x tb1 → Gram E targs tb1 as y tb2 →
      Gram E tmpl tb (i.withArgs as) (c!"?$" ++ x ++ y) tb
  | tmplTmpl {tb i x tb1 as y tb2} : Gram E tmpl {} i x tb1 → Gram E targs tb1 as y tb2 →
      Gram E tmpl tb (i.withArgs as) (c!"?$" ++ x ++ y) tb
  | sBack {tb i s} : i < 10 → tb.names[i]? = some s → Gram E sname tb (.named s .nil) (digit i) tb
  | sFull {tb i x tb'} : Gram E fid tb i x tb' → Gram E sname tb i x tb'
  | sTmpl {tb i x tb'} : Gram E tmpl tb i x tb' → Gram E sname tb i x tb'
  -- scopes
  | scName {tb i x tb'} : Gram E uname tb i x tb' → Gram E piece tb i x tb'
  | scAnon {tb key} : '@' ∉ key →
      Gram E piece tb (.named c!"`anonymous namespace'" .nil) (c!"?A" ++ key ++ c!"@") (tb.note key)
  | scLocal {tb s x tb' y n} : EncScope y n → Gram E sym tb s x tb' → Fits (localName E s n) →
      Gram E piece tb (.named (localName E s n) .nil) ('?' :: y ++ '?' :: x) tb'
  | scNil {tb} : Gram E scopes tb .nil c!"@" tb
  | scCons {tb p x tb1 ps y tb'} : Gram E piece tb p x tb1 → Gram E scopes tb1 ps y tb' →
      Gram E scopes tb (ps.snoc p) (x ++ y) tb'
  | scOdd {tb u ps y tb'} : '@' ∉ u → u.head? ≠ some '$' → u.head? ≠ some 'A' →
      (∀ z n v, EncScope z n → u ++ '@' :: y ≠ z ++ '?' :: v) → Gram E scopes (tb.note ('?' :: u)) ps y tb' →
      Gram E scopes tb (ps.snoc (.named ('?' :: u) .nil)) ('?' :: u ++ '@' :: y) tb'
  | scLocalHash {tb u z n ps y tb'} : EncScope z n → '@' ∉ u → ¬ locator <+: y →
      Fits (localName E (hashT (hashed u)) n) → Gram E scopes tb ps y tb' →
      Gram E scopes tb (ps.snoc (.named (localName E (hashT (hashed u)) n) .nil)) ('?' :: z ++ '?' :: hashed u ++ y) tb'
  | qtnOdd {tb u ps y tb'} : '@' ∉ u → u.head? ≠ some '$' → Gram E scopes (tb.note ('?' :: u)) ps y tb' →
      Gram E qtn tb (.qname (ps.snoc (.named ('?' :: u) .nil))) ('?' :: u ++ '@' :: y) tb'
  | qtn {tb i x tb1 ps y tb'} : Gram E uname tb i x tb1 → Gram E scopes tb1 ps y tb' →
      Gram E qtn tb (.qname (ps.snoc i)) (x ++ y) tb'
  -- template arguments
  | taNil {tb} : Gram E targs tb .nil c!"@" tb
  | taPack {tb as x tb' p} : p ∈ [c!"$S", c!"$$V", c!"$$$V", c!"$$Z"] → Gram E targs tb as x tb' →
      Gram E targs tb as (p ++ x) tb'
  | taCons {tb a x tb1 as y tb'} : Gram E (targ false) tb a x tb1 → Gram E targs tb1 as y tb' →
      Gram E targs tb (.cons a as) (x ++ y) tb'
  | taAuto {tb t x tb1 a y tb2 as z tb'} : Gram E ty tb t x tb1 → Gram E (targ true) tb1 a y tb2 →
      Gram E targs tb2 as z tb' → Gram E targs tb (.cons a as) (c!"$M" ++ x ++ y ++ z) tb'
  | taConsN {tb a x tb1 as y tb' f} : Gram E (targN false f) tb a x tb1 → f.ok y → Gram E targs tb1 as y tb' →
      Gram E targs tb (.cons a as) (x ++ y) tb'
  | taAutoN {tb t x tb1 a y tb2 as z tb' f} : Gram E ty tb t x tb1 → Gram E (targN true f) tb1 a y tb2 → f.ok z →
      Gram E targs tb2 as z tb' → Gram E targs tb (.cons a as) (c!"$M" ++ x ++ y ++ z) tb'
  | nNull {tb m} : Gram E (targN m .noQ) tb (.addr true .nil []) ((if m then [] else c!"$") ++ c!"1") tb
  | nHash {tb m u} : '@' ∉ u → Fits ((T.named (hashed u) .nil).text E) →
      Gram E (targN m .noLocator) tb (.addr true (hashT (hashed u)).one []) ((if m then [] else c!"$") ++ '1' :: hashed u)
        (tb.note ((T.named (hashed u) .nil).text E))
  | nHashRef {tb m u} : '@' ∉ u →
      Gram E (targN m .noLocator) tb (.addr false (hashT (hashed u)).one []) (c!"$E" ++ hashed u) tb
  | aHash {tb m u x offs ch} : (ch, offs.length) ∈ [('H', 1), ('I', 2), ('J', 3)] → '@' ∉ u →
      Fits ((T.named (hashed u) .nil).text E) → EncInts x offs →
      Gram E (targ m) tb (.addr true (hashT (hashed u)).one offs) ((if m then [] else c!"$") ++ ch :: hashed u ++ x)
        (tb.note ((T.named (hashed u) .nil).text E))
  | aTypeAuto {tb t x tb'} : Gram E ty tb t x tb' → (∀ c ∈ x.head?, c ∉ c!"HIJFG") → Gram E (targ true) tb t x tb'
  | aType {tb t x tb'} : Gram E ty tb t x tb' → Gram E (targ false) tb t x tb'
  | aTypeB {tb t x tb' m} : Gram E ty tb t x tb' → Gram E (targ m) tb t (c!"$$B" ++ x) tb'
  | aTypeC {tb t x tb' m ch q} : (ch, q) ∈ cvCodes ++ memberCvCodes → Gram E ty tb t x tb' →
      Gram E (targ m) tb (t.addQ q) (c!"$$C" ++ ch :: x) tb'
  | aName {tb n x tb' m} : Gram E qtn tb n x tb' → Gram E (targ m) tb n (c!"$$Y" ++ x) tb'
  | aInt {tb x v neg m} : EncInt x v neg → Gram E (targ m) tb (.int v neg) ((if m then [] else c!"$") ++ '0' :: x) tb
  | aNull {tb x offs m ch} : (ch, offs.length) ∈ [('H', 1), ('I', 2), ('J', 3)] → EncInts x offs →
      x.head? ≠ some '?' →
      Gram E (targ m) tb (.addr true .nil offs) ((if m then [] else c!"$") ++ ch :: x) tb
  | aSym {tb s x tb' i y offs m ch} : (ch, offs.length) ∈ [('1', 0), ('H', 1), ('I', 2), ('J', 3)] →
      Gram E sym tb s x tb' → s.ident = some i → Fits (i.text E) → EncInts y offs →
      Gram E (targ m) tb (.addr true s.one offs) ((if m then [] else c!"$") ++ ch :: x ++ y) (tb'.note (i.text E))
  | aRef {tb s x tb' m} : Gram E sym tb s x tb' →
      Gram E (targ m) tb (.addr false s.one []) (c!"$E" ++ x) tb'
  | aData {tb x offs m ch} : (ch, offs.length) ∈ [('F', 2), ('G', 3)] → EncInts x offs →
      Gram E (targ m) tb (.addr false .nil offs) ((if m then [] else c!"$") ++ ch :: x) tb
  -- the types of functions
  | fenc {tb f r ps y tb' code k ak x adj} (extC : Bool) : (code, k, ak) ∈ classCodes → EncAdjust ak x adj →
      Gram E (fty k.hasThis) tb (.sig f r ps) y tb' →
      Gram E fenc tb
        (if ak = .none then .sig { f with kind := { k with externC := extC } } r ps
         else .thunk { f with kind := { k with externC := extC } } adj r ps)
        ((if extC then c!"$$J0" else []) ++ code ++ x ++ y) tb'
  | fencBare {tb} (extC : Bool) :
      Gram E fenc tb (.sig { kind := { externC := true, bare := true } } .nil .nil)
        ((if extC then c!"$$J0" else []) ++ c!"9") tb
  -- symbols
  | var {tb i x tb1 ps y tb2 t z tb' st sc ch q} : Gram E sname tb i x tb1 → i.isPlain = true → Gram E scopes tb1 ps y tb2 →
      (st, sc) ∈ storageCodes → Gram E ty tb2 t z tb' → t.isPtr = false → (ch, q) ∈ cvCodes ++ memberCvCodes →
      Gram E decl tb (.var (some sc) (.qname (ps.snoc i)) (t.setQ q).one) (x ++ y ++ st :: z ++ [ch]) tb'
  | varPtr {tb i x tb1 ps y tb2 cv a to z tb' st sc ch q} (e : Ext) : Gram E sname tb i x tb1 →
      i.isPlain = true → Gram E scopes tb1 ps y tb2 → (st, sc) ∈ storageCodes → Gram E ty tb2 (.ptr cv a .nil to) z tb' →
      (ch, q) ∈ cvCodes ++ memberCvCodes →
      Gram E decl tb (.var (some sc) (.qname (ps.snoc i)) (T.one (.ptr (cv.or e.cv) a .nil (to.addQ q))))
        (x ++ y ++ st :: z ++ e.code ++ [ch]) tb'
  | varMemberPtr {tb i x tb1 ps y tb2 cv a cls to z tb3 st sc ch q n u tb'} (e : Ext) : Gram E sname tb i x tb1 →
      i.isPlain = true → Gram E scopes tb1 ps y tb2 → (st, sc) ∈ storageCodes → Gram E ty tb2 (.ptr cv a (T.one cls) to) z tb3 →
      (ch, q) ∈ cvCodes ++ memberCvCodes → Gram E qtn tb3 n u tb' →
      Gram E decl tb (.var (some sc) (.qname (ps.snoc i)) (T.one (.ptr (cv.or e.cv) a (T.one cls) (to.addQ q))))
        (x ++ y ++ st :: z ++ e.code ++ ch :: u) tb'
  | varStructor {tb d ta x tb1 y tb2 t z tb' st sc ch q} {ps cls : T} : Gram E sname tb (.structor d .nil ta) x tb1 →
      Gram E scopes tb1 (ps.snoc cls) y tb2 → cls.isPlain = true →
      (st, sc) ∈ storageCodes → Gram E ty tb2 t z tb' → t.isPtr = false → (ch, q) ∈ cvCodes ++ memberCvCodes →
      Gram E decl tb (.var (some sc) (.qname ((ps.snoc cls).snoc (.structor d cls.one ta))) (t.setQ q).one)
        (x ++ y ++ st :: z ++ [ch]) tb'
  | varStructorPtr {tb d ta x tb1 y tb2 cv a to z tb' st sc ch q} {ps cls : T} (e : Ext) :
      Gram E sname tb (.structor d .nil ta) x tb1 → Gram E scopes tb1 (ps.snoc cls) y tb2 → cls.isPlain = true →
      (st, sc) ∈ storageCodes → Gram E ty tb2 (.ptr cv a .nil to) z tb' → (ch, q) ∈ cvCodes ++ memberCvCodes →
      Gram E decl tb (.var (some sc) (.qname ((ps.snoc cls).snoc (.structor d cls.one ta)))
        (T.one (.ptr (cv.or e.cv) a .nil (to.addQ q)))) (x ++ y ++ st :: z ++ e.code ++ [ch]) tb'
  | varStructorMemberPtr {tb d ta x tb1 y tb2 cv a c to z tb3 st sc ch q n u tb'} {ps cls : T} (e : Ext) :
      Gram E sname tb (.structor d .nil ta) x tb1 → Gram E scopes tb1 (ps.snoc cls) y tb2 → cls.isPlain = true →
      (st, sc) ∈ storageCodes → Gram E ty tb2 (.ptr cv a (T.one c) to) z tb3 → (ch, q) ∈ cvCodes ++ memberCvCodes →
      Gram E qtn tb3 n u tb' →
      Gram E decl tb (.var (some sc) (.qname ((ps.snoc cls).snoc (.structor d cls.one ta)))
        (T.one (.ptr (cv.or e.cv) a (T.one c) (to.addQ q)))) (x ++ y ++ st :: z ++ e.code ++ ch :: u) tb'
  | func {tb i x tb1 ps y tb2 sg z tb'} : Gram E sname tb i x tb1 → i.isPlain = true → Gram E scopes tb1 ps y tb2 →
      Gram E fenc tb2 sg z tb' → Gram E decl tb (.fn (.qname (ps.snoc i)) sg) (x ++ y ++ z) tb'
  | structor {tb d ta x tb1 y tb2 sg z tb'} {ps cls : T} :
      Gram E sname tb (.structor d .nil ta) x tb1 →
      Gram E scopes tb1 (ps.snoc cls) y tb2 → cls.isPlain = true → Gram E fenc tb2 sg z tb' →
      Gram E decl tb (.fn (.qname ((ps.snoc cls).snoc (.structor d cls.one ta))) sg) (x ++ y ++ z) tb'
  | conv {tb ta x tb1 ps y tb2 f r prs z tb'} :
      Gram E sname tb (.conv ta .nil) x tb1 →
      Gram E scopes tb1 ps y tb2 → Gram E fenc tb2 (.sig f (T.one r) prs) z tb' →
      Gram E decl tb (.fn (.qname (ps.snoc (.conv ta (T.one r)))) (.sig f (T.one r) prs)) (x ++ y ++ z) tb'
  | convThunk {tb ta x tb1 ps y tb2 f adj r prs z tb'} :
      Gram E sname tb (.conv ta .nil) x tb1 →
      Gram E scopes tb1 ps y tb2 → Gram E fenc tb2 (.thunk f adj (T.one r) prs) z tb' →
      Gram E decl tb (.fn (.qname (ps.snoc (.conv ta (T.one r)))) (.thunk f adj (T.one r) prs)) (x ++ y ++ z) tb'
  | sym {tb t x tb'} : Gram E decl tb t x tb' → Free x → Gram E sym tb t ('?' :: x) tb'
  | hashLocator {tb u} : '@' ∉ u → Gram E sym tb (hashT (hashed u ++ locator)) (hashed u ++ locator) tb
  | narrow {tb xn n crc u bytes} : EncNat xn n → n ≠ 0 → '@' ∉ crc → EncBytes u bytes → bytes.length ≤ 128 →
      Gram E sym tb (.str (charKind (charWidth n bytes)) ((narrowShown n bytes).flatMap escape) (decide (bytes.length < n)))
        (c!"??_C@_0" ++ xn ++ crc ++ c!"@" ++ u ++ c!"@") tb
  | wide {tb xn n crc u vs} : EncNat xn n → 2 ≤ n → '@' ∉ crc → EncWide u vs → Fits ((wideShown n vs).flatMap escape) →
      Gram E sym tb (.str .Wchar ((wideShown n vs).flatMap escape) (decide (64 < n)))
        (c!"??_C@_1" ++ xn ++ crc ++ c!"@" ++ u ++ c!"@") tb
  | table {tb ps x tb' code nm ch q d} : (code, nm) ∈ tableCodes → Gram E scopes tb ps x tb' →
      d ∈ c!"67" → (ch, q) ∈ cvCodes ++ memberCvCodes →
      Gram E sym tb (.table q (.qname (ps.snoc (.named nm .nil))) .nil) ('?' :: code ++ x ++ [d, ch, '@']) tb'
  | tableFor {tb ps x tb1 n y tb' code nm ch q d} : (code, nm) ∈ tableCodes → Gram E scopes tb ps x tb1 →
      d ∈ c!"67" → (ch, q) ∈ cvCodes ++ memberCvCodes → Gram E qtn tb1 n y tb' →
      Gram E sym tb (.table q (.qname (ps.snoc (.named nm .nil))) n.one) ('?' :: code ++ x ++ d :: ch :: y) tb'
  | vcall {tb ps x tb' y n} (cc : Char) : Gram E scopes tb ps x tb' → EncNat y n →
      Gram E sym tb (.fn (.qname (ps.snoc (.vcall n)))
        (.thunk { kind := { bare := true }, conv := convOf cc } .none .nil .nil))
        (c!"??_9" ++ x ++ c!"$B" ++ y ++ ['A', cc]) tb'
  | untyped {tb ps x tb' code nm} : (code, nm) ∈ untypedCodes → Gram E scopes tb ps x tb' →
      Gram E sym tb (.var none (.qname (ps.snoc (.named nm .nil))) .nil) ('?' :: code ++ x ++ c!"8") tb'
  | baseDescr {tb ps y tb' x1 x2 x3 x4 nv vb vt fl} : EncNat x1 nv → EncSigned x2 vb → EncNat x3 vt → EncNat x4 fl →
      nv < 2 ^ 32 → -(2 ^ 31) ≤ vb ∧ vb < 2 ^ 31 → vt < 2 ^ 32 → fl < 2 ^ 32 → Gram E scopes tb ps y tb' →
      Gram E sym tb (.var none (.qname (ps.snoc (.baseDescr nv vb vt fl))) .nil)
        (c!"??_R1" ++ x1 ++ x2 ++ x3 ++ x4 ++ y ++ c!"8") tb'
  | guardVar {tb ps x tb' y n} (th vis : Bool) : Gram E scopes tb ps x tb' → EncNat y n → n < 2 ^ 32 →
      Gram E sym tb (.same (.qname (ps.snoc (.guardId th n))))
        ((if th then c!"??__J" else c!"??_B") ++ x ++ (if vis then c!"5" else c!"4IA") ++ y) tb'
  | dynVar {tb sc n t x tb1 sg y tb'} (d known : Bool) : Gram E decl tb (.var sc n t) x tb1 →
      (known = true ∨ x.head? ≠ some '?') → Gram E fenc tb1 sg y tb' →
      Gram E sym tb (.fn (.qname (T.one (.dynVar d (.var sc n t)))) sg)
        ((if d then c!"??__F" else c!"??__E") ++ (if known then c!"?" else []) ++ x ++
          (if known then c!"@@" else c!"@") ++ y) tb'
  | dynFn {tb n sg x tb'} (d : Bool) : Gram E decl tb (.fn n sg) x tb' → x.head? ≠ some '?' →
      Gram E sym tb (.fn (.qname (T.one (.dynFn d n))) sg) ((if d then c!"??__F" else c!"??__E") ++ x) tb'
  -- symbols that must end with the input
  | guardEnd {tb ps x tb'} (th vis : Bool) : Gram E scopes tb ps x tb' →
      Gram E symEnd tb (.same (.qname (ps.snoc (.guardId th 0))))
        ((if th then c!"??__J" else c!"??_B") ++ x ++ (if vis then c!"5" else c!"4IA")) tb'
  | typeinfo {tb t x tb'} : Gram E tyR tb t x tb' → Gram E symEnd tb (.typeDescr t) ('.' :: x) tb'
  | rttiType {tb t x tb'} : Gram E tyR tb t x tb' →
      Gram E symEnd tb (.var none (.qname (T.one (.named c!"`RTTI Type Descriptor'" .nil))) t.one)
        (c!"??_R0" ++ x ++ c!"@8") tb'

end Undname.Spec
