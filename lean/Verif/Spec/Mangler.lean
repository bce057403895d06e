/-
  Specification: a compiler's mangler. Types, template instantiations, variables and functions of C++, how a
  compiler for Windows mangles them (with back-references to names and parameter types), and how they are
  declared in C++. Nothing here refers to the demangler; only code tables (letters for fundamental types,
  numbers, calling conventions, operators) are shared with the grammar.

  The mangler does not depend on the flags: it remembers the names and types themselves, not their texts. The
  declaration depends on the flags, which leave out parts of it.
-/
import Verif.Spec.Decl
import Verif.Spec.Grammar

namespace Undname.Spec.Cxx

/-! ### Attributes -/

/-- Pointers (`const`, `volatile`, `__restrict`) and references. -/
inductive PK where
  | star (c v r : Bool)
  | ref
  | rref
  deriving DecidableEq, Repr

/-- Qualifiers of a member function. -/
structure This where
  c : Bool := false
  v : Bool := false
  restrict : Bool := false
  unaligned : Bool := false
  ref : Option FunctionRefQualifier := none
  deriving DecidableEq, Repr

/-- Kinds of variables. -/
inductive Storage where
  | global
  | localStatic
  | member (a : Access)
  deriving DecidableEq, Repr

/-- How a thunk adjusts `this`. -/
inductive Adj where
  | static (off : Nat)
  | disp (d : Int) (off : Nat)
  | dispex (a b d : Int) (off : Nat)
  deriving DecidableEq, Repr

/-- Kinds of functions. -/
inductive Kind where
  /-- not a member; `extern "C"`? -/
  | free (externC : Bool)
  | static (a : Access)
  | member (a : Access) (virt : Bool) (q : This)
  /-- an adjustor thunk -/
  | thunk (a : Access) (adj : Adj) (q : This)
  deriving DecidableEq, Repr

/-! ### Declarations -/

mutual
/-- Types. -/
inductive Ty where
  /-- a fundamental type, `const`? `volatile`? -/
  | prim (k : PrimitiveKind) (c v : Bool)
  /-- a class, struct, union or enum -/
  | tag (k : TagKind) (p : Path) (c v : Bool)
  /-- a pointer or reference to data, `__unaligned`? -/
  | ptr (k : PK) (u : Bool) (to : Ty)
  /-- a pointer or reference to a function -/
  | fptr (k : PK) (s : Sig)
  /-- a pointer or reference to an array of `el` (`const`? `volatile`?) -/
  | aptr (k : PK) (c v : Bool) (dims : List Nat) (el : Ty)
  /-- a pointer to a data member -/
  | mptr (k : PK) (u : Bool) (cls : Path) (to : Ty)
  /-- a pointer to a member function -/
  | mfptr (k : PK) (cls : Path) (q : This) (s : Sig)
  deriving DecidableEq
/-- Function types: calling convention, result, parameters; variadic? `noexcept`? -/
inductive Sig where
  | mk (cc : Char) (ret : Ty) (params : Tys) (variadic noexc : Bool)
  deriving DecidableEq
/-- Lists of types. -/
inductive Tys where
  | nil
  | cons (t : Ty) (ts : Tys)
  deriving DecidableEq
/-- Qualified names, innermost part first. -/
inductive Path where
  | nil
  | cons (s : Seg) (p : Path)
  deriving DecidableEq
/-- Parts of names. -/
inductive Seg where
  /-- an identifier -/
  | id (s : Text)
  /-- a template instantiation -/
  | tm (s : Text) (args : Args)
  /-- an anonymous namespace with a key -/
  | anon (key : Text)
  /-- the `n`-th block of a function -/
  | loc (n : Nat) (d : Decl)
  deriving DecidableEq
/-- Template arguments. -/
inductive Args where
  | nil
  | ty (t : Ty) (as : Args)
  | int (neg : Bool) (n : Nat) (as : Args)
  /-- an empty parameter pack -/
  | pack (as : Args)
  /-- a function type -/
  | fn (s : Sig) (as : Args)
  /-- a function type with qualifiers -/
  | mfn (q : This) (s : Sig) (as : Args)
  /-- an array of `el` (`const`? `volatile`?) -/
  | arr (c v : Bool) (dims : List Nat) (el : Ty) (as : Args)
  /-- a template -/
  | tmpl (p : Path) (as : Args)
  /-- the address of a variable or function -/
  | addr (d : Decl) (as : Args)
  /-- a reference to a variable or function -/
  | ref (d : Decl) (as : Args)
  /-- a pointer to a member function of a class with bases: the function and the offsets -/
  | memFn (d : Decl) (offs : List Int) (as : Args)
  /-- a pointer to a data member of a class with bases -/
  | memData (offs : List Int) (as : Args)
  deriving DecidableEq
/-- Template arguments, if any. -/
inductive Targs where
  | none
  | some (as : Args)
  deriving DecidableEq
/-- The innermost part of the name of a symbol. -/
inductive Head where
  /-- an identifier -/
  | id (s : Text)
  /-- an instantiation of a variable or function template -/
  | tm (s : Text) (args : Args)
  /-- an operator, or an instantiation of an operator template -/
  | op (o : IFK) (args : Targs)
  /-- a literal operator -/
  | lit (s : Text)
  deriving DecidableEq
/-- Variables and functions. The last part of a path is the outermost scope. -/
inductive Decl where
  | var (st : Storage) (name : Head) (scope : Path) (ty : Ty)
  | fn (k : Kind) (name : Head) (scope : Path) (s : Sig)
  /-- a constructor or destructor of the class `s` in `scope` -/
  | structor (dtor : Bool) (targs : Targs) (k : Kind) (s : Seg) (scope : Path) (cc : Char) (params : Tys) (variadic noexc : Bool)
  /-- a conversion to the result type of the function -/
  | conv (targs : Targs) (k : Kind) (cls : Path) (s : Sig)
  deriving DecidableEq
end

/-! ### Which parts of declarations the flags show -/

section
variable (E : Env)

def shows.access : Bool := !E.flags.no_access_specifier && !E.flags.name_only
/-- `static`, `virtual`, `extern "C"` -/
def shows.member : Bool := !E.flags.no_member_type && !E.flags.name_only
/-- `class`, `struct`, `union`, `enum` -/
def shows.tag : Bool := !E.flags.no_tag_specifier && !E.flags.name_only
/-- `__restrict`, `__unaligned` -/
def shows.ms : Bool := !E.flags.no_ms_keywords
/-- calling conventions of pointers to functions -/
def shows.ptrConv : Bool := !E.flags.no_calling_convention && !E.flags.no_ms_keywords
/-- calling conventions of functions -/
def shows.conv : Bool := shows.ptrConv E && !E.flags.name_only
/-- result types of pointers to functions -/
def shows.ptrRet : Bool := !E.flags.no_return_type
/-- result types of functions, and what follows the parameters of pointers to functions -/
def shows.ret : Bool := !E.flags.no_return_type && !E.flags.name_only
/-- parameters of functions -/
def shows.params : Bool := !E.flags.name_only
/-- qualifiers of member functions -/
def shows.this : Bool := !E.flags.no_this_type && !E.flags.name_only
/-- types of variables -/
def shows.varType : Bool := !E.flags.no_variable_type && !E.flags.name_only

end

/-- A part that may be left out. -/
def part (b : Bool) (t : Text) : Text := if b then t else []

/-! ### Declarations in C++ -/

/-- Words separated by blanks. -/
def words (l : List Text) : Text := join c!" " l

/-- `*const volatile __restrict`. -/
def PK.cpp (E : Env) : PK → Text
  | .star c v r => c!"*" ++ words ((if c then [c!"const"] else []) ++ (if v then [c!"volatile"] else []) ++
      (if r then [part (shows.ms E) (msWord E c!"restrict")] else []))
  | .ref => c!"&"
  | .rref => c!"&&"

/-- Qualifiers of a member function that precede `noexcept`. -/
def This.cpp (E : Env) (q : This) : Text :=
  Spec.Ty.cvAfter q.c q.v ++ part (shows.ms E) (part q.restrict (c!" " ++ msWord E c!"restrict") ++
    part q.unaligned (c!" " ++ msWord E c!"unaligned"))

/-- `&` or `&&` after a member function. -/
def This.refCpp (q : This) : Text :=
  match q.ref with
  | none => []
  | some .Reference => c!" &"
  | some .RValueReference => c!" &&"

/-- `noexcept`. -/
def noexcCpp (b : Bool) : Text := part b c!" noexcept"

/-- The calling convention. -/
def convCpp (E : Env) (cc : Char) : Text :=
  let s := (convWord cc).getD []
  if E.flags.no_leading_underscores then s.drop 2 else s

/-- A parameter list from its types. -/
def paramsCpp (ts : List Text) (variadic : Bool) : Text :=
  c!"(" ++ (if ts.isEmpty then (if variadic then c!"..." else c!"void")
    else join c!", " ts ++ (if variadic then c!", ..." else [])) ++ c!")"

def Storage.cpp (E : Env) : Storage → Text
  | .member a => part (shows.access E) (accessName a) ++ part (shows.member E) c!"static "
  | _ => []

def Adj.cpp : Adj → Text
  | .static n => c!"`adjustor{" ++ nat n ++ c!"}'"
  | .disp d n => c!"`vtordisp{" ++ sint d ++ c!", " ++ nat n ++ c!"}'"
  | .dispex a b d n => c!"`vtordispex{" ++ sint a ++ c!", " ++ sint b ++ c!", " ++ sint d ++ c!", " ++ nat n ++ c!"}'"

/-- Is a thunk shown as `virtual`? Not if it is private and its adjustment static. -/
def Adj.virtual (a : Access) : Adj → Bool
  | .static _ => a ≠ .priv
  | _ => true

/-- What precedes the result type. -/
def Kind.cpp (E : Env) : Kind → Text
  | .free externC => part (shows.member E) (part externC c!"extern \"C\" ")
  | .static a => part (shows.access E) (accessName a) ++ part (shows.member E) c!"static "
  | .member a virt _ => part (shows.access E) (accessName a) ++ part (shows.member E) (part virt c!"virtual ")
  | .thunk a adj _ => part (!E.flags.name_only) c!"[thunk]: " ++ part (shows.access E) (accessName a) ++
    part (shows.member E) (part (adj.virtual a) c!"virtual ")

/-- What follows the name of a thunk. -/
def Kind.adjCpp : Kind → Text
  | .thunk _ adj _ => adj.cpp
  | _ => []

/-- The qualifiers of `this`. -/
def Kind.this : Kind → This
  | .member _ _ q | .thunk _ _ q => q
  | _ => {}

section
variable (E : Env)

mutual
/-- The part of a declaration before the declared name. -/
def Ty.left : Ty → Text
  | .prim k c v => primName k ++ Spec.Ty.cvAfter c v
  | .tag k p c v => part (shows.tag E) (tagName k ++ c!" ") ++ showPath p.names ++ Spec.Ty.cvAfter c v
  | .ptr k u to => sp E to.left ++ part (shows.ms E && u) (msWord E c!"unaligned" ++ c!" ") ++ k.cpp E
  | .fptr k s => s.left ++ k.cpp E
  | .aptr k c v _ el => sp E (el.left ++ Spec.Ty.cvAfter c v) ++ c!"(" ++ k.cpp E
  | .mptr k u cls to => sp E to.left ++ part (shows.ms E && u) (msWord E c!"unaligned" ++ c!" ") ++ showPath cls.names ++ c!"::" ++ k.cpp E
  | .mfptr k cls _ s => s.left ++ showPath cls.names ++ c!"::" ++ k.cpp E
/-- The part of a declaration after the declared name. -/
def Ty.right : Ty → Text
  | .prim .. | .tag .. => []
  | .ptr _ _ to => to.right
  | .fptr _ s => c!")" ++ s.params ++ s.right {}
  | .aptr _ _ _ dims el => c!")" ++ bounds dims ++ el.right
  | .mptr _ _ _ to => to.right
  | .mfptr _ _ q s => c!")" ++ s.params ++ s.right q
/-- The result type and the calling convention of a pointer to a function. -/
def Sig.left : Sig → Text
  | .mk cc ret _ _ _ => part (shows.ptrRet E) (ret.left ++ c!" ") ++ c!"(" ++ part (shows.ptrConv E) (convCpp E cc ++ c!" ")
/-- The result type of a function. -/
def Sig.ret : Sig → Text
  | .mk _ ret _ _ _ => part (shows.ret E) (ret.left ++ c!" ")
/-- The parameter list. -/
def Sig.params : Sig → Text
  | .mk _ _ ps variadic _ => paramsCpp ps.list variadic
/-- What follows the parameter list: the qualifiers of `this`, `noexcept`, the rest of the result type. -/
def Sig.right : Sig → This → Text
  | .mk _ ret _ _ noexc, q => part (shows.this E) (q.cpp E) ++ noexcCpp noexc ++ part (shows.this E) q.refCpp ++ part (shows.ret E) ret.right
/-- A conversion's target. -/
def Sig.retType : Sig → Text
  | .mk _ ret _ _ _ => ret.left ++ ret.right
/-- The texts of types. -/
def Tys.list : Tys → List Text
  | .nil => []
  | .cons t ts => (t.left ++ t.right) :: ts.list
/-- The parts of a name. -/
def Path.names : Path → List Text
  | .nil => []
  | .cons s p => s.cpp :: p.names
def Seg.cpp : Seg → Text
  | .id s => s
  | .tm s as => s ++ c!"<" ++ join c!", " as.list ++ c!">"
  | .anon _ => c!"`anonymous namespace'"
  | .loc n d => c!"`" ++ d.cpp ++ c!"'::`" ++ nat n ++ c!"'"
/-- The texts of template arguments. Empty packs leave no trace. -/
def Args.list : Args → List Text
  | .nil => []
  | .ty t as => (t.left ++ t.right) :: as.list
  | .int neg n as => (part neg c!"-" ++ nat n) :: as.list
  | .pack as => as.list
  | .fn s as => s.type {} :: as.list
  | .mfn q s as => s.type q :: as.list
  | .arr c v dims el as => (el.left ++ Spec.Ty.cvAfter c v ++ bounds dims ++ el.right) :: as.list
  | .tmpl p as => showPath p.names :: as.list
  | .addr d as => (c!"&" ++ d.cpp) :: as.list
  | .ref d as => d.cpp :: as.list
  | .memFn d offs as => (c!"{" ++ d.cpp ++ c!", " ++ join c!", " (offs.map sint) ++ c!"}") :: as.list
  | .memData offs as => (c!"{" ++ join c!", " (offs.map sint) ++ c!"}") :: as.list
/-- A function type without a name. -/
def Sig.type : Sig → This → Text
  | .mk cc ret ps variadic noexc, q =>
    part (shows.ret E) (ret.left ++ c!" ") ++ part (shows.conv E) (convCpp E cc) ++ part (shows.params E) (paramsCpp ps.list variadic) ++
      part (shows.this E) (q.cpp E) ++ noexcCpp noexc ++ part (shows.this E) q.refCpp ++ part (shows.ret E) ret.right
def Targs.cpp : Targs → Text
  | .none => []
  | .some as => c!"<" ++ join c!", " as.list ++ c!">"
def Head.cpp : Head → Text
  | .id s => s
  | .tm s as => s ++ c!"<" ++ join c!", " as.list ++ c!">"
  | .op o ta => opName o ++ ta.cpp
  | .lit s => c!"operator \"\"" ++ s
/-- The declaration. -/
def Decl.cpp : Decl → Text
  | .var st name scope ty =>
    let n := showPath (name.cpp :: scope.names)
    st.cpp E ++ if shows.varType E then sp E ty.left ++ n ++ ty.right else n
  | .fn k name scope s => k.cpp E ++ s.ret ++ s.conv ++ showPath (name.cpp :: scope.names) ++ k.adjCpp ++
      part (shows.params E) s.params ++ s.right k.this
  | .structor dtor targs k s scope cc ps variadic noexc =>
    k.cpp E ++ part (shows.conv E) (convCpp E cc ++ c!" ") ++ showPath ((part dtor c!"~" ++ s.cpp ++ targs.cpp) :: s.cpp :: scope.names) ++
      k.adjCpp ++ part (shows.params E) (paramsCpp ps.list variadic) ++
      part (shows.this E) (k.this.cpp E) ++ noexcCpp noexc ++ part (shows.this E) k.this.refCpp
  | .conv targs k cls s => k.cpp E ++ s.ret ++ s.conv ++ showPath ((c!"operator" ++ targs.cpp ++ c!" " ++ s.retType) :: cls.names) ++
      k.adjCpp ++ part (shows.params E) s.params ++ s.right k.this
/-- The calling convention of a function. -/
def Sig.conv : Sig → Text
  | .mk cc _ _ _ _ => part (shows.conv E) (convCpp E cc ++ c!" ")
end

end

/-- A type without a name. -/
def Ty.cpp (E : Env) (t : Ty) : Text := t.left E ++ t.right E

/-! ### The mangler -/

/-- What a mangler remembers: the names and the parameter types it has written, in order. -/
structure Seen where
  names : List Seg := []
  types : List Ty := []

/-- There is room for ten names. -/
def Seen.note (st : Seen) (s : Seg) : Seen :=
  if st.names.length < 10 ∧ s ∉ st.names then { st with names := st.names ++ [s] } else st

/-- There is room for ten types. -/
def Seen.noteType (st : Seen) (t : Ty) : Seen :=
  if st.types.length < 10 then { st with types := st.types ++ [t] } else st

/-- The position of an entry among the first ten. -/
def position {α : Type} [DecidableEq α] (a : α) (l : List α) : Option Nat := (l.take 10).idxOf? a

def PK.code : PK → Text
  | .star c v _ => [Spec.Ty.ptrLetter c v]
  | .ref => c!"A"
  | .rref => c!"$$Q"

def PK.restrict : PK → Bool
  | .star _ _ r => r
  | _ => false

/-- `const`? -/
def PK.c : PK → Bool
  | .star c _ _ => c
  | _ => false
/-- `volatile`? -/
def PK.v : PK → Bool
  | .star _ v _ => v
  | _ => false

/-- `E` on 64-bit targets, `I` for `__restrict`, `F` for `__unaligned`. -/
def extCode (w r u : Bool) : Text :=
  (if w then c!"E" else []) ++ (if r then c!"I" else []) ++ (if u then c!"F" else [])

/-- Is the type itself `const`? -/
def Ty.c : Ty → Bool
  | .prim _ c _ | .tag _ _ c _ => c
  | .ptr k .. | .fptr k .. | .aptr k .. | .mptr k .. | .mfptr k .. => k.c
/-- Is the type itself `volatile`? -/
def Ty.v : Ty → Bool
  | .prim _ _ v | .tag _ _ _ v => v
  | .ptr k .. | .fptr k .. | .aptr k .. | .mptr k .. | .mfptr k .. => k.v

/-- The qualifier letter of a type. -/
def Ty.letter (t : Ty) : Char := Spec.Ty.cvLetter t.c t.v

/-- The qualifier letter of a type that is the target of a pointer to a member. -/
def Ty.memberLetter (t : Ty) : Char :=
  if t.c then (if t.v then 'T' else 'R') else (if t.v then 'S' else 'Q')

def This.code (w : Bool) (q : This) : Text :=
  extCode w q.restrict q.unaligned ++
    (match q.ref with | none => [] | some .Reference => c!"G" | some .RValueReference => c!"H") ++ [Spec.Ty.cvLetter q.c q.v]

/-- The qualifiers before a result type: classes always have some. -/
def Ty.retCode : Ty → Text
  | .prim _ c v => if c || v then ['?', Spec.Ty.cvLetter c v] else []
  | .tag _ _ c v => ['?', Spec.Ty.cvLetter c v]
  | _ => []

/-- The qualifiers before a template argument. -/
def Ty.argCode : Ty → Text
  | .prim _ c v | .tag _ _ c v => if c || v then c!"$$C" ++ [Spec.Ty.cvLetter c v] else []
  | _ => []

/-- The rank and the bounds of an array, and the qualifiers of its elements. -/
def arrayCode (c v : Bool) (dims : List Nat) : Text :=
  c!"Y" ++ encode dims.length ++ dims.flatMap encode ++ (if c || v then c!"$$C" ++ [Spec.Ty.cvLetter c v] else [])

/-- A number with a sign. -/
def encodeInt (i : Int) : Text := (if i < 0 then c!"?" else []) ++ encode i.natAbs

def Storage.code : Storage → Char
  | .member .priv => '0'
  | .member .prot => '1'
  | .member .publ => '2'
  | .global => '3'
  | .localStatic => '4'

/-- Numbers in thunks have 32 bits; negative ones are written in two's complement. -/
def encode32 (i : Int) : Text := encode (i % 2 ^ 32).toNat

def Adj.mangle : Adj → Text
  | .static n => encode n
  | .disp d n => encode32 d ++ encode n
  | .dispex a b d n => encode32 a ++ encode32 b ++ encode32 d ++ encode n

/-- The letters of a kind, for each access. -/
def pick (a : Access) (x y z : Text) : Text := match a with | .priv => x | .prot => y | .publ => z

/-- The letters of a thunk. -/
def Adj.code (a : Access) : Adj → Text
  | .static _ => pick a c!"G" c!"O" c!"W"
  | .disp .. => pick a c!"$0" c!"$2" c!"$4"
  | .dispex .. => pick a c!"$R0" c!"$R2" c!"$R4"

def Kind.code : Kind → Text
  | .free externC => (if externC then c!"$$J0" else []) ++ c!"Y"
  | .static a => pick a c!"C" c!"K" c!"S"
  | .member a virt _ => if virt then pick a c!"E" c!"M" c!"U" else pick a c!"A" c!"I" c!"Q"
  | .thunk a adj _ => adj.code a ++ adj.mangle

/-- Only functions with a `this` object have its qualifiers in their mangled name. -/
def Kind.thisCode (w : Bool) : Kind → Text
  | .member _ _ q | .thunk _ _ q => q.code w
  | _ => []

/-- Operators and their codes. -/
def operators : List (Text × IFK) :=
  (basicOps.map fun p => (['?', p.1], p.2)) ++ (underOps.map fun p => (['?', '_', p.1], p.2)) ++
    dunderOps.map fun p => (['?', '_', '_', p.1], p.2)

/-- The code of an operator. -/
def opCode (o : IFK) : Text := ((operators.find? fun p => p.2 == o).map (·.1)).getD []

/-- The letter for the number of offsets of a pointer to a member function. -/
def memFnCode : Nat → Text
  | 1 => c!"H"
  | 2 => c!"I"
  | _ => c!"J"

/-- The name of a symbol if it is an identifier. -/
def Decl.ident : Decl → Option Text
  | .var _ (.id s) _ _ | .fn _ (.id s) _ _ => some s
  | _ => none

section
variable (w : Bool)

mutual
/-- A type, without the qualifiers of a fundamental or class type (these are written by the context). -/
def Ty.mangle : Ty → Seen → Text × Seen
  | .prim k _ _, st => (primCode k, st)
  | .tag k p _ _, st =>
    let (x, st) := p.mangle st
    (tagCode k ++ x, st)
  | .ptr k u to, st =>
    let (x, st) := to.mangle st
    (k.code ++ extCode w k.restrict u ++ to.letter :: x, st)
  | .fptr k s, st =>
    let (x, st) := s.mangle st
    (k.code ++ c!"6" ++ x, st)
  | .aptr k c v dims el, st =>
    let (x, st) := el.mangle st
    (k.code ++ extCode w k.restrict false ++ c!"A" ++ arrayCode c v dims ++ x, st)
  | .mptr k u cls to, st =>
    let (x, st) := cls.mangle st
    let (y, st) := to.mangle st
    (k.code ++ extCode w k.restrict u ++ to.memberLetter :: x ++ y, st)
  | .mfptr k cls q s, st =>
    let (x, st) := cls.mangle st
    let (y, st) := s.mangle st
    (k.code ++ c!"8" ++ x ++ q.code w ++ y, st)
/-- A function type: convention, result, parameters, exception specification. -/
def Sig.mangle : Sig → Seen → Text × Seen
  | .mk cc ret ps variadic noexc, st =>
    let (x, st) := ret.mangle st
    let (y, st) := ps.mangle st
    (cc :: ret.retCode ++ x ++
      (if y.isEmpty && !variadic then c!"X" else y ++ (if variadic then c!"Z" else c!"@")) ++
      (if noexc then c!"_E" else c!"Z"), st)
/-- Parameters: one that was written before is replaced by its number, unless it was a single letter. -/
def Tys.mangle : Tys → Seen → Text × Seen
  | .nil, st => ([], st)
  | .cons t ts, st =>
    match position t st.types with
    | some i =>
      let (y, st) := ts.mangle st
      (digit i ++ y, st)
    | none =>
      let (x, st) := t.mangle st
      let st := if x.length = 1 then st else st.noteType t
      let (y, st) := ts.mangle st
      (x ++ y, st)
/-- A qualified name: the parts, and `@`. -/
def Path.mangle : Path → Seen → Text × Seen
  | .nil, st => (c!"@", st)
  | .cons s p, st =>
    let (x, st) := s.mangle st
    let (y, st) := p.mangle st
    (x ++ y, st)
/-- A part of a name: an identifier or template instantiation that was written before is replaced by its
number. The arguments of a template are mangled with memories of their own. -/
def Seg.mangle : Seg → Seen → Text × Seen
  | .id s, st =>
    match position (.id s) st.names with
    | some i => (digit i, st)
    | none => (s ++ c!"@", st.note (.id s))
  | .tm s as, st =>
    match position (.tm s as) st.names with
    | some i => (digit i, st)
    | none =>
      let (x, _) := as.mangle (({} : Seen).note (.id s))
      (c!"?$" ++ s ++ c!"@" ++ x, st.note (.tm s as))
  | .anon key, st => (c!"?A" ++ key ++ c!"@", st.note (.anon key))
  | .loc n d, st =>
    let (x, st) := d.mangle st
    (c!"?" ++ encode n ++ c!"?" ++ x, st)
/-- Template arguments and `@`. -/
def Args.mangle : Args → Seen → Text × Seen
  | .nil, st => (c!"@", st)
  | .ty t as, st =>
    let (x, st) := t.mangle st
    let (y, st) := as.mangle st
    (t.argCode ++ x ++ y, st)
  | .int neg n as, st =>
    let (y, st) := as.mangle st
    (c!"$0" ++ (if neg then c!"?" else []) ++ encode n ++ y, st)
  | .pack as, st =>
    let (y, st) := as.mangle st
    (c!"$$V" ++ y, st)
  | .fn s as, st =>
    let (x, st) := s.mangle st
    let (y, st) := as.mangle st
    (c!"$$A6" ++ x ++ y, st)
  | .mfn q s as, st =>
    let (x, st) := s.mangle st
    let (y, st) := as.mangle st
    (c!"$$A8@@" ++ q.code w ++ x ++ y, st)
  | .arr c v dims el as, st =>
    let (x, st) := el.mangle st
    let (y, st) := as.mangle st
    (c!"$$B" ++ arrayCode c v dims ++ x ++ y, st)
  | .tmpl p as, st =>
    let (x, st) := p.mangle st
    let (y, st) := as.mangle st
    (c!"$$Y" ++ x ++ y, st)
  | .addr d as, st =>
    let (x, st) := d.mangle st
    let (y, st) := as.mangle st
    (c!"$1" ++ x ++ y, st)
  | .ref d as, st =>
    let (x, st) := d.mangle st
    let (y, st) := as.mangle st
    (c!"$E" ++ x ++ y, st)
  | .memFn d offs as, st =>
    let (x, st) := d.mangle st
    let (y, st) := as.mangle st
    (c!"$" ++ memFnCode offs.length ++ x ++ offs.flatMap encodeInt ++ y, st)
  | .memData offs as, st =>
    let (y, st) := as.mangle st
    (c!"$" ++ (if offs.length = 2 then c!"F" else c!"G") ++ offs.flatMap encodeInt ++ y, st)
/-- The code of something, or an instantiation of a template of it. -/
def Targs.mangle : Targs → Text → Text
  | .none, code => code
  | .some as, code => c!"?$" ++ code ++ (as.mangle {}).1
/-- The name of a symbol. Only identifiers are remembered, not instantiations of function templates or operators. -/
def Head.mangle : Head → Seen → Text × Seen
  | .id s, st =>
    match position (.id s) st.names with
    | some i => (digit i, st)
    | none => (s ++ c!"@", st.note (.id s))
  | .tm s as, st => (c!"?$" ++ s ++ c!"@" ++ (as.mangle (({} : Seen).note (.id s))).1, st)
  | .op o ta, st => (ta.mangle (opCode o), st)
  | .lit s, st => (c!"?__K" ++ s ++ c!"@", st)
/-- The symbol. -/
def Decl.mangle : Decl → Seen → Text × Seen
  | .var st name scope ty, seen =>
    let (x, seen) := name.mangle seen
    let (y, seen) := scope.mangle seen
    let (z, seen) := ty.mangle seen
    let (u, seen) := ty.again seen
    (c!"?" ++ x ++ y ++ [st.code] ++ z ++ u, seen)
  | .fn k name scope s, seen =>
    let (x, seen) := name.mangle seen
    let (y, seen) := scope.mangle seen
    let (z, seen) := s.mangle seen
    (c!"?" ++ x ++ y ++ k.code ++ k.thisCode w ++ z, seen)
  | .structor dtor targs k s scope cc ps variadic noexc, seen =>
    let (x, seen) := s.mangle seen
    let (y, seen) := scope.mangle seen
    let (z, seen) := ps.mangle seen
    (c!"?" ++ targs.mangle (if dtor then c!"?1" else c!"?0") ++ x ++ y ++ k.code ++ k.thisCode w ++ [cc, '@'] ++
      (if z.isEmpty && !variadic then c!"X" else z ++ (if variadic then c!"Z" else c!"@")) ++ (if noexc then c!"_E" else c!"Z"), seen)
  | .conv targs k cls s, seen =>
    let (y, seen) := cls.mangle seen
    let (z, seen) := s.mangle seen
    (c!"?" ++ targs.mangle c!"?B" ++ y ++ k.code ++ k.thisCode w ++ z, seen)
/-- After its type, a variable repeats the qualifiers: its own, or those of the target of a pointer (and, for
64 bits, `E`); a pointer to a member repeats the class. -/
def Ty.again : Ty → Seen → Text × Seen
  | .prim _ c v, st | .tag _ _ c v, st => ([Spec.Ty.cvLetter c v], st)
  | .ptr k u to, st => (extCode w k.restrict u ++ [to.letter], st)
  | .fptr _ _, st => (extCode w false false ++ c!"A", st)
  | .aptr k .., st => (extCode w k.restrict false ++ c!"A", st)
  | .mptr k u cls to, st =>
    let (x, st) := cls.mangle st
    (extCode w k.restrict u ++ [to.memberLetter] ++ x, st)
  | .mfptr _ cls _ _, st =>
    let (x, st) := cls.mangle st
    (extCode w false false ++ c!"Q" ++ x, st)
end

end

/-! ### Well-formed declarations -/

/-- A fundamental or class type is not `const` or `volatile` itself. -/
def Ty.unqualified : Ty → Prop
  | .prim _ c v | .tag _ _ c v => c = false ∧ v = false
  | _ => True

/-- Neither `__restrict` nor `__unaligned`. -/
def Ty.noExt : Ty → Prop
  | .ptr k u _ | .mptr k u _ _ => k.restrict = false ∧ u = false
  | .aptr k .. => k.restrict = false
  | _ => True

def PK.isStar : PK → Prop
  | .star .. => True
  | _ => False

/-- The name of a type or template ends in an identifier or a template instantiation. -/
def Seg.isName : Seg → Prop
  | .id _ | .tm .. => True
  | _ => False

def dimsOk (dims : List Nat) : Prop := dims ≠ [] ∧ dims.length < 2 ^ 64 ∧ ∀ d ∈ dims, d < 2 ^ 64

def Int32 (i : Int) : Prop := -(2 ^ 31) ≤ i ∧ i < 2 ^ 31

def Adj.Ok : Adj → Prop
  | .static n => n < 2 ^ 32
  | .disp d n => Int32 d ∧ n < 2 ^ 32
  | .dispex a b d n => Int32 a ∧ Int32 b ∧ Int32 d ∧ n < 2 ^ 32

def Kind.Ok : Kind → Prop
  | .thunk _ adj _ => adj.Ok
  | _ => True

def offsOk (offs : List Int) : Prop := ∀ i ∈ offs, i.natAbs < 2 ^ 63

section
variable (E : Env)

/-- No parameter list with `...` ends in an open parenthesis (no C++ type does). -/
def variadicOk (ps : List Text) (variadic : Bool) : Prop := variadic = true → (join c!", " ps).getLast? ≠ some '('

mutual
def Ty.Ok : Ty → Prop
  | .prim .. => True
  | .tag _ p _ _ => p.IsType
  | .ptr _ _ to => to.Ok
  | .fptr k s => k.restrict = false ∧ s.Ok
  | .aptr _ _ _ dims el => dimsOk dims ∧ el.unqualified ∧ el.Ok
  | .mptr k _ cls to => k.isStar ∧ cls.IsType ∧ to.noExt ∧ to.Ok
  | .mfptr k cls _ s => (k.isStar ∧ k.restrict = false) ∧ cls.IsType ∧ s.Ok
/-- The calling convention is known. -/
def Sig.Ok : Sig → Prop
  | .mk cc ret ps variadic _ => (convWord cc).isSome = true ∧ ret.Ok ∧ ps.Ok ∧ variadicOk (ps.list E) variadic
/-- Parameters are unqualified and not `void`. -/
def Tys.Ok : Tys → Prop
  | .nil => True
  | .cons t ts => t ≠ .prim .Void false false ∧ t.unqualified ∧ t.Ok ∧ ts.Ok
def Path.Ok : Path → Prop
  | .nil => True
  | .cons s p => s.Ok ∧ p.Ok
/-- The name of a type. -/
def Path.IsType : Path → Prop
  | .nil => False
  | .cons s p => s.isName ∧ s.Ok ∧ p.Ok
/-- Template instantiations and local scopes fit into the output buffer. -/
def Seg.Ok : Seg → Prop
  | .id s => Name s
  | .tm s as => Name s ∧ Fits ((Seg.tm s as).cpp E) ∧ as.Ok
  | .anon key => '@' ∉ key
  | .loc n d => (1 ≤ n ∧ n < 2 ^ 64) ∧ Fits ((Seg.loc n d).cpp E) ∧ d.Ok
def Args.Ok : Args → Prop
  | .nil => True
  | .ty t as => t.Ok ∧ as.Ok
  | .int _ n as => n < 2 ^ 64 ∧ as.Ok
  | .pack as => as.Ok
  | .fn s as => s.Ok ∧ as.Ok
  | .mfn _ s as => s.Ok ∧ as.Ok
  | .arr _ _ dims el as => dimsOk dims ∧ el.unqualified ∧ el.Ok ∧ as.Ok
  | .tmpl p as => p.IsType ∧ as.Ok
  | .addr d as => (∃ s, d.ident = some s ∧ Fits s) ∧ d.Ok ∧ as.Ok
  | .ref d as => d.Ok ∧ as.Ok
  | .memFn d offs as => ((∃ s, d.ident = some s ∧ Fits s) ∧ offs.length ∈ [1, 2, 3] ∧ offsOk offs) ∧ d.Ok ∧ as.Ok
  | .memData offs as => (offs.length ∈ [2, 3] ∧ offsOk offs) ∧ as.Ok
def Targs.Ok : Targs → Prop
  | .none => True
  | .some as => as.Ok
def Head.Ok : Head → Prop
  | .id s => Name s
  | .tm s as => Name s ∧ as.Ok
  | .op _ ta => ta.Ok
  | .lit s => s ≠ [] ∧ '@' ∉ s
def Decl.Ok : Decl → Prop
  | .var _ name scope ty => name.Ok ∧ scope.Ok ∧ ty.Ok
  | .fn k name scope s => k.Ok ∧ name.Ok ∧ scope.Ok ∧ s.Ok
  | .structor _ targs k s scope cc params variadic _ => (k.Ok ∧ (convWord cc).isSome = true ∧ variadicOk (params.list E) variadic) ∧
    targs.Ok ∧ s.isName ∧ s.Ok ∧ scope.Ok ∧ params.Ok
  | .conv targs k cls s => k.Ok ∧ targs.Ok ∧ cls.Ok ∧ s.Ok
end

/-! ### The names that are remembered -/

mutual
def Ty.keys : Ty → List Seg
  | .prim .. => []
  | .tag _ p _ _ => p.keys
  | .ptr _ _ to => to.keys
  | .fptr _ s => s.keys
  | .aptr _ _ _ _ el => el.keys
  | .mptr _ _ cls to => cls.keys ++ to.keys
  | .mfptr _ cls _ s => cls.keys ++ s.keys
def Sig.keys : Sig → List Seg
  | .mk _ ret ps _ _ => ret.keys ++ ps.keys
def Tys.keys : Tys → List Seg
  | .nil => []
  | .cons t ts => t.keys ++ ts.keys
def Path.keys : Path → List Seg
  | .nil => []
  | .cons s p => s.keys ++ p.keys
def Seg.keys : Seg → List Seg
  | .id s => [.id s]
  | .tm s as => [.tm s as, .id s] ++ as.keys
  | .anon key => [.anon key]
  | .loc _ d => d.keys
def Args.keys : Args → List Seg
  | .nil => []
  | .ty t as => t.keys ++ as.keys
  | .int _ _ as => as.keys
  | .pack as => as.keys
  | .fn s as => s.keys ++ as.keys
  | .mfn _ s as => s.keys ++ as.keys
  | .arr _ _ _ el as => el.keys ++ as.keys
  | .tmpl p as => p.keys ++ as.keys
  | .addr d as => d.keys ++ as.keys
  | .ref d as => d.keys ++ as.keys
  | .memFn d _ as => d.keys ++ as.keys
  | .memData _ as => as.keys
def Targs.keys : Targs → List Seg
  | .none => []
  | .some as => as.keys
def Head.keys : Head → List Seg
  | .id s => [.id s]
  | .tm s as => [.id s] ++ as.keys
  | .op _ ta => ta.keys
  | .lit _ => []
def Decl.keys : Decl → List Seg
  | .var _ name scope ty => name.keys ++ scope.keys ++ ty.keys
  | .fn _ name scope s => name.keys ++ scope.keys ++ s.keys
  | .structor _ targs _ s scope _ ps _ _ => targs.keys ++ s.keys ++ scope.keys ++ ps.keys
  | .conv targs _ cls s => targs.keys ++ cls.keys ++ s.keys
end

/-- The text by which a name is known: that of its declaration, for an anonymous namespace the key. -/
def Seg.known : Seg → Text
  | .anon key => key
  | s => s.cpp E

/-- Different names have different texts. -/
def Distinct (l : List Seg) : Prop := ∀ a ∈ l, ∀ b ∈ l, a.known E = b.known E → a = b

end

end Undname.Spec.Cxx
