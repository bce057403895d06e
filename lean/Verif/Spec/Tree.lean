/-
  Specification: the declarations a mangled name can denote, and how they are written in C++.
  Nothing here refers to the parser, the node cache or the rendering code of the model; only the
  enumerations, the flag accessors and the unspecified Unicode table `E.uni` are shared.
-/
import Verif.Model.Output

namespace Undname.Spec

/-! ### Attributes -/

/-- `const`, `volatile`, `__restrict`, `__unaligned`. -/
structure CV where
  c : Bool := false
  v : Bool := false
  r : Bool := false
  u : Bool := false
  deriving DecidableEq, Repr

/-- All qualifiers of both. -/
def CV.or (a b : CV) : CV := ⟨a.c || b.c, a.v || b.v, a.r || b.r, a.u || b.u⟩

inductive Access where
  | priv | prot | publ
  deriving DecidableEq, Repr

/-- What the function class letters say about a function. -/
structure FnKind where
  access : Option Access := none
  isStatic : Bool := false
  isVirtual : Bool := false
  externC : Bool := false
  /-- declared without a parameter list -/
  bare : Bool := false
  deriving DecidableEq, Repr

structure Sig where
  kind : FnKind := {}
  cv : CV := {}
  conv : Option CallingConv := none
  ref : Option FunctionRefQualifier := none
  variadic : Bool := false
  isNoexcept : Bool := false
  deriving DecidableEq, Repr

/-- The `this` adjustment of a thunk. -/
inductive Adjust where
  | none
  | adjustor (off : Nat)
  | vtordisp (disp : Int) (off : Nat)
  | vtordispex (vbptr vboff disp : Int) (off : Nat)
  deriving DecidableEq, Repr

/-! ### Trees -/

/-- Declarations, types, names and lists of them, in one sort. An optional part is a list of length at most
one. -/
inductive T where
  | nil
  | cons (a as : T)
  -- types
  | prim (q : CV) (k : PrimitiveKind)
  | tag (q : CV) (k : TagKind) (name : T)
  | ptr (q : CV) (a : PointerAffinity) (cls to : T)
  | array (q : CV) (dims : List Nat) (el : T)
  | sig (f : Sig) (ret params : T)
  | thunk (f : Sig) (adj : Adjust) (ret params : T)
  | custom (id : T)
  -- lists of things separated by commas, and qualified names
  | arr (items : T)
  | qname (items : T)
  -- identifiers, with optional template arguments
  | named (s : Text) (targs : T)
  | op (o : Option IFK) (targs : T)
  | lit (s : Text) (targs : T)
  | conv (targs target : T)
  | structor (dtor : Bool) (cls targs : T)
  | vcall (off : Nat)
  | guardId (thread : Bool) (index : Nat)
  | baseDescr (nv : Nat) (vbptr : Int) (vbtable flags : Nat)
  | dynVar (dtor : Bool) (v : T)
  | dynFn (dtor : Bool) (n : T)
  -- template arguments other than types and names
  | addr (amp : Bool) (sym : T) (offs : List Int)
  | int (v : Nat) (neg : Bool)
  -- symbols
  | var (sc : Option StorageClass) (name ty : T)
  | typeDescr (ty : T)
  | fn (name sig : T)
  | table (q : CV) (name target : T)
  | same (name : T)
  | str (k : CharKind) (s : Text) (cut : Bool)

/-! ### Words -/

def primName : PrimitiveKind → Text
  | .Void => c!"void" | .Bool => c!"bool" | .Char => c!"char" | .Schar => c!"signed char"
  | .Uchar => c!"unsigned char" | .Char8 => c!"char8_t" | .Char16 => c!"char16_t"
  | .Char32 => c!"char32_t" | .Short => c!"short" | .Ushort => c!"unsigned short" | .Int => c!"int"
  | .Uint => c!"unsigned int" | .Long => c!"long" | .Ulong => c!"unsigned long" | .Int64 => c!"__int64"
  | .Uint64 => c!"unsigned __int64" | .Wchar => c!"wchar_t" | .Float => c!"float" | .Double => c!"double"
  | .Ldouble => c!"long double" | .Nullptr => c!"std::nullptr_t" | .Auto => c!"auto"
  | .DecltypeAuto => c!"decltype(auto)"

def tagName : TagKind → Text
  | .Class => c!"class" | .Struct => c!"struct" | .Union => c!"union" | .Enum => c!"enum"

/-- `__word`, or `word` with `NO_LEADING_UNDERSCORES`. -/
def msWord (E : Env) (s : Text) : Text := if E.flags.no_leading_underscores then s else c!"__" ++ s

def convName (E : Env) : CallingConv → Text
  | .Cdecl => msWord E c!"cdecl"
  | .Pascal => msWord E c!"pascal"
  | .Thiscall => msWord E c!"thiscall"
  | .Stdcall => msWord E c!"stdcall"
  | .Fastcall => msWord E c!"fastcall"
  | .Clrcall => msWord E c!"clrcall"
  | .Eabi => msWord E c!"eabi"
  | .Vectorcall => msWord E c!"vectorcall"
  | .Swift => c!"__attribute__((__swiftcall__)) "
  | .SwiftAsync => c!"__attribute__((__swiftasynccall__)) "

def affName : PointerAffinity → Text
  | .Pointer => c!"*" | .Reference => c!"&" | .RValueReference => c!"&&"

def refName : Option FunctionRefQualifier → Text
  | none => [] | some .Reference => c!" &" | some .RValueReference => c!" &&"

def accessName : Access → Text
  | .priv => c!"private: " | .prot => c!"protected: " | .publ => c!"public: "

/-- Operators and compiler-generated functions. -/
def opName : IFK → Text
  | .New => c!"operator new" | .Delete => c!"operator delete" | .Assign => c!"operator="
  | .RightShift => c!"operator>>" | .LeftShift => c!"operator<<" | .LogicalNot => c!"operator!"
  | .Equals => c!"operator==" | .NotEquals => c!"operator!=" | .ArraySubscript => c!"operator[]"
  | .Pointer => c!"operator->" | .Dereference => c!"operator*" | .Increment => c!"operator++"
  | .Decrement => c!"operator--" | .Minus => c!"operator-" | .Plus => c!"operator+"
  | .BitwiseAnd => c!"operator&" | .MemberPointer => c!"operator->*" | .Divide => c!"operator/"
  | .Modulus => c!"operator%" | .LessThan => c!"operator<" | .LessThanEqual => c!"operator<="
  | .GreaterThan => c!"operator>" | .GreaterThanEqual => c!"operator>=" | .Comma => c!"operator,"
  | .Parens => c!"operator()" | .BitwiseNot => c!"operator~" | .BitwiseXor => c!"operator^"
  | .BitwiseOr => c!"operator|" | .LogicalAnd => c!"operator&&" | .LogicalOr => c!"operator||"
  | .TimesEqual => c!"operator*=" | .PlusEqual => c!"operator+=" | .MinusEqual => c!"operator-="
  | .DivEqual => c!"operator/=" | .ModEqual => c!"operator%=" | .RshEqual => c!"operator>>="
  | .LshEqual => c!"operator<<=" | .BitwiseAndEqual => c!"operator&=" | .BitwiseOrEqual => c!"operator|="
  | .BitwiseXorEqual => c!"operator^=" | .VbaseDtor => c!"`vbase dtor'"
  | .VecDelDtor => c!"`vector deleting dtor'" | .DefaultCtorClosure => c!"`default constructor closure'"
  | .ScalarDelDtor => c!"`scalar deleting dtor'" | .VecCtorIter => c!"`vector ctor iterator'"
  | .VecDtorIter => c!"`vector dtor iterator'" | .VecVbaseCtorIter => c!"`vector vbase ctor iterator'"
  | .VdispMap => c!"`virtual displacement map'" | .EHVecCtorIter => c!"`eh vector ctor iterator'"
  | .EHVecDtorIter => c!"`eh vector dtor iterator'"
  | .EHVecVbaseCtorIter => c!"`eh vector vbase ctor iterator'"
  | .CopyCtorClosure => c!"`copy ctor closure'"
  | .LocalVftableCtorClosure => c!"`local vftable ctor closure'" | .ArrayNew => c!"operator new[]"
  | .ArrayDelete => c!"operator delete[]" | .ManVectorCtorIter => c!"`managed vector ctor iterator'"
  | .ManVectorDtorIter => c!"`managed vector dtor iterator'"
  | .EHVectorCopyCtorIter => c!"`EH vector copy ctor iterator'"
  | .EHVectorVbaseCopyCtorIter => c!"`EH vector vbase copy ctor iterator'"
  | .VectorCopyCtorIter => c!"`vector copy ctor iterator'"
  | .VectorVbaseCopyCtorIter => c!"`vector vbase copy constructor iterator'"
  | .ManVectorVbaseCopyCtorIter => c!"`managed vector vbase copy constructor iterator'"
  | .CoAwait => c!"operator co_await" | .Spaceship => c!"operator<=>"

def charPrefix : CharKind → Text
  | .Char => [] | .Char16 => c!"u" | .Char32 => c!"U" | .Wchar => c!"L"

/-- Decimal numerals. -/
def nat (n : Nat) : Text := Nat.toDigits 10 n
/-- Decimal numerals with a sign. -/
def sint : Int → Text
  | .ofNat n => nat n
  | .negSucc n => '-' :: nat (n + 1)

def Adjust.text : Adjust → Text
  | .none => []
  | .adjustor n => c!"`adjustor{" ++ nat n ++ c!"}'"
  | .vtordisp d n => c!"`vtordisp{" ++ sint d ++ c!", " ++ nat n ++ c!"}'"
  | .vtordispex a b d n =>
    c!"`vtordispex{" ++ sint a ++ c!", " ++ sint b ++ c!", " ++ sint d ++ c!", " ++ nat n ++ c!"}'"

/-- `const`, `volatile`, `__restrict` as separate words. With `NO_MS_KEYWORDS` the word `__restrict` is
empty (its separating blank remains). -/
def CV.words (E : Env) (q : CV) : List Text :=
  (if q.c then [c!"const"] else []) ++ (if q.v then [c!"volatile"] else []) ++
  (if q.r then [if E.flags.no_ms_keywords then [] else msWord E c!"restrict"] else [])

/-- The words, each after a blank. -/
def CV.after (E : Env) (q : CV) : Text := (q.words E).flatMap (' ' :: ·)
/-- The words separated by blanks. -/
def CV.sep (E : Env) (q : CV) : Text := (CV.after E q).drop 1
/-- The words, each before a blank. -/
def CV.before (E : Env) (q : CV) : Text :=
  if (q.sep E).isEmpty then [] else q.sep E ++ c!" "

/-- The qualifiers of a member function, each after a blank. -/
def CV.this (E : Env) (q : CV) : Text :=
  (if q.c then c!" const" else []) ++ (if q.v then c!" volatile" else []) ++
  (if E.flags.no_ms_keywords then [] else
    (if q.r then ' ' :: msWord E c!"restrict" else []) ++
    (if q.u then ' ' :: msWord E c!"unaligned" else []))

/-- A character after which a word needs a blank. -/
def isWordEnd (E : Env) (c : Char) : Bool :=
  c == '>' || (if c.toNat < 128 then c.isAlphanum else E.uni c)

/-- Adds a blank if the text ends in a word or in `>`. -/
def sp (E : Env) (w : Text) : Text :=
  match w.getLast? with
  | some c => if isWordEnd E c then w ++ c!" " else w
  | none => w

/-! ### Printing -/

/-- What a tree prints: every function appends to the text written so far (which matters, because a blank
is added only after a word). -/
structure Pr where
  /-- is it a non-empty list? -/
  some : Bool
  /-- the whole thing -/
  out : Text → Text
  /-- the part of a type before the declared name; `true`: as the target of a pointer -/
  pre : Bool → Text → Text
  /-- the part of a type after the declared name -/
  post : Bool → Text → Text
  /-- the elements of a list, with separators in between -/
  seq : Text → Text → Text
  /-- the elements of a list, each after a separator -/
  tail : Text → Text → Text

namespace Pr

def ofText (f : Text → Text) : Pr := ⟨true, f, fun _ => f, fun _ => id, fun _ => id, fun _ => id⟩
def ofType (pre post : Bool → Text → Text) : Pr :=
  ⟨true, fun w => post false (pre false w), pre, post, fun _ => id, fun _ => id⟩
def nil : Pr := ⟨false, id, fun _ => id, fun _ => id, fun _ => id, fun _ => id⟩
def cons (a as : Pr) : Pr :=
  ⟨true, a.out, a.pre, a.post, fun sep w => as.tail sep (a.out w), fun sep w => as.tail sep (a.out (w ++ sep))⟩

end Pr

section
variable (E : Env)

/-- Template arguments in angle brackets. -/
def targsOut (a : Pr) (w : Text) : Text := if a.some then a.out (w ++ c!"<") ++ c!">" else w

/-- The part of a function signature before its name: access, kind, return type, calling convention. -/
def sigPre (f : Sig) (ret : Pr) (fp : Bool) (w : Text) : Text :=
  let w := w ++ (if !E.flags.no_access_specifier && !E.flags.name_only then
    (match f.kind.access with | Option.some a => accessName a | none => []) else [])
  let w := w ++ (if !E.flags.no_member_type && !E.flags.name_only then
    (if f.kind.isStatic then c!"static " else []) ++ (if f.kind.isVirtual then c!"virtual " else []) ++
    (if f.kind.externC then c!"extern \"C\" " else []) else [])
  let w := if !E.flags.no_return_type && (fp || !E.flags.name_only) && ret.some then
    ret.pre false w ++ c!" " else w
  if !fp && !E.flags.no_calling_convention && !E.flags.no_ms_keywords && !E.flags.name_only then
    (match f.conv with | Option.some cc => sp E w ++ convName E cc | none => w) else w

/-- A parameter list. -/
def paramsOut (f : Sig) (params : Pr) (w : Text) : Text :=
  let w := w ++ c!"("
  let w := if params.some then params.out w else w ++ c!"void"
  let w := if f.variadic then
    (if w.getLast? == Option.some '(' then w else w ++ c!", ") ++ c!"..." else w
  w ++ c!")"

/-- The part of a function signature after its name. -/
def sigPost (f : Sig) (ret params : Pr) (fp : Bool) (w : Text) : Text :=
  let w := if (fp || !E.flags.name_only) && !f.kind.bare then paramsOut f params w else w
  let this := !E.flags.no_this_type && !E.flags.name_only
  let w := w ++ (if this then f.cv.this E else [])
  let w := w ++ (if f.isNoexcept then c!" noexcept" else [])
  let w := w ++ (if this then refName f.ref else [])
  if !E.flags.no_return_type && !E.flags.name_only then ret.post false w else w

def thunkPrefix : Text := if E.flags.name_only then [] else c!"[thunk]: "

/-- The target of a pointer is an array or a function: parentheses are needed. -/
def needsParens : T → Bool
  | .array .. | .sig .. | .thunk .. => true
  | _ => false

/-- `(` and the calling convention, in a pointer to an array or function. -/
def openParen (to : T) (w : Text) : Text :=
  match to with
  | .array .. => w ++ c!"("
  | .sig f _ _ | .thunk f _ _ _ =>
    let w := w ++ c!"("
    if !E.flags.no_calling_convention && !E.flags.no_ms_keywords then
      match f.conv with
      | some cc => sp E w ++ convName E cc ++ c!" "
      | none => w
    else w
  | _ => w

/-- The array bounds, each in brackets; the bound 0 is left empty. -/
def bounds : List Nat → Text
  | [] => c!"[]"
  | d :: ds => c!"[" ++ one d ++ (ds.flatMap fun d => c!"][" ++ one d) ++ c!"]"
where
  one (d : Nat) : Text := if d = 0 then [] else nat d

/-- A symbol used as a template argument. -/
def addrOut (amp : Bool) (sym : Pr) (offs : List Int) (w : Text) : Text :=
  if offs.isEmpty then
    let w := w ++ (if amp then c!"&" else [])
    if sym.some then sym.out w else w
  else
    let w := w ++ c!"{"
    let w := if sym.some then sym.out w ++ c!", " else w
    w ++ (List.intersperse c!", " (offs.map sint)).flatten ++ c!"}"

def storageAccess : Option StorageClass → Option Access
  | some .PrivateStatic => some .priv
  | some .ProtectedStatic => some .prot
  | some .PublicStatic => some .publ
  | _ => none

/-- Access and `static` of a variable. -/
def storageText (sc : Option StorageClass) : Text :=
  match storageAccess sc with
  | none => []
  | some a =>
    (if !E.flags.no_access_specifier && !E.flags.name_only then accessName a else []) ++
    (if !E.flags.no_member_type && !E.flags.name_only then c!"static " else [])

/-- What a tree prints. -/
def T.pr : T → Pr
  | .nil => .nil
  | .cons a as => .cons a.pr as.pr
  | .prim q k => .ofType (fun _ w => w ++ primName k ++ q.after E) (fun _ w => w)
  | .tag q k name => .ofType (fun _ w =>
      name.pr.out (w ++ (if !E.flags.no_tag_specifier && !E.flags.name_only then tagName k ++ c!" " else []))
        ++ q.after E) (fun _ w => w)
  | .ptr q a cls to => .ofType
      (fun _ w =>
        let w := sp E (to.pr.pre true w)
        let w := w ++ (if !E.flags.no_ms_keywords && q.u then msWord E c!"unaligned" ++ c!" " else [])
        let w := openParen E to w
        let w := if cls.pr.some then cls.pr.out w ++ c!"::" else w
        w ++ affName a ++ q.sep E)
      (fun _ w => to.pr.post true (w ++ (if needsParens to then c!")" else [])))
  | .array q dims el => .ofType (fun _ w => el.pr.pre false w ++ q.after E)
      (fun _ w => el.pr.post false (w ++ bounds dims))
  | .sig f ret params => .ofType (sigPre E f ret.pr) (sigPost E f ret.pr params.pr)
  | .thunk f adj ret params => .ofType (fun fp w => sigPre E f ret.pr fp (w ++ thunkPrefix E))
      (fun fp w => sigPost E f ret.pr params.pr fp (w ++ adj.text))
  | .custom id => .ofType (fun _ => id.pr.out) (fun _ w => w)
  | .arr items => .ofText (items.pr.seq c!", ")
  | .qname items => .ofText (items.pr.seq c!"::")
  | .named s ta => .ofText fun w => targsOut ta.pr (w ++ s)
  | .op o ta => .ofText fun w => targsOut ta.pr (w ++ (match o with | some o => opName o | none => []))
  | .lit s ta => .ofText fun w => targsOut ta.pr (w ++ c!"operator \"\"" ++ s)
  | .conv ta target => .ofText fun w => target.pr.out (targsOut ta.pr (w ++ c!"operator") ++ c!" ")
  | .structor d cls ta => .ofText fun w =>
      targsOut ta.pr (cls.pr.out (w ++ (if d then c!"~" else [])))
  | .vcall n => .ofText fun w =>
      w ++ c!"`vcall'{" ++ nat n ++ (if E.flags.name_only then [] else c!", {flat}") ++ c!"}"
  | .guardId th i => .ofText fun w =>
      w ++ (if th then c!"`local static thread guard'" else c!"`local static guard'") ++
        (if i = 0 then [] else c!"{" ++ nat i ++ c!"}")
  | .baseDescr nv vb vt fl => .ofText fun w =>
      w ++ c!"`RTTI Base Class Descriptor at (" ++ nat nv ++ c!", " ++ sint vb ++ c!", " ++ nat vt ++
        c!", " ++ nat fl ++ c!")'"
  | .dynVar d v => .ofText fun w =>
      v.pr.out (w ++ (if d then c!"`dynamic atexit destructor for " else c!"`dynamic initializer for ") ++
        c!"`") ++ c!"''"
  | .dynFn d n => .ofText fun w =>
      n.pr.out (w ++ (if d then c!"`dynamic atexit destructor for " else c!"`dynamic initializer for ") ++
        c!"'") ++ c!"''"
  | .addr amp sym offs => .ofText (addrOut amp sym.pr offs)
  | .int v neg => .ofText fun w => w ++ (if neg then c!"-" else []) ++ nat v
  | .var sc name ty => .ofText fun w =>
      let w := w ++ storageText E sc
      if !E.flags.no_variable_type && !E.flags.name_only && ty.pr.some then
        ty.pr.post false (name.pr.out (sp E (ty.pr.pre false w)))
      else name.pr.out w
  | .typeDescr ty => .ofText fun w =>
      let w := ty.pr.out w
      if E.flags.name_only then w else sp E w ++ c!"`RTTI Type Descriptor Name'"
  | .fn name sg => .ofText fun w => sg.pr.post false (name.pr.out (sp E (sg.pr.pre false w)))
  | .table q name target => .ofText fun w =>
      let w := name.pr.out (w ++ (if E.flags.name_only then [] else q.before E))
      if target.pr.some then target.pr.out (w ++ c!"{for `") ++ c!"'}" else w
  | .same name => .ofText name.pr.out
  | .str k s cut => .ofText fun w => w ++ charPrefix k ++ c!"\"" ++ s ++ c!"\"" ++ (if cut then c!"..." else [])

/-- The text of a declaration. -/
def T.text (t : T) : Text := (T.pr E t).out []

end

end Undname.Spec
