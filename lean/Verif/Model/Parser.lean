/-
  Model of undname-rs, part 4: the parser (`impl Demangler`, src/demangler.rs).

  The Rust functions are methods of `Demangler`, whose fields `mangled_name`, `cache` and `backrefs`
  are the state `St`; `allocator` only provides memory and is not modelled; `flags` is used by the
  parser solely to render nodes (lines 1112-1123 and 1767-1794), so the parser takes the renderer `rend`.
  Recursion is tied through `Fns` with an explicit depth budget, loops through `SM.iterate` with an
  explicit bound on the number of iterations; exhausting either is `Crash.fuel`.
-/
import Verif.Model.Output

namespace Undname

/-- The mutable fields of `struct Demangler`, src/demangler.rs:241-247, with `BackrefContext`
(197-204) inlined. -/
structure St where
  str : MStr
  cache : Cache
  names : List Handle
  function_params : List Handle
  deriving DecidableEq, Repr

/-- `&mut self` methods of `Demangler` returning `Result`. -/
abbrev P := SM St

/-- How nodes are rendered: `fun cache interface handle => ..`. -/
abbrev Renderer := Cache → Kind → Handle → W Unit

/-- `enum QualifierMangleMode`, src/demangler.rs:206-211. -/
inductive QMM where
  | Drop | Mangle | Result
  deriving DecidableEq, Repr

/-- `struct NameBackrefBehavior`, src/demangler.rs:213-232; only the two one-bit values occur. -/
inductive NBB where
  | Template | Simple
  deriving DecidableEq, Repr

/-- src/demangler.rs:223-226 -/
def NBB.is_template : NBB → Bool
  | .Template => true
  | .Simple => false

/-- src/demangler.rs:228-231 -/
def NBB.is_simple : NBB → Bool
  | .Template => false
  | .Simple => true

/-- `enum FunctionIdentifierCodeGroup`, src/demangler.rs:234-239. -/
inductive CodeGroup where
  | Basic | Under | DoubleUnder
  deriving DecidableEq, Repr

/-! ### Access to the fields -/

/-- A method call on `self.mangled_name`. -/
def onStr {α : Type} (m : SM MStr α) : P α := fun s =>
  match m s.str with
  | .ok (a, str) => .ok (a, { s with str := str })
  | .error e => .error e

/-- `self.mangled_name.try_consume()` -/
def tryAny : P (Option Char) := onStr MStr.try_consume
/-- `self.mangled_name.try_consume_char(c).is_some()` -/
def tryChar (c : Char) : P Bool := do return (← onStr (MStr.try_consume_char c)).isSome
/-- `self.mangled_name.try_consume_char_if(f)` -/
def tryIf (f : Char → Bool) : P (Option Char) := onStr (MStr.try_consume_char_if f)
/-- `self.mangled_name.try_consume_str(t).is_some()` -/
def tryStr (t : Text) : P Bool := do return (← onStr (MStr.try_consume_str t)).isSome
/-- `self.mangled_name.try_consume_n_bytes(n)` -/
def tryBytes (n : Nat) : P (Option Text) := onStr (MStr.try_consume_n_bytes n)
/-- A read-only query of `self.mangled_name`. -/
def query {α : Type} (f : MStr → α) : P α := do return f (← SM.get).str
/-- A read-only query of `self.mangled_name` that may crash. -/
def queryE {α : Type} (f : MStr → Except Fail α) : P α := do SM.lift (f (← SM.get).str)
/-- `self.mangled_name.try_consume_char(c).ok_or(e)?` -/
def expectChar (c : Char) (e : Error) : P Unit := do
  let b ← tryChar c
  if b then pure () else SM.err e
/-- `self.mangled_name.try_consume_str(t).ok_or(e)?` -/
def expectStr (t : Text) (e : Error) : P Unit := do
  let b ← tryStr t
  if b then pure () else SM.err e
/-- `self.mangled_name.try_consume().ok_or(e)?` -/
def expectAny (e : Error) : P Char := do
  let c ← tryAny
  SM.okOr e c
/-- `self.mangled_name.first_char().is_some_and(f)` -/
def firstIs (f : Char → Bool) : P Bool :=
  query fun m => match m.first_char with | some c => f c | none => false

/-- The limit of src/cache.rs:321, `1 << 11` nodes. -/
def NODE_LIMIT : Nat := 2048

/-- `NodeCache::intern`, src/cache.rs:313-333. -/
def intern (n : Node) : P Handle := fun s =>
  if s.cache.length + 1 > NODE_LIMIT then .error (.err .MaliciousInput)
  else .ok (s.cache.length, { s with cache := s.cache ++ [n] })

/-- `handle.resolve(&self.cache)` -/
def resolveP (k : Kind) (h : Handle) : P Node := do SM.lift (resolve k (← SM.get).cache h)

/-- `handle.downcast::<dst>(&self.cache)` of a handle of interface `src`. -/
def downcastP (src dst : Kind) (h : Handle) : P (Option Handle) := do
  SM.lift (downcast src dst (← SM.get).cache h)

/-- `handle.resolve_mut(&mut self.cache)` followed by the update `f` of the node. -/
def modifyNode (k : Kind) (h : Handle) (f : Node → Node) : P Unit := do
  let n ← resolveP k h
  SM.modify fun s => { s with cache := s.cache.set h (f n) }

/-- Rendering into a fresh `BufWriter` (starting from `t`) and taking its text. The `Utf8Error` of
`ob.try_into()?` (src/demangler.rs:174-182) cannot occur: text is modelled as characters, and only whole
characters are ever written. -/
def runW (m : W Unit) (t : Text) : P Text := fun s =>
  match m t with
  | .ok (_, t') => .ok (t', s)
  | .error e => .error e

/-- Loops over the input: at most one iteration per remaining character, plus one. -/
def loopInput {β γ : Type} (body : β → P (β ⊕ γ)) (b : β) : P γ := fun s =>
  SM.iterate (s.str.string.length + 1) body b s

/-! ### Leaf parsers -/

/-- The loop of `demangle_number`, src/demangler.rs:1056-1071, starting at the character `c`. -/
def numberBody (x : Nat × Char) : P ((Nat × Char) ⊕ Nat) :=
  if x.2 == '@' then pure (.inr x.1)
  else if is_rebased_ascii_hexdigit x.2 then do
    let shifted := x.1 * 16 % 2 ^ 64
    let number := shifted + (x.2.toNat - 'A'.toNat)
    if number < 2 ^ 64 then do
      let c ← expectAny .InvalidNumber
      pure (.inl (number, c))
    else SM.crash .panic             -- `+` overflow
  else SM.err .InvalidNumber

/-- `demangle_number`, src/demangler.rs:1046-1073: absolute value and sign. -/
def demangle_number : P (Nat × Bool) := do
  let is_negative ← tryChar '?'
  let c ← expectAny .InvalidNumber
  if isDigit c then pure (c.toNat - '0'.toNat + 1, is_negative)
  else do
    let n ← loopInput numberBody (0, c)
    pure (n, is_negative)

/-- `demangle_unsigned`, src/demangler.rs:1075-1082. -/
def demangle_unsigned : P Nat := do
  let (number, is_negative) ← demangle_number
  if is_negative then SM.err .InvalidUnsigned else pure number

/-- `demangle_signed`, src/demangler.rs:1084-1090. -/
def demangle_signed : P Int := do
  let (number, is_negative) ← demangle_number
  if number < 2 ^ 63 then pure (if is_negative then -(number : Int) else (number : Int))
  else SM.err .InvalidSigned

/-- `x as u32` of an `i64`. -/
def asU32 (x : Int) : Nat := (x % 2 ^ 32).toNat
/-- `x as i32` of an `i64`. -/
def asI32 (x : Int) : Int := Int.bmod x (2 ^ 32)

/-- `demangle_qualifiers`, src/demangler.rs:2149-2167: qualifiers and whether it is a member. -/
def demangle_qualifiers : P (Qualifiers × Bool) := do
  let f ← expectAny .InvalidQualifiers
  match f with
  | 'Q' => pure (Qualifiers.Q_None, true)
  | 'R' => pure (Qualifiers.Q_Const, true)
  | 'S' => pure (Qualifiers.Q_Volatile, true)
  | 'T' => pure (Qualifiers.Q_Const ||| Qualifiers.Q_Volatile, true)
  | 'A' => pure (Qualifiers.Q_None, false)
  | 'B' => pure (Qualifiers.Q_Const, false)
  | 'C' => pure (Qualifiers.Q_Volatile, false)
  | 'D' => pure (Qualifiers.Q_Const ||| Qualifiers.Q_Volatile, false)
  | _ => SM.err .InvalidQualifiers

/-- `demangle_pointer_cv_qualifiers`, src/demangler.rs:2169-2189. -/
def demangle_pointer_cv_qualifiers : P (Qualifiers × PointerAffinity) := do
  let b ← tryStr c!"$$Q"
  if b then pure (Qualifiers.Q_None, .RValueReference)
  else do
    let f ← expectAny .InvalidPointerCVQualifiers
    match f with
    | 'A' => pure (Qualifiers.Q_None, .Reference)
    | 'P' => pure (Qualifiers.Q_None, .Pointer)
    | 'Q' => pure (Qualifiers.Q_Const, .Pointer)
    | 'R' => pure (Qualifiers.Q_Volatile, .Pointer)
    | 'S' => pure (Qualifiers.Q_Const ||| Qualifiers.Q_Volatile, .Pointer)
    | _ => SM.err .InvalidPointerCVQualifiers

/-- `demangle_pointer_ext_qualifiers`, src/demangler.rs:530-542. -/
def demangle_pointer_ext_qualifiers : P Qualifiers := do
  let e ← tryChar 'E'
  let i ← tryChar 'I'
  let f ← tryChar 'F'
  pure ((if e then Qualifiers.Q_Pointer64 else Qualifiers.Q_None) |||
    (if i then Qualifiers.Q_Restrict else Qualifiers.Q_None) |||
    (if f then Qualifiers.Q_Unaligned else Qualifiers.Q_None))

/-- `demangle_function_ref_qualifier`, src/demangler.rs:2192-2200. -/
def demangle_function_ref_qualifier : P (Option FunctionRefQualifier) := do
  let g ← tryChar 'G'
  if g then pure (some .Reference)
  else do
    let h ← tryChar 'H'
    if h then pure (some .RValueReference) else pure none

open FuncClass in
/-- The one-letter function classes, src/demangler.rs:1953-1989. -/
def functionClassOf : Char → Option FuncClass
  | '9' => some (FC_ExternC ||| FC_NoParameterList)
  | 'A' => some FC_Private
  | 'B' => some (FC_Private ||| FC_Far)
  | 'C' => some (FC_Private ||| FC_Static)
  | 'D' => some (FC_Private ||| FC_Static ||| FC_Far)
  | 'E' => some (FC_Private ||| FC_Virtual)
  | 'F' => some (FC_Private ||| FC_Virtual ||| FC_Far)
  | 'G' => some (FC_Private ||| FC_StaticThisAdjust)
  | 'H' => some (FC_Private ||| FC_StaticThisAdjust ||| FC_Far)
  | 'I' => some FC_Protected
  | 'J' => some (FC_Protected ||| FC_Far)
  | 'K' => some (FC_Protected ||| FC_Static)
  | 'L' => some (FC_Protected ||| FC_Static ||| FC_Far)
  | 'M' => some (FC_Protected ||| FC_Virtual)
  | 'N' => some (FC_Protected ||| FC_Virtual ||| FC_Far)
  | 'O' => some (FC_Protected ||| FC_Virtual ||| FC_StaticThisAdjust)
  | 'P' => some (FC_Protected ||| FC_Virtual ||| FC_StaticThisAdjust ||| FC_Far)
  | 'Q' => some FC_Public
  | 'R' => some (FC_Public ||| FC_Far)
  | 'S' => some (FC_Public ||| FC_Static)
  | 'T' => some (FC_Public ||| FC_Static ||| FC_Far)
  | 'U' => some (FC_Public ||| FC_Virtual)
  | 'V' => some (FC_Public ||| FC_Virtual ||| FC_Far)
  | 'W' => some (FC_Public ||| FC_Virtual ||| FC_StaticThisAdjust)
  | 'X' => some (FC_Public ||| FC_Virtual ||| FC_StaticThisAdjust ||| FC_Far)
  | 'Y' => some FC_Global
  | 'Z' => some (FC_Global ||| FC_Far)
  | _ => none

open FuncClass in
/-- The function classes after `$` or `$R`, src/demangler.rs:2000-2014. -/
def virtualFunctionClassOf (vflag : FuncClass) : Char → Option FuncClass
  | '0' => some (FC_Private ||| FC_Virtual ||| vflag)
  | '1' => some (FC_Private ||| FC_Virtual ||| vflag ||| FC_Far)
  | '2' => some (FC_Protected ||| FC_Virtual ||| vflag)
  | '3' => some (FC_Protected ||| FC_Virtual ||| vflag ||| FC_Far)
  | '4' => some (FC_Public ||| FC_Virtual ||| vflag)
  | '5' => some (FC_Public ||| FC_Virtual ||| vflag ||| FC_Far)
  | _ => none

/-- `demangle_function_class`, src/demangler.rs:1947-2020. -/
def demangle_function_class : P FuncClass := do
  let f ← expectAny .InvalidFunctionClass
  if f == '$' then do
    let ex ← tryChar 'R'
    let f ← expectAny .InvalidFunctionClass
    SM.okOr .InvalidFunctionClass (virtualFunctionClassOf
      (if ex then FuncClass.FC_VirtualThisAdjust ||| FuncClass.FC_VirtualThisAdjustEx
       else FuncClass.FC_VirtualThisAdjust) f)
  else SM.okOr .InvalidFunctionClass (functionClassOf f)

/-- src/demangler.rs:2027-2039 -/
def callingConvOf : Char → Option CallingConv
  | 'A' | 'B' => some .Cdecl
  | 'C' | 'D' => some .Pascal
  | 'E' | 'F' => some .Thiscall
  | 'G' | 'H' => some .Stdcall
  | 'I' | 'J' => some .Fastcall
  | 'M' | 'N' => some .Clrcall
  | 'O' | 'P' => some .Eabi
  | 'Q' => some .Vectorcall
  | 'S' => some .Swift
  | 'W' => some .SwiftAsync
  | _ => none

/-- `demangle_calling_convention`, src/demangler.rs:2022-2041. -/
def demangle_calling_convention : P (Option CallingConv) := do
  let f ← expectAny .InvalidCallingConvention
  pure (callingConvOf f)

/-- `demangle_variable_storage_class`, src/demangler.rs:2043-2056. -/
def demangle_variable_storage_class : P StorageClass := do
  let f ← expectAny .InvalidVariableStorageClass
  match f with
  | '0' => pure .PrivateStatic
  | '1' => pure .ProtectedStatic
  | '2' => pure .PublicStatic
  | '3' => pure .Global
  | '4' => pure .FunctionLocalStatic
  | _ => SM.err .InvalidVariableStorageClass

/-- `demangle_throw_specification`, src/demangler.rs:2058-2066. -/
def demangle_throw_specification : P Bool := do
  let e ← tryStr c!"_E"
  if e then pure true
  else do
    let z ← tryChar 'Z'
    if z then pure false else SM.err .InvalidThrowSpecification

/-- src/demangler.rs:600-612: one-letter primitive types. -/
def primitiveOf : Char → Option PrimitiveKind
  | 'X' => some .Void
  | 'D' => some .Char
  | 'C' => some .Schar
  | 'E' => some .Uchar
  | 'F' => some .Short
  | 'G' => some .Ushort
  | 'H' => some .Int
  | 'I' => some .Uint
  | 'J' => some .Long
  | 'K' => some .Ulong
  | 'M' => some .Float
  | 'N' => some .Double
  | 'O' => some .Ldouble
  | _ => none

/-- src/demangler.rs:619-627: primitive types written `_` and a letter. -/
def primitiveUnderOf : Char → Option PrimitiveKind
  | 'N' => some .Bool
  | 'J' => some .Int64
  | 'K' => some .Uint64
  | 'W' => some .Wchar
  | 'Q' => some .Char8
  | 'S' => some .Char16
  | 'U' => some .Char32
  | 'P' => some .Auto
  | 'T' => some .DecltypeAuto
  | _ => none

/-- The kind read by `demangle_primitive_type`, src/demangler.rs:592-633. -/
def primitive_kind : P PrimitiveKind := do
  let nul ← tryStr c!"$$T"
  if nul then pure .Nullptr
  else do
    let f ← expectAny .InvalidPrimitiveType
    if f == '_' then do
      let f ← expectAny .InvalidPrimitiveType
      SM.okOr .InvalidPrimitiveType (primitiveUnderOf f)
    else SM.okOr .InvalidPrimitiveType (primitiveOf f)

/-- `demangle_primitive_type`, src/demangler.rs:591-635. -/
def demangle_primitive_type : P Handle := do
  let kind ← primitive_kind
  intern (.PrimitiveType Qualifiers.Q_None kind)

/-- `memorize_string`, src/demangler.rs:1094-1110. -/
def memorize_string (t : Text) : P Unit := do
  let s ← SM.get
  let known ← SM.lift (names_contain s.cache t s.names)
  if s.names.length < 10 && !known then do
    let h ← intern (.NamedIdentifier none t)
    push_name h
  else pure ()
where
  /-- `!names.iter().all(|x| x.resolve(&self.cache).name != s)`, src/demangler.rs:1095-1100. The Rust code
  only looks when the list is not full; the model always looks, which reads the same nodes. -/
  names_contain (c : Cache) (t : Text) : List Handle → Except Fail Bool
    | [] => .ok false
    | h :: hs =>
      match resolve .NamedIdentifier c h with
      | .ok (.NamedIdentifier _ name) =>
        if name == t then .ok true else names_contain c t hs
      | .ok _ => .error (.crash .panic)
      | .error e => .error e
  /-- `names.push_unchecked(name)`, src/demangler.rs:1106-1107: undefined behaviour when the array (capacity
  10) is full. -/
  push_name (h : Handle) : P Unit := do
    let s ← SM.get
    if s.names.length < 10 then SM.set { s with names := s.names ++ [h] }
    else SM.crash .ub

/-- `demangle_simple_string`, src/demangler.rs:1925-1945. -/
def demangle_simple_string (memorize : Bool) : P Text := do
  let pos ← query fun m => m.find_char '@'
  let pos ← SM.okOr .InvalidSimpleString pos
  if pos == 0 then SM.err .InvalidSimpleString
  else do
    let string ← tryBytes pos
    let string ← SM.okOr .InvalidSimpleString string
    expectChar '@' .InvalidSimpleString
    whenB memorize (memorize_string string)
    pure string

/-- `demangle_simple_name`, src/demangler.rs:1737-1743. -/
def demangle_simple_name (memorize : Bool) : P Handle := do
  let name ← demangle_simple_string memorize
  intern (.NamedIdentifier none name)

/-- `demangle_anonymous_namespace_name`, src/demangler.rs:1745-1765. -/
def demangle_anonymous_namespace_name : P Handle := do
  expectStr c!"?A" .InvalidAnonymousNamespaceName
  let pos ← query fun m => m.find_char '@'
  let pos ← SM.okOr .InvalidAnonymousNamespaceName pos
  let key ← tryBytes pos
  let key ← SM.okOr .InvalidAnonymousNamespaceName key
  memorize_string key
  expectChar '@' .InvalidAnonymousNamespaceName
  intern (.NamedIdentifier none c!"`anonymous namespace'")

/-- `demangle_back_ref_name`, src/demangler.rs:1238-1250. -/
def demangle_back_ref_name : P Handle := do
  let c ← tryIf isDigit
  let c ← SM.okOr .InvalidBackRef c
  let s ← SM.get
  SM.okOr .InvalidBackRef s.names[c.toNat - '0'.toNat]?

/-- `intern(QualifiedNameNode::synthesize_from_id(..)?)`, src/nodes/derived.rs:992-1001 and
src/demangler.rs:1697-1704. -/
def synthesize_from_id (identifier : Handle) : P Handle := do
  let components ← intern (.NodeArray [identifier])
  intern (.QualifiedName components)

/-- `intern(QualifiedNameNode::synthesize_from_name(..)?)`, src/nodes/derived.rs:1003-1013. -/
def synthesize_from_name (name : Text) : P Handle := do
  let id ← intern (.NamedIdentifier none name)
  synthesize_from_id id

/-- `demangle_md5_name`, src/demangler.rs:372-413. -/
def demangle_md5_name : P Handle := do
  let copy ← query fun m => m.string
  expectStr c!"??@" .InvalidMd5Name
  let stop ← query fun m => m.find_char '@'
  let stop ← SM.okOr .InvalidMd5Name stop
  let body ← tryBytes (stop + 1)
  let _ ← SM.okOr .InvalidMd5Name body
  let stop := stop + 3
  let r4 ← tryStr c!"??_R4@"
  let stop := if r4 then stop + 6 else stop
  match splitAtBytes (stop + 1) copy with
  | none => SM.crash .panic          -- slicing, line 406
  | some (md5, _) => do
    let name ← synthesize_from_name md5
    intern (.Md5Symbol name)

/-- The lookup table of `translate_intrinsic_function_code` for `?X`, src/demangler.rs:1300-1337. -/
def basicTable : List (Option IFK) :=
  [none, none, some .New, some .Delete, some .Assign, some .RightShift, some .LeftShift,
   some .LogicalNot, some .Equals, some .NotEquals, some .ArraySubscript, none, some .Pointer,
   some .Dereference, some .Increment, some .Decrement, some .Minus, some .Plus, some .BitwiseAnd,
   some .MemberPointer, some .Divide, some .Modulus, some .LessThan, some .LessThanEqual,
   some .GreaterThan, some .GreaterThanEqual, some .Comma, some .Parens, some .BitwiseNot,
   some .BitwiseXor, some .BitwiseOr, some .LogicalAnd, some .LogicalOr, some .TimesEqual,
   some .PlusEqual, some .MinusEqual]

/-- The lookup table for `?_X`, src/demangler.rs:1338-1375. -/
def underTable : List (Option IFK) :=
  [some .DivEqual, some .ModEqual, some .RshEqual, some .LshEqual, some .BitwiseAndEqual,
   some .BitwiseOrEqual, some .BitwiseXorEqual, none, none, none, none, none, none, some .VbaseDtor,
   some .VecDelDtor, some .DefaultCtorClosure, some .ScalarDelDtor, some .VecCtorIter,
   some .VecDtorIter, some .VecVbaseCtorIter, some .VdispMap, some .EHVecCtorIter,
   some .EHVecDtorIter, some .EHVecVbaseCtorIter, some .CopyCtorClosure, none, none, none, none,
   some .LocalVftableCtorClosure, some .ArrayNew, some .ArrayDelete, none, none, none, none]

/-- The lookup table for `?__X`, src/demangler.rs:1376-1413. -/
def doubleUnderTable : List (Option IFK) :=
  [none, none, none, none, none, none, none, none, none, none, some .ManVectorCtorIter,
   some .ManVectorDtorIter, some .EHVectorCopyCtorIter, some .EHVectorVbaseCopyCtorIter, none, none,
   some .VectorCopyCtorIter, some .VectorVbaseCopyCtorIter, some .ManVectorVbaseCopyCtorIter, none,
   none, some .CoAwait, some .Spaceship, none, none, none, none, none, none, none, none, none, none,
   none, none, none]

/-- `translate_intrinsic_function_code`, src/demangler.rs:1287-1421. `get_unchecked` outside the table is
undefined behaviour. -/
def translate_intrinsic_function_code (ch : Char) (group : CodeGroup) : Except Fail (Option IFK) :=
  if isDigit ch || isUpper ch then
    let i := if isDigit ch then ch.toNat - '0'.toNat else ch.toNat - 'A'.toNat + 10
    let lookup := match group with
      | .Basic => basicTable
      | .Under => underTable
      | .DoubleUnder => doubleUnderTable
    match lookup[i]? with
    | some op => .ok op
    | none => .error (.crash .ub)
  else .error (.err .InvalidIntrinsicFunctionCode)

/-- `demangle_literal_operator_identifier`, src/demangler.rs:1479-1487. -/
def demangle_literal_operator_identifier : P Handle := do
  let name ← demangle_simple_string false
  intern (.LiteralOperatorIdentifier none name)

/-- `demangle_function_identifier_code_group`, src/demangler.rs:1436-1460, with
`demangle_structor_identifier` (1462-1470) and `demangle_conversion_operator_identifier` (1472-1477). -/
def demangle_function_identifier_code_group (group : CodeGroup) : P Handle := do
  let ch ← expectAny .InvalidFunctionIdentifierCode
  if group == .Basic && (ch == '0' || ch == '1') then
    intern (.StructorIdentifier none none (ch == '1'))
  else if group == .Basic && ch == 'B' then
    intern (.ConversionOperatorIdentifier none none)
  else if group == .DoubleUnder && ch == 'K' then
    demangle_literal_operator_identifier
  else do
    let op ← SM.lift (translate_intrinsic_function_code ch group)
    intern (.IntrinsicFunctionIdentifier none op)

/-- `demangle_function_identifier_code`, src/demangler.rs:1423-1434. -/
def demangle_function_identifier_code : P Handle := do
  expectChar '?' .InvalidFunctionIdentifierCode
  let uu ← tryStr c!"__"
  if uu then demangle_function_identifier_code_group .DoubleUnder
  else do
    let u ← tryChar '_'
    if u then demangle_function_identifier_code_group .Under
    else demangle_function_identifier_code_group .Basic

/-- The order of tests in `consume_special_intrinsic_kind`, src/demangler.rs:2203-2239. -/
def specialIntrinsics : List (Text × SpecialIntrinsicKind) :=
  [(c!"?_7", .Vftable), (c!"?_8", .Vbtable), (c!"?_9", .VcallThunk), (c!"?_A", .Typeof),
   (c!"?_B", .LocalStaticGuard), (c!"?_C", .StringLiteralSymbol), (c!"?_P", .UdtReturning),
   (c!"?_R0", .RttiTypeDescriptor), (c!"?_R1", .RttiBaseClassDescriptor),
   (c!"?_R2", .RttiBaseClassArray), (c!"?_R3", .RttiClassHierarchyDescriptor),
   (c!"?_R4", .RttiCompleteObjLocator), (c!"?_S", .LocalVftable), (c!"?__E", .DynamicInitializer),
   (c!"?__F", .DynamicAtexitDestructor), (c!"?__J", .LocalStaticThreadGuard)]

/-- Tries the strings of a table in order. -/
def tryTable {α : Type} : List (Text × α) → P (Option α)
  | [] => pure none
  | (t, a) :: rest => do
    let b ← tryStr t
    if b then pure (some a) else tryTable rest

/-- `consume_special_intrinsic_kind`, src/demangler.rs:2203-2239. -/
def consume_special_intrinsic_kind : P (Option SpecialIntrinsicKind) := tryTable specialIntrinsics

/-! ### String literals -/

/-- src/demangler.rs:2100-2102 -/
def charDigitTable : List Nat := [0x2C, 0x2F, 0x5C, 0x3A, 0x2E, 0x20, 0x0A, 0x09, 0x27, 0x2D]

/-- `[base; 26]` with `result[i] += i`: src/demangler.rs:2109-2119 and 2126-2136. -/
def charLetterTable (base : Nat) : List Nat := (List.range 26).map (base + ·)

/-- `demangle_char_literal`, src/demangler.rs:2074-2147. -/
def demangle_char_literal : P Nat := do
  let c ← expectAny .InvalidCharLiteral
  if c == '?' then do
    let c ← expectAny .InvalidCharLiteral
    if c == '$' then do
      let nibbles ← onStr MStr.try_consume_2_chars
      let nibbles ← SM.okOr .InvalidCharLiteral nibbles
      let c1 ← SM.okOr .InvalidCharLiteral (try_convert_rebased_ascii_hexdigit_to_number nibbles.1)
      let c2 ← SM.okOr .InvalidCharLiteral (try_convert_rebased_ascii_hexdigit_to_number nibbles.2)
      pure ((c1 <<< 4) % 256 ||| c2)
    else if isDigit c then unchecked charDigitTable[c.toNat - '0'.toNat]?
    else if isLower c then unchecked (charLetterTable 0xE1)[c.toNat - 'a'.toNat]?
    else if isUpper c then unchecked (charLetterTable 0xC1)[c.toNat - 'A'.toNat]?
    else SM.err .InvalidCharLiteral
  else if c.toNat < 256 then pure c.toNat else SM.err .InvalidCharLiteral
where
  /-- `get_unchecked` -/
  unchecked : Option Nat → P Nat
    | some b => pure b
    | none => SM.crash .ub

/-- `demangle_wchar_literal`, src/demangler.rs:2068-2072. -/
def demangle_wchar_literal : P Nat := do
  let c1 ← demangle_char_literal
  let c2 ← demangle_char_literal
  pure ((c1 <<< 8) % 65536 ||| c2)

/-- `{:02X}`: at least two uppercase hexadecimal digits. -/
def hex02 (c : Nat) : Text :=
  let ds := (Nat.toDigits 16 c).map Char.toUpper
  if ds.length < 2 then '0' :: ds else ds

/-- The text written by `output_escaped_char`, src/demangler.rs:2241-2262; `none` is a violated
precondition of `char::from_u32_unchecked`. -/
def escapedChar (c : Nat) : Option Text :=
  if c == 0x00 then some c!"\\0"
  else if c == 0x27 then some c!"\\'"
  else if c == 0x22 then some c!"\\\""
  else if c == 0x5C then some c!"\\\\"
  else if c == 0x07 then some c!"\\a"
  else if c == 0x08 then some c!"\\b"
  else if c == 0x0C then some c!"\\f"
  else if c == 0x0A then some c!"\\n"
  else if c == 0x0D then some c!"\\r"
  else if c == 0x09 then some c!"\\t"
  else if c == 0x0B then some c!"\\v"
  else if 0x20 ≤ c && c ≤ 0x7E then
    if Nat.isValidChar c then some [Char.ofNat c] else none
  else some (c!"\\x" ++ hex02 c)

/-- `output_escaped_char`, src/demangler.rs:2241-2262. -/
def output_escaped_char (c : Nat) : W Unit :=
  match escapedChar c with
  | some t => write t
  | none => SM.crash .ub

/-- `guess_char_byte_size`, src/demangler.rs:2267-2301. -/
def guess_char_byte_size (string_bytes : List Nat) (num_bytes : Nat) : Option Nat :=
  if num_bytes == 0 then none
  else if num_bytes % 2 == 1 then some 1
  else if num_bytes < 32 then
    let trailing_nulls := (string_bytes.reverse.takeWhile (· == 0)).length
    if trailing_nulls ≥ 4 && num_bytes % 4 == 0 then some 4
    else if trailing_nulls ≥ 2 then some 2
    else some 1
  else
    let embedded_nulls := string_bytes.countP (· == 0)
    if embedded_nulls ≥ 2 * string_bytes.length / 3 && num_bytes % 4 == 0 then some 4
    else if embedded_nulls ≥ string_bytes.length / 3 then some 2
    else some 1

/-- `|=` of the bytes of one character, src/demangler.rs:2319-2323. -/
def combineBytes : Nat → List Nat → Nat
  | _, [] => 0
  | i, b :: bs => (b <<< (8 * i)) ||| combineBytes (i + 1) bs

/-- `decode_multi_byte_char`, src/demangler.rs:2303-2329. -/
def decode_multi_byte_char (string_bytes : List Nat) (char_index char_bytes : Nat) : Option Nat :=
  if char_bytes == 1 || char_bytes == 2 || char_bytes == 4 then
    let offset := char_index * char_bytes
    if offset > string_bytes.length then none
    else
      let string_bytes := string_bytes.drop offset
      if string_bytes.length < char_bytes then none
      else some (combineBytes 0 (string_bytes.take char_bytes))
  else none

/-- The loop over wide characters, src/demangler.rs:1838-1847. The loop state is the remaining byte
length and the decoded text. -/
def wideBody (is_truncated : Bool) (x : Nat × Text) : P ((Nat × Text) ⊕ Text) := do
  let at_end ← tryChar '@'
  if at_end then pure (.inr x.2)
  else do
    let n ← query MStr.len_bytes
    if n < 2 then SM.err .InvalidStringLiteral
    else do
      let w ← demangle_wchar_literal
      let t ← if x.1 != 2 || is_truncated then runW (output_escaped_char w) x.2 else pure x.2
      pure (.inl (x.1 - 2, t))

/-- The loop collecting bytes, src/demangler.rs:1853-1862 (`ArrayVec` of capacity 128). -/
def narrowBody (bytes : List Nat) : P (List Nat ⊕ List Nat) := do
  let at_end ← tryChar '@'
  if at_end then pure (.inr bytes)
  else do
    let e ← query MStr.is_empty
    if e then SM.err .InvalidStringLiteral
    else do
      let b ← demangle_char_literal
      if bytes.length < 128 then pure (.inl (bytes ++ [b])) else SM.err .InvalidStringLiteral

/-- The loop decoding characters, src/demangler.rs:1874-1881; the state is the next index and the
text. -/
def decodeBody (bytes : List Nat) (char_bytes num_chars : Nat) (is_truncated : Bool)
    (x : Nat × Text) : P (Nat × Text) := do
  let next ← SM.okOr .InvalidStringLiteral (decode_multi_byte_char bytes x.1 char_bytes)
  let t ← if x.1 + 1 < num_chars || is_truncated then runW (output_escaped_char next) x.2 else pure x.2
  pure (x.1 + 1, t)

/-- src/demangler.rs:1867-1872 -/
def charKindOf : Nat → Option CharKind
  | 1 => some .Char
  | 2 => some .Char16
  | 4 => some .Char32
  | _ => none

/-- `demangle_string_literal`, src/demangler.rs:1796-1893. -/
def demangle_string_literal : P Handle := do
  expectStr c!"@_" .InvalidStringLiteral
  let f ← expectAny .InvalidStringLiteral
  let is_wchar_t ← if f == '1' then pure true else if f == '0' then pure false
    else SM.err .InvalidStringLiteral
  let (string_byte_len, is_negative) ← demangle_number
  if is_negative || string_byte_len < (if is_wchar_t then 2 else 1) then SM.err .InvalidStringLiteral
  else do
    let crc_end_pos ← query fun m => m.find_char '@'
    let crc_end_pos ← SM.okOr .InvalidStringLiteral crc_end_pos
    let crc ← tryBytes (crc_end_pos + 1)
    let _ ← SM.okOr .InvalidStringLiteral crc
    let e ← query MStr.is_empty
    if e then SM.err .InvalidStringLiteral
    else if is_wchar_t then do
      let is_truncated := decide (string_byte_len > 64)
      let t ← loopInput (wideBody is_truncated) (string_byte_len, [])
      intern (.EncodedStringLiteral none t is_truncated .Wchar)
    else do
      let bytes ← loopInput narrowBody []
      let is_truncated := decide (string_byte_len > bytes.length)
      let char_bytes ← SM.okOr .InvalidStringLiteral (guess_char_byte_size bytes string_byte_len)
      let char ← SM.okOr .InvalidStringLiteral (charKindOf char_bytes)
      let num_chars := bytes.length / char_bytes
      let (_, t) ← SM.forN num_chars (decodeBody bytes char_bytes num_chars is_truncated) (0, [])
      intern (.EncodedStringLiteral none t is_truncated char)

/-! ### Recursive parsers -/

/-- The functions through which the parser recurses: `demangle_type`,
`demangle_template_instantiation_name` and `do_parse`. Every cycle of calls goes through one of them. -/
structure Fns where
  type : QMM → P Handle
  tmpl : NBB → P Handle
  parse : P Handle

section
variable (rend : Renderer) (r : Fns)

/-- `memorize_identifier`, src/demangler.rs:1112-1123. -/
def memorize_identifier (identifier : Handle) : P Unit := do
  let s ← SM.get
  let t ← runW (rend s.cache .IIdentifierNode identifier) []
  memorize_string t

/-- `demangle_unqualified_type_name`, src/demangler.rs:1162-1177. -/
def demangle_unqualified_type_name (memorize : Bool) : P Handle := do
  let digit ← firstIs isDigit
  if digit then demangle_back_ref_name
  else do
    let t ← query fun m => m.starts_with c!"?$"
    if t then r.tmpl .Template else demangle_simple_name memorize

/-- `demangle_unqualified_symbol_name`, src/demangler.rs:1179-1196. -/
def demangle_unqualified_symbol_name (nbb : NBB) : P Handle := do
  let digit ← firstIs isDigit
  if digit then demangle_back_ref_name
  else do
    let t ← query fun m => m.starts_with c!"?$"
    if t then r.tmpl nbb
    else do
      let q ← query fun m => m.starts_with c!"?"
      if q then demangle_function_identifier_code else demangle_simple_name nbb.is_simple

/-- `demangle_locally_scoped_name_piece`, src/demangler.rs:1767-1794. -/
def demangle_locally_scoped_name_piece : P Handle := do
  expectChar '?' .InvalidLocallyScopedNamePiece
  let (number, is_negative) ← demangle_number
  if is_negative then SM.err .InvalidLocallyScopedNamePiece
  else do
    expectChar '?' .InvalidLocallyScopedNamePiece
    let scope ← r.parse
    let s ← SM.get
    let name ← runW (do
      write c!"`"
      rend s.cache .ISymbolNode scope
      write (c!"'::`" ++ decNat number ++ c!"'")) []
    intern (.NamedIdentifier none name)

/-- `demangle_name_scope_piece`, src/demangler.rs:1220-1236. -/
def demangle_name_scope_piece : P Handle := do
  let digit ← firstIs isDigit
  if digit then demangle_back_ref_name
  else do
    let t ← query fun m => m.starts_with c!"?$"
    if t then r.tmpl .Template
    else do
      let a ← query fun m => m.starts_with c!"?A"
      if a then demangle_anonymous_namespace_name
      else do
        let l ← queryE MStr.starts_with_local_scope_pattern
        if l then demangle_locally_scoped_name_piece rend r else demangle_simple_name true

/-- The loop of `demangle_name_scope_chain`, src/demangler.rs:1204-1217. -/
def scopeChainBody (nodes : List Handle) : P (List Handle ⊕ Handle) := do
  let at_end ← tryChar '@'
  if at_end then do
    let components ← intern (.NodeArray nodes.reverse)
    let qn ← intern (.QualifiedName components)
    pure (.inr qn)
  else do
    let e ← query MStr.is_empty
    if e then SM.err .InvalidNameScopeChain
    else do
      let node ← demangle_name_scope_piece rend r
      pure (.inl (nodes ++ [node]))

/-- `demangle_name_scope_chain`, src/demangler.rs:1198-1218. -/
def demangle_name_scope_chain (unqualified_name : Handle) : P Handle :=
  loopInput (scopeChainBody rend r) [unqualified_name]

/-- `demangle_fully_qualified_type_name`, src/demangler.rs:1126-1129. -/
def demangle_fully_qualified_type_name : P Handle := do
  let identifier ← demangle_unqualified_type_name r true
  demangle_name_scope_chain rend r identifier

/-- The identifier before the last one in a qualified name, as an identifier:
src/demangler.rs:1144-1155. -/
def class_of_structor (qn : Handle) : P Handle := do
  let q ← resolveP .QualifiedName qn
  match q with
  | .QualifiedName comps => do
    let a ← resolveP .NodeArray comps
    match a with
    | .NodeArray nodes =>
      -- `len().wrapping_sub(2)` is out of range for fewer than two components
      if nodes.length < 2 then SM.err .InvalidFullyQualifiedSymbolName
      else
        match nodes[nodes.length - 2]? with
        | some x => do
          let d ← downcastP .INode .IIdentifierNode x
          SM.okOr .InvalidFullyQualifiedSymbolName d
        | none => SM.err .InvalidFullyQualifiedSymbolName
    | _ => SM.crash .panic
  | _ => SM.crash .panic

/-- `sin.class = Some(class_node)`, src/demangler.rs:1156. -/
def set_class (cls : Handle) : Node → Node
  | .StructorIdentifier tp _ d => .StructorIdentifier tp (some cls) d
  | n => n

/-- `demangle_fully_qualified_symbol_name`, src/demangler.rs:1134-1160. -/
def demangle_fully_qualified_symbol_name : P Handle := do
  let identifier ← demangle_unqualified_symbol_name r .Simple
  let qn ← demangle_name_scope_chain rend r identifier
  let sin ← downcastP .IIdentifierNode .StructorIdentifier identifier
  match sin with
  | some sin => do
    let class_node ← class_of_structor qn
    modifyNode .StructorIdentifier sin (set_class class_node)
    pure qn
  | none => pure qn

/-- `demangle_class_type`, src/demangler.rs:654-680. -/
def demangle_class_type : P Handle := do
  let f ← expectAny .InvalidClassType
  let tag ← match f with
    | 'T' => pure TagKind.Union
    | 'U' => pure TagKind.Struct
    | 'V' => pure TagKind.Class
    | 'W' => do
      let b ← tryChar '4'
      if b then pure TagKind.Enum else SM.err .InvalidClassType
    | _ => SM.err .InvalidClassType
  let name ← demangle_fully_qualified_type_name rend r
  intern (.TagType Qualifiers.Q_None name tag)

/-- `demangle_custom_type`, src/demangler.rs:637-652. -/
def demangle_custom_type : P Handle := do
  expectChar '?' .InvalidCustomType
  let identifier ← demangle_unqualified_type_name r true
  let b ← tryChar '@'
  if b then intern (.CustomType Qualifiers.Q_None identifier) else SM.err .InvalidCustomType

/-- The loop of `demangle_function_parameter_list`, src/demangler.rs:828-857. -/
def paramListBody (nodes : List Handle) : P (List Handle ⊕ List Handle) := do
  let at_end ← firstIs fun x => x == '@' || x == 'Z'
  if at_end then pure (.inr nodes)
  else do
    let e ← query MStr.is_empty
    if e then SM.err .InvalidFunctionParameterList
    else do
      let n ← tryIf isDigit
      match n with
      | some n => do
        let s ← SM.get
        let param ← SM.okOr .InvalidFunctionParameterList s.function_params[n.toNat - '0'.toNat]?
        pure (.inl (nodes ++ [param]))
      | none => do
        let old_len ← query MStr.len_chars
        let tn ← r.type .Drop
        let new_len ← query MStr.len_chars
        if new_len > old_len then SM.crash .panic      -- `-` overflow, line 848
        else if old_len - new_len == 0 then SM.err .InvalidFunctionParameterList
        else do
          whenB (old_len - new_len != 1) (push_param tn)
          pure (.inl (nodes ++ [tn]))
where
  /-- `_ = function_params.try_push(tn)` (capacity 10), src/demangler.rs:852-854. -/
  push_param (tn : Handle) : P Unit := SM.modify fun s =>
    if s.function_params.length < 10 then { s with function_params := s.function_params ++ [tn] } else s

/-- `demangle_function_parameter_list`, src/demangler.rs:815-875: the parameters and `is_variadic`
(left at its initial value `false` for an empty list). -/
def demangle_function_parameter_list : P (Option Handle × Bool) := do
  let x ← tryChar 'X'
  if x then pure (none, false)
  else do
    let nodes ← loopInput (paramListBody r) []
    let na ← intern (.NodeArray nodes)
    let a ← tryChar '@'
    if a then pure (some na, false)
    else do
      let z ← tryChar 'Z'
      if z then pure (some na, true) else SM.err .InvalidFunctionParameterList

/-- The `this` qualifiers of `demangle_function_type`, src/demangler.rs:747-751. -/
def function_this_quals (has_this_quals : Bool) : P (Qualifiers × Option FunctionRefQualifier) :=
  if has_this_quals then do
    let ext ← demangle_pointer_ext_qualifiers
    let rq ← demangle_function_ref_qualifier
    let q ← demangle_qualifiers
    pure (ext ||| q.1, rq)
  else pure (Qualifiers.Q_None, none)

/-- `demangle_function_type`, src/demangler.rs:742-767. -/
def demangle_function_type (has_this_quals : Bool) : P Handle := do
  let (quals, ref_qualifier) ← function_this_quals has_this_quals
  let call_convention ← demangle_calling_convention
  let is_structor ← tryChar '@'
  let return_type ← if is_structor then pure none else do
    let t ← r.type .Result
    pure (some t)
  let (params, is_variadic) ← demangle_function_parameter_list r
  let is_noexcept ← demangle_throw_specification
  intern (.FunctionSignature
    { quals := quals, call_convention := call_convention, ref_qualifier := ref_qualifier,
      return_type := return_type, is_variadic := is_variadic, params := params,
      is_noexcept := is_noexcept })

/-- `demangle_pointer_type`, src/demangler.rs:684-702. -/
def demangle_pointer_type : P Handle := do
  let (quals, affinity) ← demangle_pointer_cv_qualifiers
  let six ← tryChar '6'
  if six then do
    let pointee ← demangle_function_type r false
    intern (.PointerType quals (some affinity) none pointee)
  else do
    let ext_quals ← demangle_pointer_ext_qualifiers
    let pointee ← r.type .Mangle
    intern (.PointerType (quals ||| ext_quals) (some affinity) none pointee)

/-- `demangle_member_pointer_type`, src/demangler.rs:704-740. -/
def demangle_member_pointer_type : P Handle := do
  let (quals, affinity) ← demangle_pointer_cv_qualifiers
  if affinity != .Pointer then SM.err .InvalidMemberPointerType
  else do
    let ext_quals ← demangle_pointer_ext_qualifiers
    let eight ← tryChar '8'
    if eight then do
      let class_parent ← demangle_fully_qualified_type_name rend r
      let pointee ← demangle_function_type r true
      intern (.PointerType (quals ||| ext_quals) (some affinity) (some class_parent) pointee)
    else do
      let (pointee_quals, is_member) ← demangle_qualifiers
      if !is_member then SM.err .InvalidMemberPointerType
      else do
        let class_parent ← demangle_fully_qualified_type_name rend r
        let pointee ← r.type .Drop
        modifyNode .ITypeNode pointee (Node.set_quals pointee_quals)
        intern (.PointerType (quals ||| ext_quals) (some affinity) (some class_parent) pointee)

/-- One dimension, src/demangler.rs:781-788. -/
def arrayDim (nodes : List Handle) : P (List Handle) := do
  let (value, is_negative) ← demangle_number
  if is_negative then SM.err .InvalidArrayType
  else do
    let n ← intern (.IntegerLiteral value is_negative)
    pure (nodes ++ [n])

/-- `demangle_array_type`, src/demangler.rs:769-812. -/
def demangle_array_type : P Handle := do
  expectChar 'Y' .InvalidArrayType
  let (rank, is_negative) ← demangle_number
  if is_negative || rank == 0 then SM.err .InvalidArrayType
  else do
    let nodes ← SM.forN rank arrayDim []
    let dimensions ← intern (.NodeArray nodes)
    let has_quals ← tryStr c!"$$C"
    let quals ← if has_quals then do
        let (quals, is_member) ← demangle_qualifiers
        if is_member then SM.err .InvalidArrayType else pure quals
      else pure Qualifiers.Q_None
    let element_type ← r.type .Drop
    intern (.ArrayType quals dimensions element_type)

/-- The qualifiers at the start of `demangle_type`, src/demangler.rs:547-557. -/
def type_quals : QMM → P Qualifiers
  | .Mangle => do
    let q ← demangle_qualifiers
    pure q.1
  | .Result => do
    let b ← tryChar '?'
    if b then do
      let q ← demangle_qualifiers
      pure q.1
    else pure Qualifiers.Q_None
  | .Drop => pure Qualifiers.Q_None

/-- The dispatch of `demangle_type`, src/demangler.rs:563-585. -/
def demangle_type_body : P Handle := do
  let m ← query id
  if m.is_tag_type then demangle_class_type rend r
  else if m.is_pointer_type then do
    let k ← queryE MStr.is_member_pointer
    match k with
    | some true => demangle_member_pointer_type rend r
    | some false => demangle_pointer_type r
    | none => SM.err .InvalidType
  else if m.is_array_type then demangle_array_type r
  else if m.is_function_type then do
    let a8 ← tryStr c!"$$A8@@"
    if a8 then demangle_function_type r true
    else do
      let a6 ← tryStr c!"$$A6"
      if a6 then demangle_function_type r false else SM.err .InvalidType
  else if m.is_custom_type then demangle_custom_type r
  else demangle_primitive_type

/-- `demangle_type`, src/demangler.rs:546-589. -/
def demangle_type (qmm : QMM) : P Handle := do
  let quals ← type_quals qmm
  let e ← query MStr.is_empty
  if e then SM.err .InvalidType
  else do
    let ty ← demangle_type_body rend r
    modifyNode .ITypeNode ty (Node.append_quals quals)
    pure ty

/-- Tries the strings of `.or_else` chains and yields the last character of the one consumed
(`string.chars().next_back().unwrap_unchecked()`, src/demangler.rs:952-953 and 996-997). -/
def trySpecifier (auto : Bool) (specs : List Char) : P (Option Char) :=
  tryTable (specs.map fun c => (if auto then [c] else ['$', c], c))

/-- Reads `n` signed numbers into `thunk_offsets` (capacity 3), src/demangler.rs:961-966 and
1003-1008. -/
def offsets (n : Nat) : P (List Int) :=
  SM.forN n (fun l => do
    let o ← demangle_signed
    if l.length < 3 then pure (l ++ [o]) else SM.err .InvalidTemplateParameterList) []

/-- The name of a symbol's last identifier, src/demangler.rs:928-937. -/
def symbol_identifier (symbol : Handle) : P Handle := do
  let n ← resolveP .ISymbolNode symbol
  match n.get_name with
  | none => SM.err .InvalidTemplateParameterList
  | some qn => do
    let s ← SM.get
    let i ← SM.lift (get_unqualified_identifier s.cache qn)
    SM.okOr .InvalidTemplateParameterList i

/-- `$1`, `$H`, `$I`, `$J`: pointers to members, src/demangler.rs:924-969. -/
def template_member_pointer (spec : Char) : P Handle := do
  let q ← query fun m => m.starts_with c!"?"
  let symbol ← if q then do
      let symbol ← r.parse
      let identifier ← symbol_identifier symbol
      memorize_identifier rend identifier
      pure (some symbol)
    else pure none
  let offs ← match spec with
    | '1' => offsets 0
    | 'H' => offsets 1
    | 'I' => offsets 2
    | 'J' => offsets 3
    | _ => SM.err .InvalidTemplateParameterList
  intern (.TemplateParameterReference symbol offs (some .Pointer) true)

/-- `$F`, `$G`: data member pointers, src/demangler.rs:988-1011. -/
def template_data_member_pointer (spec : Char) : P Handle := do
  let offs ← match spec with
    | 'G' => offsets 3
    | 'F' => offsets 2
    | _ => SM.err .InvalidTemplateParameterList
  intern (.TemplateParameterReference none offs none true)

/-- One template argument after the optional `$M`, src/demangler.rs:903-1025. -/
def template_argument (auto : Bool) : P Handle := do
  let y ← tryStr c!"$$Y"
  if y then demangle_fully_qualified_type_name rend r
  else do
    let b ← tryStr c!"$$B"
    if b then r.type .Drop
    else do
      let c ← tryStr c!"$$C"
      if c then r.type .Mangle
      else do
        let mp ← trySpecifier auto ['1', 'H', 'I', 'J']
        match mp with
        | some spec => template_member_pointer rend r spec
        | none => do
          let e ← query fun m => m.starts_with c!"$E?"
          if e then do
            expectStr c!"$E" .InvalidTemplateParameterList
            let symbol ← r.parse
            intern (.TemplateParameterReference (some symbol) [] (some .Reference) false)
          else do
            let dp ← trySpecifier auto ['F', 'G']
            match dp with
            | some spec => template_data_member_pointer spec
            | none => do
              let z ← tryStr (if auto then c!"0" else c!"$0")
              if z then do
                let (value, is_negative) ← demangle_number
                intern (.IntegerLiteral value is_negative)
              else r.type .Drop

/-- The loop of `demangle_template_parameter_list`, src/demangler.rs:881-1026. -/
def templateListBody (nodes : List Handle) : P (List Handle ⊕ List Handle) := do
  let at_end ← tryChar '@'
  if at_end then pure (.inr nodes)
  else do
    let pack ← tryTable [(c!"$S", ()), (c!"$$V", ()), (c!"$$$V", ()), (c!"$$Z", ())]
    if pack.isSome then pure (.inl nodes)
    else do
      let e ← query MStr.is_empty
      if e then SM.err .InvalidTemplateParameterList
      else do
        let auto ← tryStr c!"$M"
        whenB auto (do let _ ← r.type .Drop)
        let node ← template_argument rend r auto
        pure (.inl (nodes ++ [node]))

/-- `demangle_template_parameter_list`, src/demangler.rs:877-1033. -/
def demangle_template_parameter_list : P Handle := do
  let nodes ← loopInput (templateListBody rend r) []
  intern (.NodeArray nodes)

/-- The rejection of src/demangler.rs:1274-1280. -/
def Node.isConversionOrStructor : Node → Bool
  | .ConversionOperatorIdentifier .. | .StructorIdentifier .. => true
  | _ => false

/-- `demangle_template_instantiation_name`, src/demangler.rs:1252-1285. -/
def demangle_template_instantiation_name (nbb : NBB) : P Handle := do
  expectStr c!"?$" .InvalidTemplateInstantiationName
  let outer ← SM.get
  SM.modify fun s => { s with names := [], function_params := [] }
  let identifier ← demangle_unqualified_symbol_name r .Simple
  let template_params ← demangle_template_parameter_list rend r
  modifyNode .IIdentifierNode identifier (Node.set_template_params template_params)
  SM.modify fun s => { s with names := outer.names, function_params := outer.function_params }
  if nbb.is_template then do
    let n ← resolveP .IIdentifierNode identifier
    if n.isConversionOrStructor then SM.err .InvalidTemplateInstantiationName
    else do
      memorize_identifier rend identifier
      pure identifier
  else pure identifier

/-! ### Symbols -/

/-- `ptn.quals |= quals`, src/demangler.rs:448. -/
def pointer_or_quals (q : Qualifiers) : Node → Node
  | .PointerType quals a c p => .PointerType (quals ||| q) a c p
  | n => n

/-- The qualifiers after the type of a variable, src/demangler.rs:444-463. -/
def variable_quals (type : Handle) : P Unit := do
  let ptn ← downcastP .ITypeNode .PointerType type
  match ptn with
  | some ptn => do
    let quals ← demangle_pointer_ext_qualifiers
    let n ← resolveP .PointerType ptn
    match n with
    | .PointerType _ _ class_parent pointee => do
      modifyNode .PointerType ptn (pointer_or_quals quals)
      let (extra_child_quals, _) ← demangle_qualifiers
      whenB class_parent.isSome (do let _ ← demangle_fully_qualified_type_name rend r)
      modifyNode .ITypeNode pointee (Node.append_quals extra_child_quals)
    | _ => SM.crash .panic
  | none => do
    let (quals, _) ← demangle_qualifiers
    modifyNode .ITypeNode type (Node.set_quals quals)

/-- `demangle_variable_encoding`, src/demangler.rs:436-470. -/
def demangle_variable_encoding (sc : StorageClass) : P Handle := do
  let type ← r.type .Drop
  variable_quals rend r type
  intern (.VariableSymbol none (some sc) (some type))

/-- The adjustments of a thunk, src/demangler.rs:486-503. -/
def thunk_adjust (fc : FuncClass) : P (Option ThisAdjustor) :=
  if fc.has_static_this_adjust then do
    let so ← demangle_signed
    pure (some { static_offset := asU32 so })
  else if fc.has_virtual_this_adjust then
    if fc.has_virtual_this_adjust_ex then do
      let vbptr ← demangle_signed
      let vboff ← demangle_signed
      let vtor ← demangle_signed
      let so ← demangle_signed
      pure (some { vbptr_offset := asI32 vbptr, vboffset_offset := asI32 vboff,
                   vtor_disp_offset := asI32 vtor, static_offset := asU32 so })
    else do
      let vtor ← demangle_signed
      let so ← demangle_signed
      pure (some { vtor_disp_offset := asI32 vtor, static_offset := asU32 so })
  else pure none

/-- `demangle_function_encoding`, src/demangler.rs:472-527. -/
def demangle_function_encoding : P Handle := do
  let extern_c ← tryStr c!"$$J0"
  let e ← query MStr.is_empty
  if e then SM.err .InvalidFunctionEncoding
  else do
    let fc ← demangle_function_class
    let fc := fc ||| (if extern_c then FuncClass.FC_ExternC else FuncClass.FC_None)
    let ttn ← thunk_adjust fc
    let fsn ← if fc.no_parameter_list then intern (.FunctionSignature {})
      else demangle_function_type r (!fc.intersects (FuncClass.FC_Global ||| FuncClass.FC_Static))
    let signature ← match ttn with
      | some adjust => do
        let f ← resolveP .FunctionSignature fsn
        intern (.ThunkSignature f.asFuncSig adjust)
      | none => pure fsn
    modifyNode .ISignatureNode signature (Node.set_function_class fc)
    intern (.FunctionSymbol none signature)

/-- `coin.target_type = target_type` if the node is a conversion operator, src/demangler.rs:344-346. -/
def set_target_type (t : Option Handle) : Node → Node
  | .ConversionOperatorIdentifier tp _ => .ConversionOperatorIdentifier tp t
  | n => n

/-- The return type of a function symbol's signature, src/demangler.rs:332-337. -/
def function_return_type (fsn : Handle) : P (Option Handle) := do
  let n ← resolveP .FunctionSymbol fsn
  match n with
  | .FunctionSymbol _ signature => do
    let sig ← resolveP .ISignatureNode signature
    pure sig.asFuncSig.return_type
  | _ => SM.crash .panic

/-- `demangle_encoded_symbol`, src/demangler.rs:316-349. -/
def demangle_encoded_symbol (name : Handle) : P Handle := do
  let c ← query MStr.first_char
  let c ← SM.okOr .InvalidEncodedSymbol c
  if c == '0' || c == '1' || c == '2' || c == '3' || c == '4' then do
    let sc ← demangle_variable_storage_class
    demangle_variable_encoding rend r sc
  else do
    let fsn ← demangle_function_encoding r
    let target_type ← function_return_type fsn
    let s ← SM.get
    let uqn ← SM.lift (get_unqualified_identifier s.cache name)
    let uqn ← SM.okOr .InvalidEncodedSymbol uqn
    modifyNode .IIdentifierNode uqn (set_target_type target_type)
    pure fsn

/-- `coin.target_type.is_none()` for a conversion operator, src/demangler.rs:363-367. -/
def Node.isUntypedConversion : Node → Bool
  | .ConversionOperatorIdentifier _ none => true
  | _ => false

/-- `demangle_declarator`, src/demangler.rs:351-370. -/
def demangle_declarator : P Handle := do
  let qn ← demangle_fully_qualified_symbol_name rend r
  let symbol ← demangle_encoded_symbol rend r qn
  modifyNode .ISymbolNode symbol (Node.set_name qn)
  let s ← SM.get
  let uqn ← SM.lift (get_unqualified_identifier s.cache qn)
  let uqn ← SM.okOr .InvalidDeclarator uqn
  let n ← resolveP .IIdentifierNode uqn
  if n.isUntypedConversion then SM.err .InvalidDeclarator else pure symbol

/-- `demangle_typeinfo_name`, src/demangler.rs:415-428. -/
def demangle_typeinfo_name : P Handle := do
  expectChar '.' .InvalidTypeinfoName
  let type ← r.type .Result
  let e ← query MStr.is_empty
  if e then intern (.VariableSymbol (some .TypeDescriptor) none (some type))
  else SM.err .InvalidTypeinfoName

/-- src/demangler.rs:1554-1560 -/
def specialTableName : SpecialIntrinsicKind → Option Text
  | .Vftable => some c!"`vftable'"
  | .Vbtable => some c!"`vbtable'"
  | .LocalVftable => some c!"`local vftable'"
  | .RttiCompleteObjLocator => some c!"`RTTI Complete Object Locator'"
  | _ => none

/-- `demangle_special_table_symbol_node`, src/demangler.rs:1550-1584. -/
def demangle_special_table_symbol_node (k : SpecialIntrinsicKind) : P Handle := do
  let intrinsic_name ← SM.okOr .InvalidSpecialTableSymbolNode (specialTableName k)
  let ni ← intern (.NamedIdentifier none intrinsic_name)
  let name ← demangle_name_scope_chain rend r ni
  let d ← tryIf fun x => x == '6' || x == '7'
  let _ ← SM.okOr .InvalidSpecialTableSymbolNode d
  let (quals, _) ← demangle_qualifiers
  let no_target ← tryChar '@'
  let target_name ← if no_target then pure none else do
    let t ← demangle_fully_qualified_type_name rend r
    pure (some t)
  intern (.SpecialTableSymbol name target_name quals)

/-- `scope_index = ..`, src/demangler.rs:1604-1609. -/
def set_scope_index (i : Nat) : Node → Node
  | .LocalStaticGuardIdentifier tp t _ => .LocalStaticGuardIdentifier tp t i
  | n => n

/-- `demangle_local_static_guard`, src/demangler.rs:1586-1613. -/
def demangle_local_static_guard (is_thread : Bool) : P Handle := do
  let lsgi ← intern (.LocalStaticGuardIdentifier none is_thread 0)
  let name ← demangle_name_scope_chain rend r lsgi
  let hidden ← tryStr c!"4IA"
  let is_visible ← if hidden then pure false else do
    let five ← tryChar '5'
    if five then pure true else SM.err .InvalidLocalStaticGuard
  let e ← query MStr.is_empty
  whenB (!e) (do
    let i ← demangle_unsigned
    if i < 2 ^ 32 then modifyNode .LocalStaticGuardIdentifier lsgi (set_scope_index i)
    else SM.err .InvalidLocalStaticGuard)
  intern (.LocalStaticGuardVariable name is_visible)

/-- `demangle_untyped_variable`, src/demangler.rs:1615-1632. -/
def demangle_untyped_variable (variable_name : Text) : P Handle := do
  let ni ← intern (.NamedIdentifier none variable_name)
  let name ← demangle_name_scope_chain rend r ni
  let b ← tryChar '8'
  if b then intern (.VariableSymbol (some (.Qualified name)) none none)
  else SM.err .InvalidUntypedVariable

/-- `demangle_rtti_base_class_descriptor_node`, src/demangler.rs:1634-1668. -/
def demangle_rtti_base_class_descriptor_node : P Handle := do
  let nv_offset ← u32
  let vbptr ← demangle_signed
  if vbptr < -(2 ^ 31) || 2 ^ 31 ≤ vbptr then SM.err .InvalidRttiBaseClassDescriptorNode
  else do
    let vbtable_offset ← u32
    let flags ← u32
    let rbcdn ← intern (.RttiBaseClassDescriptor none nv_offset vbptr vbtable_offset flags)
    let name ← demangle_name_scope_chain rend r rbcdn
    expectChar '8' .InvalidRttiBaseClassDescriptorNode
    intern (.VariableSymbol (some (.Qualified name)) none none)
where
  /-- `self.demangle_unsigned()?.try_into().map_err(..)?` into a `u32`. -/
  u32 : P Nat := do
    let n ← demangle_unsigned
    if n < 2 ^ 32 then pure n else SM.err .InvalidRttiBaseClassDescriptorNode

/-- `demangle_init_fini_stub`, src/demangler.rs:1670-1735. -/
def demangle_init_fini_stub (is_destructor : Bool) : P Handle := do
  let is_known_static_data_member ← tryChar '?'
  let symbol ← demangle_declarator rend r
  let variable? ← downcastP .ISymbolNode .VariableSymbol symbol
  match variable? with
  | some var => do
    if is_known_static_data_member then expectStr c!"@@" .InvalidInitFiniStub
    else expectChar '@' .InvalidInitFiniStub
    let fsn ← demangle_function_encoding r
    let dsin ← intern (.DynamicStructorIdentifier none (.Variable var) is_destructor)
    let name ← synthesize_from_id dsin
    modifyNode .FunctionSymbol fsn (Node.set_name name)
    pure fsn
  | none => do
    let function? ← downcastP .ISymbolNode .FunctionSymbol symbol
    match function? with
    | some fsn =>
      if is_known_static_data_member then SM.err .InvalidInitFiniStub
      else do
        let n ← resolveP .FunctionSymbol fsn
        let old ← SM.okOr .InvalidInitFiniStub n.get_name
        let dstn ← intern (.DynamicStructorIdentifier none (.Name old) is_destructor)
        let name ← synthesize_from_id dstn
        modifyNode .FunctionSymbol fsn (Node.set_name name)
        pure fsn
    | none => SM.err .InvalidInitFiniStub

/-- `vtin.offset_in_vtable = ..`, src/demangler.rs:1903. -/
def set_offset (o : Nat) : Node → Node
  | .VcallThunkIdentifier tp _ => .VcallThunkIdentifier tp o
  | n => n

/-- `demangle_vcall_thunk_node`, src/demangler.rs:1895-1921. -/
def demangle_vcall_thunk_node : P Handle := do
  let vtin ← intern (.VcallThunkIdentifier none 0)
  let name ← demangle_name_scope_chain rend r vtin
  expectStr c!"$B" .InvalidVcallThunkNode
  let off ← demangle_unsigned
  modifyNode .VcallThunkIdentifier vtin (set_offset off)
  expectChar 'A' .InvalidVcallThunkNode
  let call_convention ← demangle_calling_convention
  let signature ← intern (.ThunkSignature
    { call_convention := call_convention, function_class := FuncClass.FC_NoParameterList } {})
  intern (.FunctionSymbol (some name) signature)

/-- The RTTI type descriptor case of `demangle_special_intrinsic`, src/demangler.rs:1507-1522, with
`VariableSymbolNode::synthesize`, src/nodes/derived.rs:1162-1178. -/
def demangle_rtti_type_descriptor : P Handle := do
  let t ← r.type .Result
  expectStr c!"@8" .InvalidSpecialIntrinsic
  let e ← query MStr.is_empty
  if e then do
    let name ← synthesize_from_name c!"`RTTI Type Descriptor'"
    intern (.VariableSymbol (some (.Qualified name)) none (some t))
  else SM.err .InvalidSpecialIntrinsic

/-- `demangle_special_intrinsic` once the kind is known, src/demangler.rs:1492-1543. -/
def special_intrinsic : SpecialIntrinsicKind → P Handle
  | .StringLiteralSymbol => demangle_string_literal
  | .Vftable => demangle_special_table_symbol_node rend r .Vftable
  | .Vbtable => demangle_special_table_symbol_node rend r .Vbtable
  | .LocalVftable => demangle_special_table_symbol_node rend r .LocalVftable
  | .RttiCompleteObjLocator => demangle_special_table_symbol_node rend r .RttiCompleteObjLocator
  | .VcallThunk => demangle_vcall_thunk_node rend r
  | .LocalStaticGuard => demangle_local_static_guard rend r false
  | .LocalStaticThreadGuard => demangle_local_static_guard rend r true
  | .RttiTypeDescriptor => demangle_rtti_type_descriptor r
  | .RttiBaseClassArray => demangle_untyped_variable rend r c!"`RTTI Base Class Array'"
  | .RttiClassHierarchyDescriptor =>
    demangle_untyped_variable rend r c!"`RTTI Class Hierarchy Descriptor'"
  | .RttiBaseClassDescriptor => demangle_rtti_base_class_descriptor_node rend r
  | .DynamicInitializer => demangle_init_fini_stub rend r false
  | .DynamicAtexitDestructor => demangle_init_fini_stub rend r true
  | .Typeof => SM.err .InvalidSpecialIntrinsic
  | .UdtReturning => SM.err .InvalidSpecialIntrinsic

/-- `do_parse`, src/demangler.rs:294-314, with `demangle_special_intrinsic`, 1489-1548. -/
def do_parse : P Handle := do
  let dot ← query fun m => m.starts_with c!"."
  if dot then demangle_typeinfo_name r
  else do
    let md5 ← query fun m => m.starts_with c!"??@"
    if md5 then demangle_md5_name
    else do
      expectChar '?' (.Io .UnexpectedEof)
      let sik ← consume_special_intrinsic_kind
      match sik with
      | some sik => special_intrinsic rend r sik
      | none => demangle_declarator rend r

end

/-- The recursive functions with recursion budget `n`. -/
def fns (rend : Renderer) : Nat → Fns
  | 0 => ⟨fun _ => SM.crash .fuel, fun _ => SM.crash .fuel, SM.crash .fuel⟩
  | n + 1 =>
    let r := fns rend n
    ⟨demangle_type rend r, demangle_template_instantiation_name rend r, do_parse rend r⟩

end Undname
