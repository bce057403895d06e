/-
  Model of undname-rs, part 3: the output buffer and the rendering of nodes
  (src/nodes/mod.rs, src/nodes/enums.rs, src/nodes/derived.rs, src/nodes/intermediate.rs and the
  `writing` module of src/demangler.rs).
-/
import Verif.Model.Nodes

namespace Undname

/-- What rendering depends on besides the nodes: the flags, and `char::is_alphanumeric` on
non-ASCII characters. The Unicode tables of the standard library are not modelled: every theorem holds
for an arbitrary `uni`. -/
structure Env where
  flags : Flags
  uni : Char → Bool

/-- Computations that write to a `Writer`: the state is the text written so far. -/
abbrev W := SM Text

/-- `if b { m }`. -/
def whenB {σ : Type} (b : Bool) (m : SM σ Unit) : SM σ Unit := if b then m else SM.pure ()

/-- `if let Some(a) = o { f(a) }`. -/
def whenSome {σ α : Type} (o : Option α) (f : α → SM σ Unit) : SM σ Unit :=
  match o with
  | some a => f a
  | none => SM.pure ()

/-- The output limit of src/demangler.rs:158, `1 << 20` bytes. -/
def OUTPUT_LIMIT : Nat := 1048576

/-- `write!(ob, ..)` on a `BufWriter`, src/demangler.rs:155-168. One `write!` may call `write` several
times (once per literal piece or argument); the pieces are concatenated here, which is the same
computation: the bound is monotone, nothing is read in between and a failed write is never followed by
anything but returning the error and clearing or dropping the buffer. -/
def write (t : Text) : W Unit := fun w =>
  if utf8Len t + utf8Len w < OUTPUT_LIMIT then .ok ((), w ++ t) else .error (.err (.Io .OutOfMemory))

/-- `char::is_alphanumeric`: ASCII letters and digits, and `uni` beyond ASCII. -/
def isAlphanumeric (uni : Char → Bool) (c : Char) : Bool :=
  if c.toNat < 128 then isDigit c || isUpper c || isLower c else uni c

/-- `output_space_if_necessary`, src/nodes/mod.rs:115-122; `last_char` is src/demangler.rs:121-126. -/
def output_space_if_necessary (E : Env) : W Unit := do
  let w ← SM.get
  match w.getLast? with
  | some c => whenB (isAlphanumeric E.uni c || c == '>') (write c!" ")
  | none => pure ()

/-- `{}` of an unsigned integer. -/
def decNat (n : Nat) : Text := Nat.toDigits 10 n

/-- `{}` of a signed integer. -/
def decInt (i : Int) : Text :=
  if i < 0 then '-' :: decNat i.natAbs else decNat i.natAbs

namespace Qualifiers

/-- `enum SingleQualifier`, src/nodes/enums.rs:46-51, and `From<SingleQualifier>`, 36-44. -/
inductive SingleQualifier where
  | Const | Volatile | Restrict

/-- src/nodes/enums.rs:36-44 -/
def SingleQualifier.mask : SingleQualifier → Qualifiers
  | .Const => Q_Const
  | .Volatile => Q_Volatile
  | .Restrict => Q_Restrict

/-- `output_single_qualifier`, src/nodes/enums.rs:54-71. -/
def output_single_qualifier (E : Env) : SingleQualifier → W Unit
  | .Const => write c!"const"
  | .Volatile => write c!"volatile"
  | .Restrict =>
    if E.flags.no_ms_keywords then pure ()
    else if E.flags.no_leading_underscores then write c!"restrict"
    else write c!"__restrict"

/-- `output_if_present`, src/nodes/enums.rs:116-133. -/
def output_if_present (E : Env) (q : Qualifiers) (m : SingleQualifier) (needs_space : Bool) : W Bool :=
  if has q m.mask then do
    whenB needs_space (write c!" ")
    output_single_qualifier E m
    pure true
  else pure needs_space

/-- `Qualifiers::output`, src/nodes/enums.rs:92-114. -/
def output (E : Env) (q : Qualifiers) (space_before space_after : Bool) : W Unit :=
  whenB (q != Q_None) do
    let before ← SM.get
    let sb ← output_if_present E q .Const space_before
    let sb ← output_if_present E q .Volatile sb
    let _ ← output_if_present E q .Restrict sb
    let after ← SM.get
    whenB (space_after && utf8Len before < utf8Len after) (write c!" ")

end Qualifiers

/-- The names of calling conventions, src/nodes/enums.rs:178-203. -/
def CallingConv.text (no_leading_underscores : Bool) (cc : CallingConv) : Text :=
  if no_leading_underscores then
    match cc with
    | .Cdecl => c!"cdecl"
    | .Fastcall => c!"fastcall"
    | .Pascal => c!"pascal"
    | .Stdcall => c!"stdcall"
    | .Thiscall => c!"thiscall"
    | .Eabi => c!"eabi"
    | .Vectorcall => c!"vectorcall"
    | .Clrcall => c!"clrcall"
    | .Swift => c!"__attribute__((__swiftcall__)) "
    | .SwiftAsync => c!"__attribute__((__swiftasynccall__)) "
  else
    match cc with
    | .Cdecl => c!"__cdecl"
    | .Fastcall => c!"__fastcall"
    | .Pascal => c!"__pascal"
    | .Stdcall => c!"__stdcall"
    | .Thiscall => c!"__thiscall"
    | .Eabi => c!"__eabi"
    | .Vectorcall => c!"__vectorcall"
    | .Clrcall => c!"__clrcall"
    | .Swift => c!"__attribute__((__swiftcall__)) "
    | .SwiftAsync => c!"__attribute__((__swiftasynccall__)) "

/-- `CallingConv::output`, src/nodes/enums.rs:176-207. -/
def CallingConv.output (E : Env) (cc : CallingConv) : W Unit := do
  output_space_if_necessary E
  write (cc.text E.flags.no_leading_underscores)

/-- src/nodes/derived.rs:84-107 -/
def PrimitiveKind.text : PrimitiveKind → Text
  | .Void => c!"void"
  | .Bool => c!"bool"
  | .Char => c!"char"
  | .Schar => c!"signed char"
  | .Uchar => c!"unsigned char"
  | .Char8 => c!"char8_t"
  | .Char16 => c!"char16_t"
  | .Char32 => c!"char32_t"
  | .Short => c!"short"
  | .Ushort => c!"unsigned short"
  | .Int => c!"int"
  | .Uint => c!"unsigned int"
  | .Long => c!"long"
  | .Ulong => c!"unsigned long"
  | .Int64 => c!"__int64"
  | .Uint64 => c!"unsigned __int64"
  | .Wchar => c!"wchar_t"
  | .Float => c!"float"
  | .Double => c!"double"
  | .Ldouble => c!"long double"
  | .Nullptr => c!"std::nullptr_t"
  | .Auto => c!"auto"
  | .DecltypeAuto => c!"decltype(auto)"

/-- src/nodes/derived.rs:520-525 -/
def TagKind.text : TagKind → Text
  | .Class => c!"class"
  | .Struct => c!"struct"
  | .Union => c!"union"
  | .Enum => c!"enum"

/-- src/nodes/derived.rs:767-841 -/
def IFK.text : IFK → Text
  | .New => c!"operator new"
  | .Delete => c!"operator delete"
  | .Assign => c!"operator="
  | .RightShift => c!"operator>>"
  | .LeftShift => c!"operator<<"
  | .LogicalNot => c!"operator!"
  | .Equals => c!"operator=="
  | .NotEquals => c!"operator!="
  | .ArraySubscript => c!"operator[]"
  | .Pointer => c!"operator->"
  | .Increment => c!"operator++"
  | .Decrement => c!"operator--"
  | .Minus => c!"operator-"
  | .Plus => c!"operator+"
  | .Dereference => c!"operator*"
  | .BitwiseAnd => c!"operator&"
  | .MemberPointer => c!"operator->*"
  | .Divide => c!"operator/"
  | .Modulus => c!"operator%"
  | .LessThan => c!"operator<"
  | .LessThanEqual => c!"operator<="
  | .GreaterThan => c!"operator>"
  | .GreaterThanEqual => c!"operator>="
  | .Comma => c!"operator,"
  | .Parens => c!"operator()"
  | .BitwiseNot => c!"operator~"
  | .BitwiseXor => c!"operator^"
  | .BitwiseOr => c!"operator|"
  | .LogicalAnd => c!"operator&&"
  | .LogicalOr => c!"operator||"
  | .TimesEqual => c!"operator*="
  | .PlusEqual => c!"operator+="
  | .MinusEqual => c!"operator-="
  | .DivEqual => c!"operator/="
  | .ModEqual => c!"operator%="
  | .RshEqual => c!"operator>>="
  | .LshEqual => c!"operator<<="
  | .BitwiseAndEqual => c!"operator&="
  | .BitwiseOrEqual => c!"operator|="
  | .BitwiseXorEqual => c!"operator^="
  | .VbaseDtor => c!"`vbase dtor'"
  | .VecDelDtor => c!"`vector deleting dtor'"
  | .DefaultCtorClosure => c!"`default constructor closure'"
  | .ScalarDelDtor => c!"`scalar deleting dtor'"
  | .VecCtorIter => c!"`vector ctor iterator'"
  | .VecDtorIter => c!"`vector dtor iterator'"
  | .VecVbaseCtorIter => c!"`vector vbase ctor iterator'"
  | .VdispMap => c!"`virtual displacement map'"
  | .EHVecCtorIter => c!"`eh vector ctor iterator'"
  | .EHVecDtorIter => c!"`eh vector dtor iterator'"
  | .EHVecVbaseCtorIter => c!"`eh vector vbase ctor iterator'"
  | .CopyCtorClosure => c!"`copy ctor closure'"
  | .LocalVftableCtorClosure => c!"`local vftable ctor closure'"
  | .ArrayNew => c!"operator new[]"
  | .ArrayDelete => c!"operator delete[]"
  | .ManVectorCtorIter => c!"`managed vector ctor iterator'"
  | .ManVectorDtorIter => c!"`managed vector dtor iterator'"
  | .EHVectorCopyCtorIter => c!"`EH vector copy ctor iterator'"
  | .EHVectorVbaseCopyCtorIter => c!"`EH vector vbase copy ctor iterator'"
  | .VectorCopyCtorIter => c!"`vector copy ctor iterator'"
  | .VectorVbaseCopyCtorIter => c!"`vector vbase copy constructor iterator'"
  | .ManVectorVbaseCopyCtorIter => c!"`managed vector vbase copy constructor iterator'"
  | .CoAwait => c!"operator co_await"
  | .Spaceship => c!"operator<=>"

/-- src/nodes/derived.rs:1130-1135 -/
def CharKind.prefixText : CharKind → Text
  | .Wchar => c!"L\""
  | .Char => c!"\""
  | .Char16 => c!"u\""
  | .Char32 => c!"U\""

/-- The rendering functions at the handles stored in a node. `out k h` resolves `h` at interface `k`
and calls `output`, `pre`/`post` resolve a type or signature and call `output_pre`/`output_post`. The
interface dispatch of src/nodes/intermediate.rs (`impl WriteableNode`/`WriteableTypeNode` for the
enums) is the pattern matching on `Node` below. -/
structure OutFns where
  out : Kind → Handle → W Unit
  pre : Kind → Handle → W Unit
  post : Kind → Handle → W Unit

section
variable (E : Env) (c : Cache) (r : OutFns)

/-- `FunctionSignatureNode::do_output_pre`, src/nodes/derived.rs:149-198. -/
def funcPre (f : FuncSig) (is_function_ptr : Bool) : W Unit := do
  whenB (!E.flags.no_access_specifier && !E.flags.name_only) do
    whenB f.function_class.is_public (write c!"public: ")
    whenB f.function_class.is_protected (write c!"protected: ")
    whenB f.function_class.is_private (write c!"private: ")
  whenB (!E.flags.no_member_type && !E.flags.name_only) do
    whenB (!f.function_class.is_global && f.function_class.is_static) (write c!"static ")
    whenB f.function_class.is_virtual (write c!"virtual ")
    whenB f.function_class.is_extern_c (write c!"extern \"C\" ")
  whenB (!E.flags.no_return_type && (is_function_ptr || !E.flags.name_only)) do
    whenSome f.return_type fun rt => do
      r.pre .ITypeNode rt
      write c!" "
  whenB (!is_function_ptr && !E.flags.no_calling_convention && !E.flags.no_ms_keywords
      && !E.flags.name_only) do
    whenSome f.call_convention fun cc => cc.output E

/-- The parameter list printed by `do_output_post`, src/nodes/derived.rs:208-222. -/
def funcParams (f : FuncSig) : W Unit := do
  write c!"("
  match f.params with
  | some params => r.out .NodeArray params
  | none => write c!"void"
  whenB f.is_variadic do
    let w ← SM.get
    whenB (match w.getLast? with | some x => x != '(' | none => false) (write c!", ")
    write c!"..."
  write c!")"

/-- The qualifiers printed by `do_output_post`, src/nodes/derived.rs:225-247. -/
def funcQuals (f : FuncSig) : W Unit := do
  whenB f.quals.is_const (write c!" const")
  whenB f.quals.is_volatile (write c!" volatile")
  whenB (!E.flags.no_ms_keywords) do
    whenB f.quals.is_restrict
      (if E.flags.no_leading_underscores then write c!" restrict" else write c!" __restrict")
    whenB f.quals.is_unaligned
      (if E.flags.no_leading_underscores then write c!" unaligned" else write c!" __unaligned")

/-- src/nodes/derived.rs:254-258 -/
def FunctionRefQualifier.text : Option FunctionRefQualifier → Text
  | some .Reference => c!" &"
  | some .RValueReference => c!" &&"
  | none => []

/-- `FunctionSignatureNode::do_output_post`, src/nodes/derived.rs:200-268. -/
def funcPost (f : FuncSig) (is_function_ptr : Bool) : W Unit := do
  whenB ((is_function_ptr || !E.flags.name_only) && !f.function_class.no_parameter_list)
    (funcParams r f)
  whenB (!E.flags.no_this_type && !E.flags.name_only) (funcQuals E f)
  whenB f.is_noexcept (write c!" noexcept")
  whenB (!E.flags.no_this_type && !E.flags.name_only)
    (write (FunctionRefQualifier.text f.ref_qualifier))
  whenB (!E.flags.no_return_type && !E.flags.name_only) do
    whenSome f.return_type fun rt => r.post .ITypeNode rt

/-- `ThunkSignatureNode::do_output_pre`, src/nodes/derived.rs:323-335. -/
def thunkPre (f : FuncSig) (is_function_ptr : Bool) : W Unit := do
  whenB (!E.flags.name_only) (write c!"[thunk]: ")
  funcPre E r f is_function_ptr

/-- The adjustor text, src/nodes/derived.rs:351-359. -/
def thunkText (fc : FuncClass) (a : ThisAdjustor) : Text :=
  if fc.has_static_this_adjust then
    c!"`adjustor{" ++ decNat a.static_offset ++ c!"}'"
  else if fc.has_virtual_this_adjust then
    if fc.has_virtual_this_adjust_ex then
      c!"`vtordispex{" ++ decInt a.vbptr_offset ++ c!", " ++ decInt a.vboffset_offset ++ c!", " ++
        decInt a.vtor_disp_offset ++ c!", " ++ decNat a.static_offset ++ c!"}'"
    else
      c!"`vtordisp{" ++ decInt a.vtor_disp_offset ++ c!", " ++ decNat a.static_offset ++ c!"}'"
  else []

/-- `ThunkSignatureNode::do_output_post`, src/nodes/derived.rs:337-364. -/
def thunkPost (f : FuncSig) (a : ThisAdjustor) (is_function_ptr : Bool) : W Unit := do
  write (thunkText f.function_class a)
  funcPost E r f is_function_ptr

/-- `TypeNode::ArrayType(_) | TypeNode::Signature(_)`. -/
def Node.isArrayOrSig : Node → Bool
  | .ArrayType .. | .FunctionSignature .. | .ThunkSignature .. => true
  | _ => false

/-- src/nodes/derived.rs:476-480 -/
def PointerAffinity.text : PointerAffinity → Text
  | .Pointer => c!"*"
  | .Reference => c!"&"
  | .RValueReference => c!"&&"

/-- The first part of `PointerTypeNode::output_pre`, src/nodes/derived.rs:424-438: the pointee. The
pointee's handle is resolved by the caller; a pointee other than a signature goes through `r.pre`,
which resolves it once more. -/
def pointeePre (pointee : Handle) : Node → W Unit
  | .FunctionSignature f => funcPre E r f true
  | .ThunkSignature f _ => thunkPre E r f true
  | _ => r.pre .ITypeNode pointee

/-- `(` and the calling convention, src/nodes/derived.rs:450-462. -/
def pointeeParen : Node → W Unit
  | .ArrayType .. => write c!"("
  | .FunctionSignature f | .ThunkSignature f _ => do
    write c!"("
    whenB (!E.flags.no_calling_convention && !E.flags.no_ms_keywords) do
      whenSome f.call_convention fun cc => do
        cc.output E
        write c!" "
  | _ => pure ()

/-- `PointerTypeNode::output_pre`, src/nodes/derived.rs:423-483. -/
def pointerPre (quals : Qualifiers) (affinity : Option PointerAffinity)
    (class_parent : Option Handle) (pointee : Handle) : W Unit := do
  let pn ← SM.lift (resolve .ITypeNode c pointee)
  pointeePre E r pointee pn
  output_space_if_necessary E
  whenB (!E.flags.no_ms_keywords && quals.is_unaligned)
    (if E.flags.no_leading_underscores then write c!"unaligned " else write c!"__unaligned ")
  pointeeParen E pn
  whenSome class_parent fun cp => do
    r.out .QualifiedName cp
    write c!"::"
  match affinity with
  | some a => write a.text
  | none => SM.crash .panic        -- expect, line 474
  Qualifiers.output E quals false false

/-- src/nodes/derived.rs:494-503 -/
def pointeePost (pointee : Handle) : Node → W Unit
  | .FunctionSignature f => funcPost E r f true
  | .ThunkSignature f a => thunkPost E r f a true
  | _ => r.post .ITypeNode pointee

/-- `PointerTypeNode::output_post`, src/nodes/derived.rs:485-503. -/
def pointerPost (pointee : Handle) : W Unit := do
  let pn ← SM.lift (resolve .ITypeNode c pointee)
  whenB pn.isArrayOrSig (write c!")")
  pointeePost E r pointee pn

/-- `IntegerLiteralNode::output`, src/nodes/derived.rs:1066-1072. -/
def integerText (value : Nat) (is_negative : Bool) : Text :=
  (if is_negative then c!"-" else []) ++ decNat value

/-- `ArrayTypeNode::output_one_dimension`, src/nodes/derived.rs:555-572. -/
def output_one_dimension (h : Handle) : W Unit := do
  let n ← SM.lift (resolve .INode c h)
  match n with
  | .IntegerLiteral value is_negative => whenB (value != 0) (write (integerText value is_negative))
  | _ => SM.crash .panic           -- expect, lines 562-564

/-- Writes each handle of a list with `f`, with a separator in between: the `split_first` loops of
src/nodes/derived.rs:580-587 and 956-963. -/
def sepBy (sep : Text) (f : Handle → W Unit) : List Handle → W Unit
  | [] => SM.pure ()
  | h :: hs => do
    f h
    rest hs
where
  rest : List Handle → W Unit
    | [] => SM.pure ()
    | h :: hs => do
      write sep
      f h
      rest hs

/-- `ArrayTypeNode::output_dimensions_impl`, src/nodes/derived.rs:574-590. -/
def output_dimensions_impl (dimensions : Handle) : W Unit := do
  let n ← SM.lift (resolve .NodeArray c dimensions)
  match n with
  | .NodeArray nodes => sepBy c!"][" (output_one_dimension c) nodes
  | _ => SM.crash .panic

/-- `output_pre` of type nodes: src/nodes/derived.rs:83-111 (primitive), 294-296 (function), 388-390
(thunk), 423-483 (pointer), 519-535 (tag), 600-605 (array), 634-636 (custom); dispatch:
src/nodes/intermediate.rs `impl WriteableTypeNode for TypeNodeConst`/`SignatureNodeConst`. Not called on
other nodes. -/
def preNode : Node → W Unit
  | .PrimitiveType quals k => do
    write k.text
    Qualifiers.output E quals true false
  | .FunctionSignature f => funcPre E r f false
  | .ThunkSignature f _ => thunkPre E r f false
  | .PointerType quals a cp p => pointerPre E c r quals a cp p
  | .TagType quals name tag => do
    whenB (!E.flags.no_tag_specifier && !E.flags.name_only) (write (tag.text ++ c!" "))
    r.out .QualifiedName name
    Qualifiers.output E quals true false
  | .ArrayType quals _ elem => do
    r.pre .ITypeNode elem
    Qualifiers.output E quals true false
  | .CustomType _ ident => r.out .IIdentifierNode ident
  | _ => SM.crash .panic

/-- `output_post` of type nodes: src/nodes/derived.rs:113-115, 298-305, 392-399, 485-503, 537-539,
607-618, 638-640. Not called on other nodes. -/
def postNode : Node → W Unit
  | .PrimitiveType .. => pure ()
  | .FunctionSignature f => funcPost E r f false
  | .ThunkSignature f a => thunkPost E r f a false
  | .PointerType _ _ _ p => pointerPost E c r p
  | .TagType .. => pure ()
  | .ArrayType _ dims elem => do
    write c!"["
    output_dimensions_impl c dims
    write c!"]"
    r.post .ITypeNode elem
  | .CustomType .. => pure ()
  | _ => SM.crash .panic

/-- `TemplateParameters::output`, src/nodes/derived.rs:646-655. -/
def templateParams (tp : Option Handle) : W Unit :=
  whenSome tp fun h => do
    write c!"<"
    r.out .NodeArray h
    write c!">"

/-- The thunk offsets printed by `TemplateParameterReferenceNode::output`,
src/nodes/derived.rs:1047-1053. -/
def offsetsText : List Int → Text
  | [] => []
  | first :: rest => decInt first ++ (rest.map fun o => c!", " ++ decInt o).flatten ++ c!"}"

/-- The access specifier of a variable, src/nodes/derived.rs:1183-1188 and 1190-1194. -/
def StorageClass.accessText : Option StorageClass → Text
  | some .PrivateStatic => c!"private: "
  | some .PublicStatic => c!"public: "
  | some .ProtectedStatic => c!"protected: "
  | _ => []

/-- `is_static`, src/nodes/derived.rs:1183-1188. -/
def StorageClass.isStatic : Option StorageClass → Bool
  | some .PrivateStatic | some .PublicStatic | some .ProtectedStatic => true
  | _ => false

/-- `VariableSymbolNode::output`, src/nodes/derived.rs:1181-1228. -/
def variableOut (name : Option VariableSymbolName) (sc : Option StorageClass) (type : Option Handle) :
    W Unit := do
  whenB (!E.flags.no_access_specifier && !E.flags.name_only) (write (StorageClass.accessText sc))
  whenB (!E.flags.no_member_type && !E.flags.name_only && StorageClass.isStatic sc) (write c!"static ")
  match name with
  | none => SM.crash .panic        -- expect, line 1201
  | some (.Qualified name) =>
    let type := if !E.flags.no_variable_type && !E.flags.name_only then type else none
    whenSome type fun t => do
      r.pre .ITypeNode t
      output_space_if_necessary E
    r.out .QualifiedName name
    whenSome type fun t => r.post .ITypeNode t
  | some .TypeDescriptor =>
    whenSome type fun t => r.out .ITypeNode t
    whenB (!E.flags.name_only) do
      output_space_if_necessary E
      write c!"`RTTI Type Descriptor Name'"

/-- `WriteableNode::output` of every node (lines of src/nodes/derived.rs per case); dispatch:
src/nodes/intermediate.rs `impl WriteableNode for NodeConst`, `TypeNodeConst`, `IdentifierNodeConst`,
`SymbolNodeConst`. -/
def outNode : Node → W Unit
  -- 676-684
  | .VcallThunkIdentifier _ off =>
    if E.flags.name_only then write (c!"`vcall'{" ++ decNat off ++ c!"}")
    else write (c!"`vcall'{" ++ decNat off ++ c!", {flat}}")
  -- 713-735
  | .DynamicStructorIdentifier _ ident is_destructor => do
    write (if is_destructor then c!"`dynamic atexit destructor for " else c!"`dynamic initializer for ")
    match ident with
    | .Variable v => do
      write c!"`"
      r.out .VariableSymbol v
      write c!"''"
    | .Name n => do
      write c!"'"
      r.out .QualifiedName n
      write c!"''"
  -- 744-749
  | .NamedIdentifier tp name => do
    write name
    templateParams r tp
  -- 765-846
  | .IntrinsicFunctionIdentifier tp op => do
    whenSome op fun op => write op.text
    templateParams r tp
  -- 854-859
  | .LiteralOperatorIdentifier tp name => do
    write (c!"operator \"\"" ++ name)
    templateParams r tp
  -- 868-882
  | .LocalStaticGuardIdentifier _ is_thread idx => do
    write (if is_thread then c!"`local static thread guard'" else c!"`local static guard'")
    whenB (0 < idx) (write (c!"{" ++ decNat idx ++ c!"}"))
  -- 890-902
  | .ConversionOperatorIdentifier tp target => do
    write c!"operator"
    templateParams r tp
    write c!" "
    whenSome target fun t => r.out .ITypeNode t
  -- 911-921
  | .StructorIdentifier tp cls is_destructor => do
    whenB is_destructor (write c!"~")
    whenSome cls fun k => r.out .IIdentifierNode k
    templateParams r tp
  -- 932-941
  | .RttiBaseClassDescriptor _ nv vbptr vbtable fl =>
    write (c!"`RTTI Base Class Descriptor at (" ++ decNat nv ++ c!", " ++ decInt vbptr ++ c!", " ++
      decNat vbtable ++ c!", " ++ decNat fl ++ c!")'")
  -- 948-970
  | .NodeArray nodes => sepBy c!", " (r.out .INode) nodes
  -- 1016-1022
  | .QualifiedName comps => do
    let n ← SM.lift (resolve .NodeArray c comps)
    match n with
    | .NodeArray nodes => sepBy c!"::" (r.out .INode) nodes
    | _ => SM.crash .panic
  -- 1033-1058
  | .TemplateParameterReference symbol offsets affinity _ => do
    if !offsets.isEmpty then write c!"{"
    else whenB (affinity == some .Pointer) (write c!"&")
    whenSome symbol fun s => do
      r.out .ISymbolNode s
      whenB (!offsets.isEmpty) (write c!", ")
    write (offsetsText offsets)
  -- 1066-1072
  | .IntegerLiteral value neg => write (integerText value neg)
  -- 1079-1083
  | .Md5Symbol name => r.out .QualifiedName name
  -- 1092-1105
  | .SpecialTableSymbol name target quals => do
    whenB (!E.flags.name_only) (Qualifiers.output E quals false true)
    r.out .QualifiedName name
    whenSome target fun t => do
      write c!"{for `"
      r.out .QualifiedName t
      write c!"'}"
  -- 1114-1118
  | .LocalStaticGuardVariable name _ => r.out .QualifiedName name
  -- 1128-1140
  | .EncodedStringLiteral _ s trunc ch =>
    write (ch.prefixText ++ s ++ c!"\"" ++ (if trunc then c!"..." else []))
  -- 1181-1228
  | .VariableSymbol name sc type => variableOut E r name sc type
  -- 1237-1246
  | .FunctionSymbol name signature => do
    r.pre .ISignatureNode signature
    output_space_if_necessary E
    whenSome name fun n => r.out .QualifiedName n
    r.post .ISignatureNode signature
  -- types: `output_pair`, src/nodes/mod.rs:129-138
  | n => do
    preNode E c r n
    postNode E c r n

end

/-- The rendering functions, tied with a recursion budget that decreases at every handle that is
followed. Running out of it stands for infinite recursion. -/
def outFns (E : Env) (c : Cache) : Nat → OutFns
  | 0 => ⟨fun _ _ => SM.crash .fuel, fun _ _ => SM.crash .fuel, fun _ _ => SM.crash .fuel⟩
  | n + 1 =>
    let r := outFns E c n
    { out := fun k h => do let nd ← SM.lift (resolve k c h); outNode E c r nd
      pre := fun k h => do let nd ← SM.lift (resolve k c h); preNode E c r nd
      post := fun k h => do let nd ← SM.lift (resolve k c h); postNode E c r nd }

/-- `handle.resolve(cache).output(cache, ob, flags)` from the outside (src/demangler.rs:1119-1121, 1787-1790 and
276-277). A chain of distinct nodes is no longer than the cache, so the budget `length + 1` is only
exhausted by a cycle. -/
def render (E : Env) (c : Cache) (k : Kind) (h : Handle) : W Unit := (outFns E c (c.length + 1)).out k h

end Undname
