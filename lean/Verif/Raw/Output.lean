/-
  The rendering of nodes of Model/Output.lean on bytes. Generated by tools/raw.py.
-/
import Verif.Model.Output
import Verif.Raw.Nodes


namespace Undname.Raw
open Undname (Text)

/-- Computations that write to a `Writer`: the state is the bytes written so far. -/
abbrev W := SM Bytes

/-- `BufWriter::write`, src/demangler.rs:155-168. -/
def write (b : Bytes) : W Unit := fun w =>
  if b.length + w.length < OUTPUT_LIMIT then .ok ((), w ++ b) else .error (.err (.Io .OutOfMemory))

/-- `write!` of a literal or of the decimal digits of a number. -/
def writeT (t : Text) : W Unit := write (enc t)

/-- `Buffer::last_char`, src/demangler.rs:121-126. -/
def last_char : W (Option Char) := fun w =>
  if from_utf8 w then
    match next_back w with
    | .ok c => .ok (c, w)
    | .error e => .error e
  else .ok (none, w)

/-- `output_space_if_necessary`, src/nodes/mod.rs:115-122. -/
def output_space_if_necessary (E : Env) : W Unit := do
  let last ← last_char
  match last with
  | some c => whenB (isAlphanumeric E.uni c || c == '>') (writeT c!" ")
  | none => pure ()

namespace Qualifiers

open Undname.Qualifiers (SingleQualifier has Q_None)

/-- `output_single_qualifier`, src/nodes/enums.rs:54-71. -/
def output_single_qualifier (E : Env) : SingleQualifier → W Unit
  | .Const => writeT c!"const"
  | .Volatile => writeT c!"volatile"
  | .Restrict =>
    if E.flags.no_ms_keywords then pure ()
    else if E.flags.no_leading_underscores then writeT c!"restrict"
    else writeT c!"__restrict"

/-- `output_if_present`, src/nodes/enums.rs:116-133. -/
def output_if_present (E : Env) (q : Qualifiers) (m : SingleQualifier) (needs_space : Bool) : W Bool :=
  if has q m.mask then do
    whenB needs_space (writeT c!" ")
    output_single_qualifier E m
    pure true
  else pure needs_space

/-- `Qualifiers::output`, src/nodes/enums.rs:92-114. -/
def output (E : Env) (q : Qualifiers) (space_before space_after : Bool) : W Unit :=
  whenB (q != Q_None) do
    let before ← SM.get
    let sb ← output_if_present E q .Const space_before
    let sb ← output_if_present E q .Volatile sb
    let _ ← output_if_present E q .Restrict sb
    let after ← SM.get
    whenB (space_after && before.length < after.length) (writeT c!" ")

end Qualifiers

/-- `CallingConv::output`, src/nodes/enums.rs:176-207. -/
def CallingConv.output (E : Env) (cc : CallingConv) : W Unit := do
  output_space_if_necessary E
  writeT (cc.text E.flags.no_leading_underscores)

/-- The rendering functions at the handles stored in a node. `out k h` resolves `h` at interface `k`
and calls `output`, `pre`/`post` resolve a type or signature and call `output_pre`/`output_post`. The
interface dispatch of src/nodes/intermediate.rs (`impl WriteableNode`/`WriteableTypeNode` for the
enums) is the pattern matching on `Node` below. -/
structure OutFns where
  out : Kind → Handle → W Unit
  pre : Kind → Handle → W Unit
  post : Kind → Handle → W Unit

section

variable (E : Env) (c : Cache) (r : OutFns)

/-- `FunctionSignatureNode::do_output_pre`, src/nodes/derived.rs:149-198. -/
def funcPre (f : FuncSig) (is_function_ptr : Bool) : W Unit := do
  whenB (!E.flags.no_access_specifier && !E.flags.name_only) do
    whenB f.function_class.is_public (writeT c!"public: ")
    whenB f.function_class.is_protected (writeT c!"protected: ")
    whenB f.function_class.is_private (writeT c!"private: ")
  whenB (!E.flags.no_member_type && !E.flags.name_only) do
    whenB (!f.function_class.is_global && f.function_class.is_static) (writeT c!"static ")
    whenB f.function_class.is_virtual (writeT c!"virtual ")
    whenB f.function_class.is_extern_c (writeT c!"extern \"C\" ")
  whenB (!E.flags.no_return_type && (is_function_ptr || !E.flags.name_only)) do
    whenSome f.return_type fun rt => do
      r.pre .ITypeNode rt
      writeT c!" "
  whenB (!is_function_ptr && !E.flags.no_calling_convention && !E.flags.no_ms_keywords
      && !E.flags.name_only) do
    whenSome f.call_convention fun cc => CallingConv.output E cc

/-- The parameter list printed by `do_output_post`, src/nodes/derived.rs:208-222. -/
def funcParams (f : FuncSig) : W Unit := do
  writeT c!"("
  match f.params with
  | some params => r.out .NodeArray params
  | none => writeT c!"void"
  whenB f.is_variadic do
    let last ← last_char
    whenB (match last with | some x => x != '(' | none => false) (writeT c!", ")
    writeT c!"..."
  writeT c!")"

/-- The qualifiers printed by `do_output_post`, src/nodes/derived.rs:225-247. -/
def funcQuals (f : FuncSig) : W Unit := do
  whenB f.quals.is_const (writeT c!" const")
  whenB f.quals.is_volatile (writeT c!" volatile")
  whenB (!E.flags.no_ms_keywords) do
    whenB f.quals.is_restrict
      (if E.flags.no_leading_underscores then writeT c!" restrict" else writeT c!" __restrict")
    whenB f.quals.is_unaligned
      (if E.flags.no_leading_underscores then writeT c!" unaligned" else writeT c!" __unaligned")

/-- `FunctionSignatureNode::do_output_post`, src/nodes/derived.rs:200-268. -/
def funcPost (f : FuncSig) (is_function_ptr : Bool) : W Unit := do
  whenB ((is_function_ptr || !E.flags.name_only) && !f.function_class.no_parameter_list)
    (funcParams r f)
  whenB (!E.flags.no_this_type && !E.flags.name_only) (funcQuals E f)
  whenB f.is_noexcept (writeT c!" noexcept")
  whenB (!E.flags.no_this_type && !E.flags.name_only)
    (writeT (FunctionRefQualifier.text f.ref_qualifier))
  whenB (!E.flags.no_return_type && !E.flags.name_only) do
    whenSome f.return_type fun rt => r.post .ITypeNode rt

/-- `ThunkSignatureNode::do_output_pre`, src/nodes/derived.rs:323-335. -/
def thunkPre (f : FuncSig) (is_function_ptr : Bool) : W Unit := do
  whenB (!E.flags.name_only) (writeT c!"[thunk]: ")
  funcPre E r f is_function_ptr

/-- `ThunkSignatureNode::do_output_post`, src/nodes/derived.rs:337-364. -/
def thunkPost (f : FuncSig) (a : ThisAdjustor) (is_function_ptr : Bool) : W Unit := do
  writeT (thunkText f.function_class a)
  funcPost E r f is_function_ptr

/-- `TypeNode::ArrayType(_) | TypeNode::Signature(_)`. -/
def Node.isArrayOrSig : Node → Bool
  | .ArrayType .. | .FunctionSignature .. | .ThunkSignature .. => true
  | _ => false

/-- The first part of `PointerTypeNode::output_pre`, src/nodes/derived.rs:424-438: the pointee. The
pointee's handle is resolved by the caller; a pointee other than a signature goes through `r.pre`,
which resolves it once more. -/
def pointeePre (pointee : Handle) : Node → W Unit
  | .FunctionSignature f => funcPre E r f true
  | .ThunkSignature f _ => thunkPre E r f true
  | _ => r.pre .ITypeNode pointee

/-- `(` and the calling convention, src/nodes/derived.rs:450-462. -/
def pointeeParen : Node → W Unit
  | .ArrayType .. => writeT c!"("
  | .FunctionSignature f | .ThunkSignature f _ => do
    writeT c!"("
    whenB (!E.flags.no_calling_convention && !E.flags.no_ms_keywords) do
      whenSome f.call_convention fun cc => do
        CallingConv.output E cc
        writeT c!" "
  | _ => pure ()

/-- `PointerTypeNode::output_pre`, src/nodes/derived.rs:423-483. -/
def pointerPre (quals : Qualifiers) (affinity : Option PointerAffinity)
    (class_parent : Option Handle) (pointee : Handle) : W Unit := do
  let pn ← SM.lift (resolve .ITypeNode c pointee)
  pointeePre E r pointee pn
  output_space_if_necessary E
  whenB (!E.flags.no_ms_keywords && quals.is_unaligned)
    (if E.flags.no_leading_underscores then writeT c!"unaligned " else writeT c!"__unaligned ")
  pointeeParen E pn
  whenSome class_parent fun cp => do
    r.out .QualifiedName cp
    writeT c!"::"
  match affinity with
  | some a => writeT a.text
  | none => SM.crash .panic        -- expect, line 474
  Qualifiers.output E quals false false

/-- src/nodes/derived.rs:494-503 -/
def pointeePost (pointee : Handle) : Node → W Unit
  | .FunctionSignature f => funcPost E r f true
  | .ThunkSignature f a => thunkPost E r f a true
  | _ => r.post .ITypeNode pointee

/-- `PointerTypeNode::output_post`, src/nodes/derived.rs:485-503. -/
def pointerPost (pointee : Handle) : W Unit := do
  let pn ← SM.lift (resolve .ITypeNode c pointee)
  whenB pn.isArrayOrSig (writeT c!")")
  pointeePost E r pointee pn

/-- `ArrayTypeNode::output_one_dimension`, src/nodes/derived.rs:555-572. -/
def output_one_dimension (h : Handle) : W Unit := do
  let n ← SM.lift (resolve .INode c h)
  match n with
  | .IntegerLiteral value is_negative => whenB (value != 0) (writeT (integerText value is_negative))
  | _ => SM.crash .panic           -- expect, lines 562-564

/-- Writes each handle of a list with `f`, with a separator in between: the `split_first` loops of
src/nodes/derived.rs:580-587 and 956-963. -/
def sepBy (sep : Text) (f : Handle → W Unit) : List Handle → W Unit
  | [] => SM.pure ()
  | h :: hs => do
    f h
    rest hs
where
  rest : List Handle → W Unit
    | [] => SM.pure ()
    | h :: hs => do
      writeT sep
      f h
      rest hs

/-- `ArrayTypeNode::output_dimensions_impl`, src/nodes/derived.rs:574-590. -/
def output_dimensions_impl (dimensions : Handle) : W Unit := do
  let n ← SM.lift (resolve .NodeArray c dimensions)
  match n with
  | .NodeArray nodes => sepBy c!"][" (output_one_dimension c) nodes
  | _ => SM.crash .panic

/-- `output_pre` of type nodes: src/nodes/derived.rs:83-111 (primitive), 294-296 (function), 388-390
(thunk), 423-483 (pointer), 519-535 (tag), 600-605 (array), 634-636 (custom); dispatch:
src/nodes/intermediate.rs `impl WriteableTypeNode for TypeNodeConst`/`SignatureNodeConst`. Not called on
other nodes. -/
def preNode : Node → W Unit
  | .PrimitiveType quals k => do
    writeT k.text
    Qualifiers.output E quals true false
  | .FunctionSignature f => funcPre E r f false
  | .ThunkSignature f _ => thunkPre E r f false
  | .PointerType quals a cp p => pointerPre E c r quals a cp p
  | .TagType quals name tag => do
    whenB (!E.flags.no_tag_specifier && !E.flags.name_only) (writeT (tag.text ++ c!" "))
    r.out .QualifiedName name
    Qualifiers.output E quals true false
  | .ArrayType quals _ elem => do
    r.pre .ITypeNode elem
    Qualifiers.output E quals true false
  | .CustomType _ ident => r.out .IIdentifierNode ident
  | _ => SM.crash .panic

/-- `output_post` of type nodes: src/nodes/derived.rs:113-115, 298-305, 392-399, 485-503, 537-539,
607-618, 638-640. Not called on other nodes. -/
def postNode : Node → W Unit
  | .PrimitiveType .. => pure ()
  | .FunctionSignature f => funcPost E r f false
  | .ThunkSignature f a => thunkPost E r f a false
  | .PointerType _ _ _ p => pointerPost E c r p
  | .TagType .. => pure ()
  | .ArrayType _ dims elem => do
    writeT c!"["
    output_dimensions_impl c dims
    writeT c!"]"
    r.post .ITypeNode elem
  | .CustomType .. => pure ()
  | _ => SM.crash .panic

/-- `TemplateParameters::output`, src/nodes/derived.rs:646-655. -/
def templateParams (tp : Option Handle) : W Unit :=
  whenSome tp fun h => do
    writeT c!"<"
    r.out .NodeArray h
    writeT c!">"

/-- `VariableSymbolNode::output`, src/nodes/derived.rs:1181-1228. -/
def variableOut (name : Option VariableSymbolName) (sc : Option StorageClass) (type : Option Handle) :
    W Unit := do
  whenB (!E.flags.no_access_specifier && !E.flags.name_only) (writeT (StorageClass.accessText sc))
  whenB (!E.flags.no_member_type && !E.flags.name_only && StorageClass.isStatic sc) (writeT c!"static ")
  match name with
  | none => SM.crash .panic        -- expect, line 1201
  | some (.Qualified name) =>
    let type := if !E.flags.no_variable_type && !E.flags.name_only then type else none
    whenSome type fun t => do
      r.pre .ITypeNode t
      output_space_if_necessary E
    r.out .QualifiedName name
    whenSome type fun t => r.post .ITypeNode t
  | some .TypeDescriptor =>
    whenSome type fun t => r.out .ITypeNode t
    whenB (!E.flags.name_only) do
      output_space_if_necessary E
      writeT c!"`RTTI Type Descriptor Name'"

/-- `WriteableNode::output` of every node (lines of src/nodes/derived.rs per case); dispatch:
src/nodes/intermediate.rs `impl WriteableNode for NodeConst`, `TypeNodeConst`, `IdentifierNodeConst`,
`SymbolNodeConst`. -/
def outNode : Node → W Unit
  -- 676-684
  | .VcallThunkIdentifier _ off =>
    if E.flags.name_only then writeT (c!"`vcall'{" ++ decNat off ++ c!"}")
    else writeT (c!"`vcall'{" ++ decNat off ++ c!", {flat}}")
  -- 713-735
  | .DynamicStructorIdentifier _ ident is_destructor => do
    writeT (if is_destructor then c!"`dynamic atexit destructor for " else c!"`dynamic initializer for ")
    match ident with
    | .Variable v => do
      writeT c!"`"
      r.out .VariableSymbol v
      writeT c!"''"
    | .Name n => do
      writeT c!"'"
      r.out .QualifiedName n
      writeT c!"''"
  -- 744-749
  | .NamedIdentifier tp name => do
    write name
    templateParams r tp
  -- 765-846
  | .IntrinsicFunctionIdentifier tp op => do
    whenSome op fun op => writeT op.text
    templateParams r tp
  -- 854-859
  | .LiteralOperatorIdentifier tp name => do
    write (enc c!"operator \"\"" ++ name)
    templateParams r tp
  -- 868-882
  | .LocalStaticGuardIdentifier _ is_thread idx => do
    writeT (if is_thread then c!"`local static thread guard'" else c!"`local static guard'")
    whenB (0 < idx) (writeT (c!"{" ++ decNat idx ++ c!"}"))
  -- 890-902
  | .ConversionOperatorIdentifier tp target => do
    writeT c!"operator"
    templateParams r tp
    writeT c!" "
    whenSome target fun t => r.out .ITypeNode t
  -- 911-921
  | .StructorIdentifier tp cls is_destructor => do
    whenB is_destructor (writeT c!"~")
    whenSome cls fun k => r.out .IIdentifierNode k
    templateParams r tp
  -- 932-941
  | .RttiBaseClassDescriptor _ nv vbptr vbtable fl =>
    writeT (c!"`RTTI Base Class Descriptor at (" ++ decNat nv ++ c!", " ++ decInt vbptr ++ c!", " ++
      decNat vbtable ++ c!", " ++ decNat fl ++ c!")'")
  -- 948-970
  | .NodeArray nodes => sepBy c!", " (r.out .INode) nodes
  -- 1016-1022
  | .QualifiedName comps => do
    let n ← SM.lift (resolve .NodeArray c comps)
    match n with
    | .NodeArray nodes => sepBy c!"::" (r.out .INode) nodes
    | _ => SM.crash .panic
  -- 1033-1058
  | .TemplateParameterReference symbol offsets affinity _ => do
    if !offsets.isEmpty then writeT c!"{"
    else whenB (affinity == some .Pointer) (writeT c!"&")
    whenSome symbol fun s => do
      r.out .ISymbolNode s
      whenB (!offsets.isEmpty) (writeT c!", ")
    writeT (offsetsText offsets)
  -- 1066-1072
  | .IntegerLiteral value neg => writeT (integerText value neg)
  -- 1079-1083
  | .Md5Symbol name => r.out .QualifiedName name
  -- 1092-1105
  | .SpecialTableSymbol name target quals => do
    whenB (!E.flags.name_only) (Qualifiers.output E quals false true)
    r.out .QualifiedName name
    whenSome target fun t => do
      writeT c!"{for `"
      r.out .QualifiedName t
      writeT c!"'}"
  -- 1114-1118
  | .LocalStaticGuardVariable name _ => r.out .QualifiedName name
  -- 1128-1140
  | .EncodedStringLiteral _ s trunc ch =>
    write (enc ch.prefixText ++ s ++ enc c!"\"" ++ (if trunc then enc c!"..." else []))
  -- 1181-1228
  | .VariableSymbol name sc type => variableOut E r name sc type
  -- 1237-1246
  | .FunctionSymbol name signature => do
    r.pre .ISignatureNode signature
    output_space_if_necessary E
    whenSome name fun n => r.out .QualifiedName n
    r.post .ISignatureNode signature
  -- types: `output_pair`, src/nodes/mod.rs:129-138
  | n => do
    preNode E c r n
    postNode E c r n

end

/-- The rendering functions, tied with a recursion budget that decreases at every handle that is
followed. Running out of it stands for infinite recursion. -/
def outFns (E : Env) (c : Cache) : Nat → OutFns
  | 0 => ⟨fun _ _ => SM.crash .fuel, fun _ _ => SM.crash .fuel, fun _ _ => SM.crash .fuel⟩
  | n + 1 =>
    let r := outFns E c n
    { out := fun k h => do let nd ← SM.lift (resolve k c h); outNode E c r nd
      pre := fun k h => do let nd ← SM.lift (resolve k c h); preNode E c r nd
      post := fun k h => do let nd ← SM.lift (resolve k c h); postNode E c r nd }

/-- `handle.resolve(cache).output(cache, ob, flags)` from the outside (src/demangler.rs:1119-1121, 1787-1790 and
276-277). A chain of distinct nodes is no longer than the cache, so the budget `length + 1` is only
exhausted by a cycle. -/
def render (E : Env) (c : Cache) (k : Kind) (h : Handle) : W Unit := (outFns E c (c.length + 1)).out k h

end Undname.Raw
