/-
  Model of undname-rs, part 2: enums, nodes, the node cache.
-/
import Verif.Model.Basic

namespace Undname

/-! ## Enums (src/nodes/enums.rs) -/

/-- `struct Qualifiers: u8`, src/nodes/enums.rs:21-34. -/
abbrev Qualifiers := BitVec 8

namespace Qualifiers
/-- src/nodes/enums.rs:25 -/
def Q_None : Qualifiers := 0
/-- src/nodes/enums.rs:26 -/
def Q_Const : Qualifiers := 1 <<< 0
/-- src/nodes/enums.rs:27 -/
def Q_Volatile : Qualifiers := 1 <<< 1
/-- src/nodes/enums.rs:30 -/
def Q_Unaligned : Qualifiers := 1 <<< 4
/-- src/nodes/enums.rs:31 -/
def Q_Restrict : Qualifiers := 1 <<< 5
/-- src/nodes/enums.rs:32 -/
def Q_Pointer64 : Qualifiers := 1 <<< 6

/-- bitflags' `contains`. -/
def has (q m : Qualifiers) : Bool := q &&& m == m
/-- src/nodes/enums.rs:75-78 -/
def is_const (q : Qualifiers) : Bool := has q Q_Const
/-- src/nodes/enums.rs:80-83 -/
def is_volatile (q : Qualifiers) : Bool := has q Q_Volatile
/-- src/nodes/enums.rs:85-88 -/
def is_unaligned (q : Qualifiers) : Bool := has q Q_Unaligned
/-- src/nodes/enums.rs:90-93 -/
def is_restrict (q : Qualifiers) : Bool := has q Q_Restrict
end Qualifiers

/-- `enum StorageClass`, src/nodes/enums.rs:138-145. -/
inductive StorageClass where
  | PrivateStatic | ProtectedStatic | PublicStatic | Global | FunctionLocalStatic
  deriving DecidableEq, Repr

/-- `enum PointerAffinity`, src/nodes/enums.rs:147-152. -/
inductive PointerAffinity where
  | Pointer | Reference | RValueReference
  deriving DecidableEq, Repr

/-- `enum FunctionRefQualifier`, src/nodes/enums.rs:154-158. -/
inductive FunctionRefQualifier where
  | Reference | RValueReference
  deriving DecidableEq, Repr

/-- `enum CallingConv`, src/nodes/enums.rs:160-173. -/
inductive CallingConv where
  | Cdecl | Pascal | Thiscall | Stdcall | Fastcall | Clrcall | Eabi | Vectorcall | Swift | SwiftAsync
  deriving DecidableEq, Repr

/-- `enum PrimitiveKind`, src/nodes/enums.rs:210-235. -/
inductive PrimitiveKind where
  | Void | Bool | Char | Schar | Uchar | Char8 | Char16 | Char32 | Short | Ushort | Int | Uint
  | Long | Ulong | Int64 | Uint64 | Wchar | Float | Double | Ldouble | Nullptr | Auto | DecltypeAuto
  deriving DecidableEq, Repr

/-- `enum CharKind`, src/nodes/enums.rs:237-243. -/
inductive CharKind where
  | Char | Char16 | Char32 | Wchar
  deriving DecidableEq, Repr

/-- `enum IntrinsicFunctionKind`, src/nodes/enums.rs:245-311. -/
inductive IFK where
  | New | Delete | Assign | RightShift | LeftShift | LogicalNot | Equals | NotEquals
  | ArraySubscript | Pointer | Dereference | Increment | Decrement | Minus | Plus | BitwiseAnd
  | MemberPointer | Divide | Modulus | LessThan | LessThanEqual | GreaterThan | GreaterThanEqual
  | Comma | Parens | BitwiseNot | BitwiseXor | BitwiseOr | LogicalAnd | LogicalOr | TimesEqual
  | PlusEqual | MinusEqual | DivEqual | ModEqual | RshEqual | LshEqual | BitwiseAndEqual
  | BitwiseOrEqual | BitwiseXorEqual | VbaseDtor | VecDelDtor | DefaultCtorClosure | ScalarDelDtor
  | VecCtorIter | VecDtorIter | VecVbaseCtorIter | VdispMap | EHVecCtorIter | EHVecDtorIter
  | EHVecVbaseCtorIter | CopyCtorClosure | LocalVftableCtorClosure | ArrayNew | ArrayDelete
  | ManVectorCtorIter | ManVectorDtorIter | EHVectorCopyCtorIter | EHVectorVbaseCopyCtorIter
  | VectorCopyCtorIter | VectorVbaseCopyCtorIter | ManVectorVbaseCopyCtorIter | CoAwait | Spaceship
  deriving DecidableEq, Repr

/-- `enum SpecialIntrinsicKind`, src/nodes/enums.rs:313-331. -/
inductive SpecialIntrinsicKind where
  | Vftable | Vbtable | Typeof | VcallThunk | LocalStaticGuard | StringLiteralSymbol | UdtReturning
  | DynamicInitializer | DynamicAtexitDestructor | RttiTypeDescriptor | RttiBaseClassDescriptor
  | RttiBaseClassArray | RttiClassHierarchyDescriptor | RttiCompleteObjLocator | LocalVftable
  | LocalStaticThreadGuard
  deriving DecidableEq, Repr

/-- `struct FuncClass: u16`, src/nodes/enums.rs:333-351. -/
abbrev FuncClass := BitVec 16

namespace FuncClass
/-- src/nodes/enums.rs:337 -/
def FC_None : FuncClass := 0
/-- src/nodes/enums.rs:338 -/
def FC_Public : FuncClass := 1 <<< 0
/-- src/nodes/enums.rs:339 -/
def FC_Protected : FuncClass := 1 <<< 1
/-- src/nodes/enums.rs:340 -/
def FC_Private : FuncClass := 1 <<< 2
/-- src/nodes/enums.rs:341 -/
def FC_Global : FuncClass := 1 <<< 3
/-- src/nodes/enums.rs:342 -/
def FC_Static : FuncClass := 1 <<< 4
/-- src/nodes/enums.rs:343 -/
def FC_Virtual : FuncClass := 1 <<< 5
/-- src/nodes/enums.rs:344 -/
def FC_Far : FuncClass := 1 <<< 6
/-- src/nodes/enums.rs:345 -/
def FC_ExternC : FuncClass := 1 <<< 7
/-- src/nodes/enums.rs:346 -/
def FC_NoParameterList : FuncClass := 1 <<< 8
/-- src/nodes/enums.rs:347 -/
def FC_VirtualThisAdjust : FuncClass := 1 <<< 9
/-- src/nodes/enums.rs:348 -/
def FC_VirtualThisAdjustEx : FuncClass := 1 <<< 10
/-- src/nodes/enums.rs:349 -/
def FC_StaticThisAdjust : FuncClass := 1 <<< 11

/-- bitflags' `contains`. -/
def has (f m : FuncClass) : Bool := f &&& m == m
/-- bitflags' `intersects`. -/
def intersects (f m : FuncClass) : Bool := f &&& m != 0
/-- src/nodes/enums.rs:354-357 -/
def is_public (f : FuncClass) : Bool := has f FC_Public
/-- src/nodes/enums.rs:359-362 -/
def is_protected (f : FuncClass) : Bool := has f FC_Protected
/-- src/nodes/enums.rs:364-367 -/
def is_private (f : FuncClass) : Bool := has f FC_Private
/-- src/nodes/enums.rs:369-372 -/
def is_global (f : FuncClass) : Bool := has f FC_Global
/-- src/nodes/enums.rs:374-377 -/
def is_static (f : FuncClass) : Bool := has f FC_Static
/-- src/nodes/enums.rs:379-382 -/
def is_virtual (f : FuncClass) : Bool := has f FC_Virtual
/-- src/nodes/enums.rs:384-387 -/
def is_extern_c (f : FuncClass) : Bool := has f FC_ExternC
/-- src/nodes/enums.rs:389-392 -/
def no_parameter_list (f : FuncClass) : Bool := has f FC_NoParameterList
/-- src/nodes/enums.rs:394-397 -/
def has_virtual_this_adjust (f : FuncClass) : Bool := has f FC_VirtualThisAdjust
/-- src/nodes/enums.rs:399-402 -/
def has_virtual_this_adjust_ex (f : FuncClass) : Bool := has f FC_VirtualThisAdjustEx
/-- src/nodes/enums.rs:404-407 -/
def has_static_this_adjust (f : FuncClass) : Bool := has f FC_StaticThisAdjust
end FuncClass

/-- `enum TagKind`, src/nodes/enums.rs:410-416. -/
inductive TagKind where
  | Class | Struct | Union | Enum
  deriving DecidableEq, Repr

/-! ## Nodes (src/nodes/derived.rs, src/cache.rs) -/

/-- `NodeHandle<T>`, src/cache.rs:336-340: an index into the cache. The static type parameter `T` is
dropped; the interface at which a handle is resolved is given by `Kind` at each use. -/
abbrev Handle := Nat

/-- `struct FunctionSignatureNode`, src/nodes/derived.rs:118-146 with the `Default` of 271-285. -/
structure FuncSig where
  quals : Qualifiers := Qualifiers.Q_None
  affinity : Option PointerAffinity := none
  call_convention : Option CallingConv := none
  function_class : FuncClass := FuncClass.FC_Global
  ref_qualifier : Option FunctionRefQualifier := none
  return_type : Option Handle := none
  is_variadic : Bool := false
  params : Option Handle := none
  is_noexcept : Bool := false
  deriving DecidableEq, Repr

/-- `struct ThisAdjustor`, src/nodes/derived.rs:308-314. -/
structure ThisAdjustor where
  static_offset : Nat := 0
  vbptr_offset : Int := 0
  vboffset_offset : Int := 0
  vtor_disp_offset : Int := 0
  deriving DecidableEq, Repr

/-- `enum DynamicStructorIdentifier`, src/nodes/derived.rs:688-692. -/
inductive DynamicStructorIdentifier where
  | Variable (h : Handle)
  | Name (h : Handle)
  deriving DecidableEq, Repr

/-- `enum VariableSymbolName`, src/nodes/derived.rs:1142-1146. -/
inductive VariableSymbolName where
  | Qualified (h : Handle)
  | TypeDescriptor
  deriving DecidableEq, Repr

/-- `enum NodeStorage`, src/cache.rs:66-97, together with the node structures it points to
(src/nodes/derived.rs, lines cited per constructor). `template_params` is `TemplateParameters`
(src/nodes/derived.rs:643-644). -/
inductive Node where
  /-- derived.rs:60-64 -/
  | PrimitiveType (quals : Qualifiers) (prim_kind : PrimitiveKind)
  /-- derived.rs:118-146 -/
  | FunctionSignature (f : FuncSig)
  /-- derived.rs:316-320 -/
  | ThunkSignature (function_node : FuncSig) (this_adjust : ThisAdjustor)
  /-- derived.rs:401-414 -/
  | PointerType (quals : Qualifiers) (affinity : Option PointerAffinity)
      (class_parent : Option Handle) (pointee : Handle)
  /-- derived.rs:506-511 -/
  | TagType (quals : Qualifiers) (qualified_name : Handle) (tag : TagKind)
  /-- derived.rs:543-552 -/
  | ArrayType (quals : Qualifiers) (dimensions : Handle) (element_type : Handle)
  /-- derived.rs:621-625 -/
  | CustomType (quals : Qualifiers) (identifier : Handle)
  /-- derived.rs:671-675 -/
  | VcallThunkIdentifier (template_params : Option Handle) (offset_in_vtable : Nat)
  /-- derived.rs:706-711 -/
  | DynamicStructorIdentifier (template_params : Option Handle)
      (identifier : DynamicStructorIdentifier) (is_destructor : Bool)
  /-- derived.rs:738-742 -/
  | NamedIdentifier (template_params : Option Handle) (name : Text)
  /-- derived.rs:751-755 -/
  | IntrinsicFunctionIdentifier (template_params : Option Handle) (operator : Option IFK)
  /-- derived.rs:848-852 -/
  | LiteralOperatorIdentifier (template_params : Option Handle) (name : Text)
  /-- derived.rs:861-866 -/
  | LocalStaticGuardIdentifier (template_params : Option Handle) (is_thread : Bool)
      (scope_index : Nat)
  /-- derived.rs:884-888 -/
  | ConversionOperatorIdentifier (template_params : Option Handle) (target_type : Option Handle)
  /-- derived.rs:904-909 -/
  | StructorIdentifier (template_params : Option Handle) (cls : Option Handle)
      (is_destructor : Bool)
  /-- derived.rs:923-930 -/
  | RttiBaseClassDescriptor (template_params : Option Handle) (nv_offset : Nat)
      (vbptr_offset : Int) (vbtable_offset : Nat) (flags : Nat)
  /-- derived.rs:943-946 -/
  | NodeArray (nodes : List Handle)
  /-- derived.rs:973-976 -/
  | QualifiedName (components : Handle)
  /-- derived.rs:1024-1031 -/
  | TemplateParameterReference (symbol : Option Handle) (thunk_offsets : List Int)
      (affinity : Option PointerAffinity) (is_member_pointer : Bool)
  /-- derived.rs:1060-1064 -/
  | IntegerLiteral (value : Nat) (is_negative : Bool)
  /-- derived.rs:1074-1077 -/
  | Md5Symbol (name : Handle)
  /-- derived.rs:1085-1090 -/
  | SpecialTableSymbol (name : Handle) (target_name : Option Handle) (quals : Qualifiers)
  /-- derived.rs:1107-1112 -/
  | LocalStaticGuardVariable (name : Handle) (is_visible : Bool)
  /-- derived.rs:1120-1126 -/
  | EncodedStringLiteral (name : Option Handle) (decoded_string : Text) (is_truncated : Bool)
      (char : CharKind)
  /-- derived.rs:1154-1159 -/
  | VariableSymbol (name : Option VariableSymbolName) (sc : Option StorageClass)
      (type : Option Handle)
  /-- derived.rs:1231-1235 -/
  | FunctionSymbol (name : Option Handle) (signature : Handle)
  deriving DecidableEq, Repr

/-- The interfaces at which handles are resolved: the type parameters `T` of `NodeHandle<T>` that
occur in the code (src/cache.rs:596-623, src/nodes/intermediate.rs:843-857). -/
inductive Kind where
  | INode | ITypeNode | ISignatureNode | IIdentifierNode | ISymbolNode
  | FunctionSignature | PointerType | NamedIdentifier | LocalStaticGuardIdentifier
  | VcallThunkIdentifier | StructorIdentifier | NodeArray | QualifiedName | VariableSymbol
  | FunctionSymbol
  deriving DecidableEq, Repr

namespace Node

/-- Membership in `ITypeNode`, src/cache.rs:263-273. -/
def isType : Node → Bool
  | PrimitiveType .. | FunctionSignature .. | ThunkSignature .. | PointerType .. | TagType ..
  | ArrayType .. | CustomType .. => true
  | _ => false

/-- Membership in `ISignatureNode`, src/cache.rs:275. -/
def isSignature : Node → Bool
  | FunctionSignature .. | ThunkSignature .. => true
  | _ => false

/-- Membership in `IIdentifierNode`, src/cache.rs:277-289. -/
def isIdentifier : Node → Bool
  | VcallThunkIdentifier .. | DynamicStructorIdentifier .. | NamedIdentifier ..
  | IntrinsicFunctionIdentifier .. | LiteralOperatorIdentifier .. | LocalStaticGuardIdentifier ..
  | ConversionOperatorIdentifier .. | StructorIdentifier .. | RttiBaseClassDescriptor .. => true
  | _ => false

/-- Membership in `ISymbolNode`, src/cache.rs:291-300. -/
def isSymbol : Node → Bool
  | Md5Symbol .. | SpecialTableSymbol .. | LocalStaticGuardVariable .. | EncodedStringLiteral ..
  | VariableSymbol .. | FunctionSymbol .. => true
  | _ => false

/-- `UnwrapStorage::try_unwrap(..).is_some()`, src/cache.rs:149-230 and 232-300. -/
def is : Kind → Node → Bool
  | .INode, _ => true
  | .ITypeNode, n => n.isType
  | .ISignatureNode, n => n.isSignature
  | .IIdentifierNode, n => n.isIdentifier
  | .ISymbolNode, n => n.isSymbol
  | .FunctionSignature, FunctionSignature .. => true
  | .PointerType, PointerType .. => true
  | .NamedIdentifier, NamedIdentifier .. => true
  | .LocalStaticGuardIdentifier, LocalStaticGuardIdentifier .. => true
  | .VcallThunkIdentifier, VcallThunkIdentifier .. => true
  | .StructorIdentifier, StructorIdentifier .. => true
  | .NodeArray, NodeArray .. => true
  | .QualifiedName, QualifiedName .. => true
  | .VariableSymbol, VariableSymbol .. => true
  | .FunctionSymbol, FunctionSymbol .. => true
  | _, _ => false

/-- `SignatureNodeConst::as_node`, src/nodes/intermediate.rs:536-543. Only used on signatures; on any
other node the value is irrelevant. -/
def asFuncSig : Node → FuncSig
  | FunctionSignature f => f
  | ThunkSignature f _ => f
  | _ => {}

/-- `TypeNodeMut::append_quals`, src/nodes/intermediate.rs:458-470. -/
def append_quals (q : Qualifiers) : Node → Node
  | PrimitiveType quals k => PrimitiveType (quals ||| q) k
  | FunctionSignature f => FunctionSignature { f with quals := f.quals ||| q }
  | ThunkSignature f a => ThunkSignature { f with quals := f.quals ||| q } a
  | PointerType quals a c p => PointerType (quals ||| q) a c p
  | TagType quals n t => TagType (quals ||| q) n t
  | ArrayType quals d e => ArrayType (quals ||| q) d e
  | CustomType quals i => CustomType (quals ||| q) i
  | n => n

/-- `TypeNodeMut::set_quals`, src/nodes/intermediate.rs:472-484. -/
def set_quals (q : Qualifiers) : Node → Node
  | PrimitiveType _ k => PrimitiveType q k
  | FunctionSignature f => FunctionSignature { f with quals := q }
  | ThunkSignature f a => ThunkSignature { f with quals := q } a
  | PointerType _ a c p => PointerType q a c p
  | TagType _ n t => TagType q n t
  | ArrayType _ d e => ArrayType q d e
  | CustomType _ i => CustomType q i
  | n => n

/-- `SignatureNodeMut::set_function_class`, src/nodes/intermediate.rs:594-599. -/
def set_function_class (fc : FuncClass) : Node → Node
  | FunctionSignature f => FunctionSignature { f with function_class := fc }
  | ThunkSignature f a => ThunkSignature { f with function_class := fc } a
  | n => n

/-- `IdentifierNodeMut::set_template_params`, src/nodes/intermediate.rs:692-706. -/
def set_template_params (tp : Handle) : Node → Node
  | VcallThunkIdentifier _ o => VcallThunkIdentifier (some tp) o
  | DynamicStructorIdentifier _ i d => DynamicStructorIdentifier (some tp) i d
  | NamedIdentifier _ n => NamedIdentifier (some tp) n
  | IntrinsicFunctionIdentifier _ o => IntrinsicFunctionIdentifier (some tp) o
  | LiteralOperatorIdentifier _ n => LiteralOperatorIdentifier (some tp) n
  | LocalStaticGuardIdentifier _ t i => LocalStaticGuardIdentifier (some tp) t i
  | ConversionOperatorIdentifier _ t => ConversionOperatorIdentifier (some tp) t
  | StructorIdentifier _ c d => StructorIdentifier (some tp) c d
  | RttiBaseClassDescriptor _ a b c d => RttiBaseClassDescriptor (some tp) a b c d
  | n => n

/-- `SymbolNodeConst::get_name`, src/nodes/intermediate.rs:756-772. -/
def get_name : Node → Option Handle
  | Md5Symbol name => some name
  | SpecialTableSymbol name _ _ => some name
  | LocalStaticGuardVariable name _ => some name
  | EncodedStringLiteral name _ _ _ => name
  | VariableSymbol (some (.Qualified name)) _ _ => some name
  | VariableSymbol _ _ _ => none
  | FunctionSymbol name _ => name
  | _ => none

/-- `SymbolNodeMut::set_name`, src/nodes/intermediate.rs:811-820. -/
def set_name (q : Handle) : Node → Node
  | Md5Symbol _ => Md5Symbol q
  | SpecialTableSymbol _ t qs => SpecialTableSymbol q t qs
  | LocalStaticGuardVariable _ v => LocalStaticGuardVariable q v
  | EncodedStringLiteral _ d t c => EncodedStringLiteral (some q) d t c
  | VariableSymbol _ sc t => VariableSymbol (some (.Qualified q)) sc t
  | FunctionSymbol _ s => FunctionSymbol (some q) s
  | n => n

end Node

/-! ## The cache (src/cache.rs) -/

/-- `struct NodeCache`, src/cache.rs:302-304. -/
abbrev Cache := List Node

/-- `NodeHandle::resolve`, src/cache.rs:351-360: panics if the index is out of bounds or the node
does not have the interface. -/
def resolve (k : Kind) (c : Cache) (h : Handle) : Except Fail Node :=
  match c[h]? with
  | some n => if n.is k then .ok n else .error (.crash .panic)
  | none => .error (.crash .panic)

/-- `NodeHandle::downcast`, src/cache.rs:375-383 and 475-575: resolves at the source interface `src`
and tests for `dst`. -/
def downcast (src dst : Kind) (c : Cache) (h : Handle) : Except Fail (Option Handle) :=
  match resolve src c h with
  | .ok n => .ok (if n.is dst then some h else none)
  | .error e => .error e

/-- `QualifiedNameNode::get_unqualified_identifier`, src/nodes/derived.rs:979-990, on the handle of a
qualified name. -/
def get_unqualified_identifier (c : Cache) (qn : Handle) : Except Fail (Option Handle) :=
  match resolve .QualifiedName c qn with
  | .error e => .error e
  | .ok (.QualifiedName comps) =>
    match resolve .NodeArray c comps with
    | .error e => .error e
    | .ok (.NodeArray nodes) =>
      match nodes.getLast? with
      | some node => downcast .INode .IIdentifierNode c node
      | none => .ok none
    | .ok _ => .error (.crash .panic)
  | .ok _ => .error (.crash .panic)

end Undname
