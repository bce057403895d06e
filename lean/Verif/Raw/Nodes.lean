/-
  The nodes and the cache of Model/Nodes.lean with names stored as bytes. Generated by tools/raw.py.
-/
import Verif.Model.Nodes
import Verif.Raw.Utf8

namespace Undname.Raw
open Undname (Fail Error Crash Text)

/-- `enum NodeStorage`, src/cache.rs:66-97, together with the node structures it points to
(src/nodes/derived.rs, lines cited per constructor). `template_params` is `TemplateParameters`
(src/nodes/derived.rs:643-644). -/
inductive Node where
  /-- derived.rs:60-64 -/
  | PrimitiveType (quals : Qualifiers) (prim_kind : PrimitiveKind)
  /-- derived.rs:118-146 -/
  | FunctionSignature (f : FuncSig)
  /-- derived.rs:316-320 -/
  | ThunkSignature (function_node : FuncSig) (this_adjust : ThisAdjustor)
  /-- derived.rs:401-414 -/
  | PointerType (quals : Qualifiers) (affinity : Option PointerAffinity)
      (class_parent : Option Handle) (pointee : Handle)
  /-- derived.rs:506-511 -/
  | TagType (quals : Qualifiers) (qualified_name : Handle) (tag : TagKind)
  /-- derived.rs:543-552 -/
  | ArrayType (quals : Qualifiers) (dimensions : Handle) (element_type : Handle)
  /-- derived.rs:621-625 -/
  | CustomType (quals : Qualifiers) (identifier : Handle)
  /-- derived.rs:671-675 -/
  | VcallThunkIdentifier (template_params : Option Handle) (offset_in_vtable : Nat)
  /-- derived.rs:706-711 -/
  | DynamicStructorIdentifier (template_params : Option Handle)
      (identifier : DynamicStructorIdentifier) (is_destructor : Bool)
  /-- derived.rs:738-742 -/
  | NamedIdentifier (template_params : Option Handle) (name : Bytes)
  /-- derived.rs:751-755 -/
  | IntrinsicFunctionIdentifier (template_params : Option Handle) (operator : Option IFK)
  /-- derived.rs:848-852 -/
  | LiteralOperatorIdentifier (template_params : Option Handle) (name : Bytes)
  /-- derived.rs:861-866 -/
  | LocalStaticGuardIdentifier (template_params : Option Handle) (is_thread : Bool)
      (scope_index : Nat)
  /-- derived.rs:884-888 -/
  | ConversionOperatorIdentifier (template_params : Option Handle) (target_type : Option Handle)
  /-- derived.rs:904-909 -/
  | StructorIdentifier (template_params : Option Handle) (cls : Option Handle)
      (is_destructor : Bool)
  /-- derived.rs:923-930 -/
  | RttiBaseClassDescriptor (template_params : Option Handle) (nv_offset : Nat)
      (vbptr_offset : Int) (vbtable_offset : Nat) (flags : Nat)
  /-- derived.rs:943-946 -/
  | NodeArray (nodes : List Handle)
  /-- derived.rs:973-976 -/
  | QualifiedName (components : Handle)
  /-- derived.rs:1024-1031 -/
  | TemplateParameterReference (symbol : Option Handle) (thunk_offsets : List Int)
      (affinity : Option PointerAffinity) (is_member_pointer : Bool)
  /-- derived.rs:1060-1064 -/
  | IntegerLiteral (value : Nat) (is_negative : Bool)
  /-- derived.rs:1074-1077 -/
  | Md5Symbol (name : Handle)
  /-- derived.rs:1085-1090 -/
  | SpecialTableSymbol (name : Handle) (target_name : Option Handle) (quals : Qualifiers)
  /-- derived.rs:1107-1112 -/
  | LocalStaticGuardVariable (name : Handle) (is_visible : Bool)
  /-- derived.rs:1120-1126 -/
  | EncodedStringLiteral (name : Option Handle) (decoded_string : Bytes) (is_truncated : Bool)
      (char : CharKind)
  /-- derived.rs:1154-1159 -/
  | VariableSymbol (name : Option VariableSymbolName) (sc : Option StorageClass)
      (type : Option Handle)
  /-- derived.rs:1231-1235 -/
  | FunctionSymbol (name : Option Handle) (signature : Handle)
  deriving DecidableEq, Repr

namespace Node

/-- Membership in `ITypeNode`, src/cache.rs:263-273. -/
def isType : Node → Bool
  | PrimitiveType .. | FunctionSignature .. | ThunkSignature .. | PointerType .. | TagType ..
  | ArrayType .. | CustomType .. => true
  | _ => false

/-- Membership in `ISignatureNode`, src/cache.rs:275. -/
def isSignature : Node → Bool
  | FunctionSignature .. | ThunkSignature .. => true
  | _ => false

/-- Membership in `IIdentifierNode`, src/cache.rs:277-289. -/
def isIdentifier : Node → Bool
  | VcallThunkIdentifier .. | DynamicStructorIdentifier .. | NamedIdentifier ..
  | IntrinsicFunctionIdentifier .. | LiteralOperatorIdentifier .. | LocalStaticGuardIdentifier ..
  | ConversionOperatorIdentifier .. | StructorIdentifier .. | RttiBaseClassDescriptor .. => true
  | _ => false

/-- Membership in `ISymbolNode`, src/cache.rs:291-300. -/
def isSymbol : Node → Bool
  | Md5Symbol .. | SpecialTableSymbol .. | LocalStaticGuardVariable .. | EncodedStringLiteral ..
  | VariableSymbol .. | FunctionSymbol .. => true
  | _ => false

/-- `UnwrapStorage::try_unwrap(..).is_some()`, src/cache.rs:149-230 and 232-300. -/
def is : Kind → Node → Bool
  | .INode, _ => true
  | .ITypeNode, n => n.isType
  | .ISignatureNode, n => n.isSignature
  | .IIdentifierNode, n => n.isIdentifier
  | .ISymbolNode, n => n.isSymbol
  | .FunctionSignature, FunctionSignature .. => true
  | .PointerType, PointerType .. => true
  | .NamedIdentifier, NamedIdentifier .. => true
  | .LocalStaticGuardIdentifier, LocalStaticGuardIdentifier .. => true
  | .VcallThunkIdentifier, VcallThunkIdentifier .. => true
  | .StructorIdentifier, StructorIdentifier .. => true
  | .NodeArray, NodeArray .. => true
  | .QualifiedName, QualifiedName .. => true
  | .VariableSymbol, VariableSymbol .. => true
  | .FunctionSymbol, FunctionSymbol .. => true
  | _, _ => false

/-- `SignatureNodeConst::as_node`, src/nodes/intermediate.rs:536-543. Only used on signatures; on any
other node the value is irrelevant. -/
def asFuncSig : Node → FuncSig
  | FunctionSignature f => f
  | ThunkSignature f _ => f
  | _ => {}

/-- `TypeNodeMut::append_quals`, src/nodes/intermediate.rs:458-470. -/
def append_quals (q : Qualifiers) : Node → Node
  | PrimitiveType quals k => PrimitiveType (quals ||| q) k
  | FunctionSignature f => FunctionSignature { f with quals := f.quals ||| q }
  | ThunkSignature f a => ThunkSignature { f with quals := f.quals ||| q } a
  | PointerType quals a c p => PointerType (quals ||| q) a c p
  | TagType quals n t => TagType (quals ||| q) n t
  | ArrayType quals d e => ArrayType (quals ||| q) d e
  | CustomType quals i => CustomType (quals ||| q) i
  | n => n

/-- `TypeNodeMut::set_quals`, src/nodes/intermediate.rs:472-484. -/
def set_quals (q : Qualifiers) : Node → Node
  | PrimitiveType _ k => PrimitiveType q k
  | FunctionSignature f => FunctionSignature { f with quals := q }
  | ThunkSignature f a => ThunkSignature { f with quals := q } a
  | PointerType _ a c p => PointerType q a c p
  | TagType _ n t => TagType q n t
  | ArrayType _ d e => ArrayType q d e
  | CustomType _ i => CustomType q i
  | n => n

/-- `SignatureNodeMut::set_function_class`, src/nodes/intermediate.rs:594-599. -/
def set_function_class (fc : FuncClass) : Node → Node
  | FunctionSignature f => FunctionSignature { f with function_class := fc }
  | ThunkSignature f a => ThunkSignature { f with function_class := fc } a
  | n => n

/-- `IdentifierNodeMut::set_template_params`, src/nodes/intermediate.rs:692-706. -/
def set_template_params (tp : Handle) : Node → Node
  | VcallThunkIdentifier _ o => VcallThunkIdentifier (some tp) o
  | DynamicStructorIdentifier _ i d => DynamicStructorIdentifier (some tp) i d
  | NamedIdentifier _ n => NamedIdentifier (some tp) n
  | IntrinsicFunctionIdentifier _ o => IntrinsicFunctionIdentifier (some tp) o
  | LiteralOperatorIdentifier _ n => LiteralOperatorIdentifier (some tp) n
  | LocalStaticGuardIdentifier _ t i => LocalStaticGuardIdentifier (some tp) t i
  | ConversionOperatorIdentifier _ t => ConversionOperatorIdentifier (some tp) t
  | StructorIdentifier _ c d => StructorIdentifier (some tp) c d
  | RttiBaseClassDescriptor _ a b c d => RttiBaseClassDescriptor (some tp) a b c d
  | n => n

/-- `SymbolNodeConst::get_name`, src/nodes/intermediate.rs:756-772. -/
def get_name : Node → Option Handle
  | Md5Symbol name => some name
  | SpecialTableSymbol name _ _ => some name
  | LocalStaticGuardVariable name _ => some name
  | EncodedStringLiteral name _ _ _ => name
  | VariableSymbol (some (.Qualified name)) _ _ => some name
  | VariableSymbol _ _ _ => none
  | FunctionSymbol name _ => name
  | _ => none

/-- `SymbolNodeMut::set_name`, src/nodes/intermediate.rs:811-820. -/
def set_name (q : Handle) : Node → Node
  | Md5Symbol _ => Md5Symbol q
  | SpecialTableSymbol _ t qs => SpecialTableSymbol q t qs
  | LocalStaticGuardVariable _ v => LocalStaticGuardVariable q v
  | EncodedStringLiteral _ d t c => EncodedStringLiteral (some q) d t c
  | VariableSymbol _ sc t => VariableSymbol (some (.Qualified q)) sc t
  | FunctionSymbol _ s => FunctionSymbol (some q) s
  | n => n

end Node

/-! ## The cache (src/cache.rs) -/

/-- `struct NodeCache`, src/cache.rs:302-304. -/
abbrev Cache := List Node

/-- `NodeHandle::resolve`, src/cache.rs:351-360: panics if the index is out of bounds or the node
does not have the interface. -/
def resolve (k : Kind) (c : Cache) (h : Handle) : Except Fail Node :=
  match c[h]? with
  | some n => if n.is k then .ok n else .error (.crash .panic)
  | none => .error (.crash .panic)

/-- `NodeHandle::downcast`, src/cache.rs:375-383 and 475-575: resolves at the source interface `src`
and tests for `dst`. -/
def downcast (src dst : Kind) (c : Cache) (h : Handle) : Except Fail (Option Handle) :=
  match resolve src c h with
  | .ok n => .ok (if n.is dst then some h else none)
  | .error e => .error e

/-- `QualifiedNameNode::get_unqualified_identifier`, src/nodes/derived.rs:979-990, on the handle of a
qualified name. -/
def get_unqualified_identifier (c : Cache) (qn : Handle) : Except Fail (Option Handle) :=
  match resolve .QualifiedName c qn with
  | .error e => .error e
  | .ok (.QualifiedName comps) =>
    match resolve .NodeArray c comps with
    | .error e => .error e
    | .ok (.NodeArray nodes) =>
      match nodes.getLast? with
      | some node => downcast .INode .IIdentifierNode c node
      | none => .ok none
    | .ok _ => .error (.crash .panic)
  | .ok _ => .error (.crash .panic)

end Undname.Raw
