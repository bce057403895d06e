import sys; sys.path.insert(0,'/verif/tools')
from seed import *
import mutants1
M=[x for x in mutants1.M if x['definition'] in ('template_data_member_pointer','paramListBody (index)','demangle_anonymous_namespace_name','synthesize_from_name')]
def m(d,f,o,n,e,c): M.append(dict(definition=d,file=f,old=o,new=n,edit=e,claim=c))
m('variable_quals',P,"whenB class_parent.isSome (do let","whenB (class_parent.isSome && false) (do let","class name after a member pointer variable not consumed","C46 (grammar), C39")
m('output_space_if_necessary',O,"isAlphanumeric E.uni c || c == '>'","isAlphanumeric E.uni c","no space after >","C17/C18/C46: texts of declarations")
m('Qualifiers.output',O,"whenB (space_after && utf8Len before < utf8Len after) (write c!\" \")","whenB space_after (write c!\" \")","space after the qualifiers of a table also when nothing was printed","C41/C23/C44")
m('Qualifiers.output_if_present',O,"    whenB needs_space (write c!\" \")\n    output_single_qualifier E m\n    pure true","    whenB needs_space (write c!\" \")\n    output_single_qualifier E m\n    pure needs_space","no space between const and volatile","C17")
m('output_single_qualifier',O,"else if E.flags.no_leading_underscores then write c!\"restrict\"\n    else write c!\"__restrict\"","else write c!\"__restrict\"","NO_LEADING_UNDERSCORES ignored for __restrict","C32/C31")
m('CallingConv.text',O,"    | .Vectorcall => c!\"__vectorcall\"","    | .Vectorcall => c!\"vectorcall\"","vectorcall without underscores","C18/C32")
m('funcPre (access)',O,"whenB f.function_class.is_protected (write c!\"protected: \")","whenB f.function_class.is_protected (write c!\"private: \")","protected printed as private","C18")
m('funcPre (static)',O,"whenB (!f.function_class.is_global && f.function_class.is_static) (write c!\"static \")","whenB f.function_class.is_virtual (write c!\"static \")","virtual functions printed static","C18")
m('funcPre (return)',O,"whenB (!E.flags.no_return_type && (is_function_ptr || !E.flags.name_only)) do","whenB (!E.flags.no_return_type) do","NAME_ONLY prints return types","C35/C33")
m('funcPre (convention)',O,"whenB (!is_function_ptr && !E.flags.no_calling_convention","whenB (!E.flags.no_calling_convention","convention of pointees printed twice","C17/C18")
m('funcPost',O,"whenB (!E.flags.no_return_type && !E.flags.name_only) do\n    whenSome f.return_type fun rt => r.post","whenB (!E.flags.name_only) do\n    whenSome f.return_type fun rt => r.post","NO_RETURN_TYPE keeps the closing part of the return type","C30/C44: balanced parentheses with flags")
m('thunkPre',O,"whenB (!E.flags.name_only) (write c!\"[thunk]: \")","write c!\"[thunk]: \"","[thunk] printed with NAME_ONLY","C35")
m('thunkText',O,"decInt a.vbptr_offset ++ c!\", \" ++ decInt a.vboffset_offset","decInt a.vboffset_offset ++ c!\", \" ++ decInt a.vbptr_offset","two vtordispex offsets swapped","C38")
m('pointerPre (paren)',O,"  | .ArrayType .. => write c!\"(\"\n","  | .ArrayType .. => pure ()\n","no parenthesis before pointers to arrays","C30/C17")
m('preNode (tag)',O,"whenB (!E.flags.no_tag_specifier && !E.flags.name_only) (write (tag.text","whenB (!E.flags.no_tag_specifier) (write (tag.text","tags printed with NAME_ONLY","C35/C33")
m('TagKind.text',O,"  | .Union => c!\"union\"","  | .Union => c!\"struct\"","unions printed struct","C17")
m('output_one_dimension',O,"whenB (value != 0) (write (integerText","whenB (value != 1) (write (integerText","dimension 0 printed, 1 not","C42")
m('offsetsText',O,"c!\", \" ++ decInt o).flatten ++ c!\"}\"","c!\",\" ++ decInt o).flatten ++ c!\"}\"","no space between offsets","C15/C46")
m('outNode (vcall)',O,"else write (c!\"`vcall'{\" ++ decNat off ++ c!\", {flat}}\")","else write (c!\"`vcall'{\" ++ decNat off ++ c!\", {flat}\")","missing brace of a vcall thunk","C38/C46")
m('outNode (guard)',O,"whenB (0 < idx) (write (c!\"{\"","whenB (1 < idx) (write (c!\"{\"","guard index 1 not printed","C46/C23")
m('outNode (structor)',O,"whenB is_destructor (write c!\"~\")","whenB (!is_destructor) (write c!\"~\")","~ on constructors","C24")
m('outNode (reference)',O,"else whenB (affinity == some .Pointer) (write c!\"&\")","else whenB (affinity == some .Reference) (write c!\"&\")","& on references instead of pointers","C46")
m('outNode (string)',O,"(if trunc then c!\"...\" else [])","(if trunc then [] else c!\"...\")","... on complete strings","C26")
m('outNode (table)',O,"whenB (!E.flags.name_only) (Qualifiers.output E quals false true)","Qualifiers.output E quals false true","qualifiers of a table with NAME_ONLY","C35")
m('variableOut',O,"whenB (!E.flags.no_member_type && !E.flags.name_only && StorageClass.isStatic sc)","whenB (!E.flags.no_access_specifier && !E.flags.name_only && StorageClass.isStatic sc)","static depends on NO_ACCESS_SPECIFIER","C44/C31")
m('write',O,"if utf8Len t + utf8Len w < OUTPUT_LIMIT then","if utf8Len t + utf8Len w ≤ OUTPUT_LIMIT then","one byte more than allowed","C06")
m('callingConvOf',P,"| 'G' | 'H' => some .Stdcall\n  | 'I' | 'J' => some .Fastcall","| 'G' | 'H' => some .Fastcall\n  | 'I' | 'J' => some .Stdcall","stdcall and fastcall swapped","C18")
m('functionClassOf',P,"| 'S' => some (FC_Public ||| FC_Static)","| 'S' => some FC_Public","S is a non-static member","C18")
m('demangle_function_class',P,"let ex ← tryChar 'R'\n    let f ← expectAny","let ex ← tryChar 'S'\n    let f ← expectAny","$R not recognized","C38")
m('demangle_throw_specification',P,"if e then pure true\n  else do\n    let z ← tryChar 'Z'","if e then pure false\n  else do\n    let z ← tryChar 'Z'","noexcept lost","C18")
m('demangle_pointer_ext_qualifiers',P,"let i ← tryChar 'I'\n  let f ← tryChar 'F'","let f ← tryChar 'F'\n  let i ← tryChar 'I'","order of I and F swapped","C46/C17")
m('class_of_structor',P,"match nodes[nodes.length - 2]? with","match nodes[0]? with","constructor named after the outermost scope","C24")
m('template_argument',P,"let b ← tryStr c!\"$$B\"\n    if b then r.type .Drop","let b ← tryStr c!\"$$B\"\n    if b then r.type .Mangle","$$B reads qualifiers","C46")
m('templateListBody',P,"let pack ← tryTable [(c!\"$S\", ()), (c!\"$$V\", ()), (c!\"$$$V\", ()), (c!\"$$Z\", ())]","let pack ← tryTable [(c!\"$S\", ()), (c!\"$$V\", ()), (c!\"$$Z\", ())]","$$$V not a pack","C46")
m('demangle_template_instantiation_name (reject)',P,"if n.isConversionOrStructor then SM.err .InvalidTemplateInstantiationName\n    else do\n      memorize_identifier rend identifier\n      pure identifier","if n.isConversionOrStructor then pure identifier\n    else do\n      memorize_identifier rend identifier\n      pure identifier","templates of constructors accepted as scopes","C01/C36/C48")
m('demangle_template_instantiation_name (memo)',P,"if nbb.is_template then do","if nbb.is_simple then do","template names memorized in the wrong place","C21/C19")
m('demangle_declarator',P,"if n.isUntypedConversion then SM.err .InvalidDeclarator else pure symbol","pure symbol","conversion operators without type accepted","C25")
m('demangle_local_static_guard',P,"if i < 2 ^ 32 then modifyNode .LocalStaticGuardIdentifier lsgi","if i < 2 ^ 64 then modifyNode .LocalStaticGuardIdentifier lsgi","guard index not limited to 32 bits","C48 / C46")
m('demangle_rtti_base_class_descriptor_node',P,"if vbptr < -(2 ^ 31) || 2 ^ 31 ≤ vbptr then","if vbptr < -(2 ^ 31) || 2 ^ 31 < vbptr then","vbptr offset 2^31 accepted","C48")
m('demangle_init_fini_stub',P,"if is_known_static_data_member then expectStr c!\"@@\" .InvalidInitFiniStub\n    else expectChar '@'","if is_known_static_data_member then expectStr c!\"@\" .InvalidInitFiniStub\n    else expectChar '@'","one @ suffices after a known member","C48/C46")
m('demangle_encoded_symbol',P,"c == '3' || c == '4' then do\n    let sc","c == '3' then do\n    let sc","storage class 4 taken for a function","C16/C46")
m('charDigitTable',P,"0x20, 0x0A, 0x09","0x20, 0x09, 0x0A","newline and tab swapped","C26")
m('demangle_string_literal',P,"decide (string_byte_len > 64)","decide (string_byte_len ≥ 64)","wide strings of exactly 64 bytes called truncated","C26")
m('decode_multi_byte_char',P,"| i, b :: bs => (b <<< (8 * i)) ||| combineBytes (i + 1) bs","| i, b :: bs => combineBytes (i + 1) bs ||| (b <<< (8 * (3 - i)))","wrong byte order","C26/C27")
m('demangle_qualifiers (member)',P,"| 'R' => pure (Qualifiers.Q_Const, true)","| 'R' => pure (Qualifiers.Q_Const, false)","R not a member qualifier","C17/C46")
if __name__=='__main__':
    run(M,'/verif/seeded/LOG.jsonl')
