import sys; sys.path.insert(0,'/verif/tools')
from seed import *
M=[]
def m(d,f,o,n,e,c): M.append(dict(definition=d,file=f,old=o,new=n,edit=e,claim=c))
m('demangle_number',P,"if isDigit c then pure (c.toNat - '0'.toNat + 1, is_negative)","if isDigit c then pure (c.toNat - '0'.toNat, is_negative)","a digit d stands for d instead of d+1","C13/C38/C42: integers have their encoded value")
m('demangle_signed',P,"if number < 2 ^ 63 then pure (if is_negative","if number ≤ 2 ^ 63 then pure (if is_negative","boundary: 2^63 accepted","C15: signed numbers accepted iff magnitude below 2^63")
m('memorize_string',P,"if s.names.length < 10 && !known then do","if s.names.length < 9 && !known then do","room for nine names only","C19: the i-th distinct name, ten are kept")
m('memorize_string (dedup)',P,"if s.names.length < 10 && !known then do","if s.names.length < 10 then do","names are memorized again when known","C19: repeated names take one place")
m('paramListBody.push_param',P,"whenB (old_len - new_len != 1) (push_param tn)","whenB (old_len - new_len != 0) (push_param tn)","one-letter types are memorized as parameters","C20: only longer types are numbered")
m('demangle_template_instantiation_name',P,"  SM.modify fun s => { s with names := outer.names, function_params := outer.function_params }\n","","back-references of the enclosing name are not restored","C21: references after an instantiation are those of the enclosing scope")
m('demangle_typeinfo_name',P,"  if e then intern (.VariableSymbol (some .TypeDescriptor) none (some type))\n  else SM.err .InvalidTypeinfoName","  intern (.VariableSymbol (some .TypeDescriptor) none (some type))","text after a typeinfo name ignored","C22")
m('demangle_array_type',P,"if is_negative || rank == 0 then SM.err .InvalidArrayType","if is_negative then SM.err .InvalidArrayType","rank 0 accepted","C42: rank zero rejected")
m('intern',P,"if s.cache.length + 1 > NODE_LIMIT then","if s.cache.length > NODE_LIMIT then","off by one in the node limit","C05: at most 2048 nodes")
m('demangle_qualifiers',P,"  | 'B' => pure (Qualifiers.Q_Const, false)\n  | 'C' => pure (Qualifiers.Q_Volatile, false)","  | 'B' => pure (Qualifiers.Q_Volatile, false)\n  | 'C' => pure (Qualifiers.Q_Const, false)","const and volatile swapped","C17: qualifiers of variables")
m('scopeChainBody',P,"let components ← intern (.NodeArray nodes.reverse)","let components ← intern (.NodeArray nodes)","scopes not reversed","C16: qualified names outermost first")
m('demangle_fully_qualified_symbol_name',P,"    modifyNode .StructorIdentifier sin (set_class class_node)\n","","class of a constructor not stored","C24 / C02: constructors print the class name")
m('demangle_encoded_symbol',P,"    modifyNode .IIdentifierNode uqn (set_target_type target_type)\n","","target type of a conversion operator not stored","C25")
m('thunk_adjust',P,"pure (some { vtor_disp_offset := asI32 vtor, static_offset := asU32 so })\n  else","pure (some { vtor_disp_offset := asI32 so, static_offset := asU32 vtor })\n  else","the two numbers of a vtordisp thunk swapped","C38")
m('funcPost',O,'whenB f.is_noexcept (write c!" noexcept")','whenB (f.is_noexcept && !E.flags.no_this_type) (write c!" noexcept")',"noexcept printed only without NO_THISTYPE","C33 (NAME_ONLY subsumes NO_THISTYPE)")
m('funcParams',O,"whenB (match w.getLast? with | some x => x != '(' | none => false) (write c!\", \")","write c!\", \"","comma before ... also in an empty list","C18: variadic functions")
m('demangle_into',A,"parse_into E mangled_name (clear result)","parse_into E mangled_name result","buffer not cleared first","C07/C08")
m('parse_into (error)',A,"| .error (.err e) => .ok (.error e, clear result)","| .error (.err e) => .ok (.error e, result)","buffer not cleared on a render error (harmless: it was cleared before)","none: equivalent mutant, since demangle_into clears first")
m('do_parse',P,"    let md5 ← query fun m => m.starts_with c!\"??@\"\n    if md5 then demangle_md5_name\n    else do\n      expectChar '?' (.Io .UnexpectedEof)","    let md5 ← query fun m => m.starts_with c!\"??@\"\n    if md5 then demangle_md5_name\n    else do\n      let _ ← tryChar '?'","names without ? are accepted","C10")
m('demangle_md5_name',P,"let stop := if r4 then stop + 6 else stop","let stop := if r4 then stop + 5 else stop","one character of ??_R4@ lost","C11: MD5 names are echoed")
m('wideBody',P,"let t ← if x.1 != 2 || is_truncated then runW","let t ← if x.1 != 2 then runW","last character of a truncated wide string dropped","C26")
m('guess_char_byte_size',P,"else if trailing_nulls ≥ 2 then some 2\n    else some 1\n  else\n    let","else if trailing_nulls ≥ 1 then some 2\n    else some 1\n  else\n    let","one trailing null is taken for a two-byte character","C27/C26: width of characters")
m('narrowBody',P,"if bytes.length < 128 then pure (.inl (bytes ++ [b]))","if bytes.length ≤ 128 then pure (.inl (bytes ++ [b]))","129 bytes accepted","C28: at most 128 bytes")
m('escapedChar',P,"else if 0x20 ≤ c && c ≤ 0x7E then\n    if Nat","else if 0x20 ≤ c && c ≤ 0x7F then\n    if Nat","DEL printed raw","C26/C29: printable characters")
m('demangle_locally_scoped_name_piece',P,"write (c!\"'::`\" ++ decNat number ++ c!\"'\")","write (c!\"'::`\" ++ decNat (number + 1) ++ c!\"'\")","wrong number of a local scope","C43")
m('basicTable',P,"some .LessThan, some .LessThanEqual,\n   some .GreaterThan","some .LessThanEqual, some .LessThan,\n   some .GreaterThan","two operators swapped","C36")
m('basicTable (length)',P,"some .TimesEqual,\n   some .PlusEqual, some .MinusEqual]","some .TimesEqual,\n   some .PlusEqual]","table one entry too short: get_unchecked out of range","C02/C36")
m('underTable',P,"some .LocalVftableCtorClosure, some .ArrayNew, some .ArrayDelete, none,","some .LocalVftableCtorClosure, some .ArrayDelete, some .ArrayNew, none,","new[] and delete[] swapped","C36")
m('specialTableName',P,"| .Vftable => some c!\"`vftable'\"\n  | .Vbtable => some c!\"`vbtable'\"","| .Vftable => some c!\"`vbtable'\"\n  | .Vbtable => some c!\"`vftable'\"","names of tables swapped","C23")
m('pointerPost',O,"  whenB pn.isArrayOrSig (write c!\")\")\n","","closing parenthesis dropped","C30: balanced parentheses; C17")
m('variable_quals',P,"      whenB class_parent.isSome (do let _ ← demangle_fully_qualified_type_name rend r)\n","","class name after a member pointer variable not consumed","C46 (grammar), C39")
m('template_data_member_pointer',P,"    | 'G' => offsets 3\n    | 'F' => offsets 2","    | 'G' => offsets 2\n    | 'F' => offsets 3","number of offsets of $F and $G swapped","C15: $F takes a pair")
m('paramListBody (index)',P,"s.function_params[n.toNat - '0'.toNat]?","s.function_params[n.toNat - '0'.toNat - 1]?","off by one in parameter references","C20")
m('demangle_anonymous_namespace_name',P,"  memorize_string key\n","","key of an anonymous namespace not memorized","C19/C46: names of the table")
m('synthesize_from_name',P,"let id ← intern (.NamedIdentifier none name)\n  synthesize_from_id id","synthesize_from_id 0","name of a synthesized symbol is node 0","C04/C11/C01")
if __name__=='__main__':
    run(M,'/verif/seeded/LOG.jsonl')
