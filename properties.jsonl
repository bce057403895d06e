{"id": "C01", "title": "demangle never panics", "statement": "For every input string and every flag set, demangle and demangle_into return Ok or Err: no array index is out of bounds, no expect/unwrap fires, no string is sliced off a char boundary, no unsigned counter underflows and no integer addition overflows.", "quantifier": "every &str (any Unicode), every u16 flag value, every prior buffer content", "why_tests_cant": "the input space is infinite and the panics sit on rare combinations (mutated nodes, back-references, multi-byte characters)", "anchors": ["src/cache.rs: NodeHandle::resolve, resolve_mut", "src/nodes/derived.rs: PointerTypeNode::output_pre, ArrayTypeNode::output_one_dimension, VariableSymbolNode::output", "src/mangled_string.rs: try_consume, slice", "src/demangler.rs: demangle_md5_name, demangle_number"]}
{"id": "C02", "title": "unsafe blocks are never misused", "statement": "The safety preconditions of the unsafe blocks hold on every call: push_unchecked only into a non-full back-reference array, get_unchecked only with an index inside the table, unwrap_unchecked only on Some, from_u32_unchecked only on a scalar value, new_unchecked only on a value below usize::MAX.", "quantifier": "every input string and flag set", "why_tests_cant": "undefined behaviour need not show up in a test that triggers it, and the triggering inputs are unbounded", "anchors": ["src/demangler.rs: memorize_string, translate_intrinsic_function_code, demangle_char_literal, output_escaped_char, demangle_template_parameter_list", "src/mangled_string.rs: starts_with_local_scope_pattern", "src/cache.rs: NodeCache::intern"]}
{"id": "C03", "title": "demangling terminates with recursion depth bounded by the input length", "statement": "For every input, parsing terminates, and its mutual recursion is never nested deeper than the number of characters of the input plus one; every loop runs at most as many iterations as there are characters left, plus one.", "quantifier": "every input string and flag set", "why_tests_cant": "termination is a statement about all inputs", "anchors": ["src/demangler.rs: do_parse, demangle_type, demangle_template_instantiation_name, demangle_name_scope_chain, demangle_number"]}
{"id": "C04", "title": "rendering terminates: the syntax tree is acyclic", "statement": "Whenever a symbol or identifier is rendered, the graph of nodes reachable from it is finite and acyclic (although nodes are mutated after creation), so rendering terminates with nesting depth at most the number of nodes.", "quantifier": "every input string and flag set, every intermediate rendering", "why_tests_cant": "a cycle would need a particular interleaving of back-references and late mutation; tests only sample", "anchors": ["src/demangler.rs: demangle_encoded_symbol, demangle_fully_qualified_symbol_name, demangle_template_instantiation_name, demangle_init_fini_stub", "src/nodes/derived.rs"]}
{"id": "C05", "title": "bounded number of nodes", "statement": "No call ever holds more than 2048 syntax nodes; the attempt to create one more makes the call return Err(MaliciousInput). In particular a variable of array type with more than 2048 dimensions is refused as MaliciousInput, whatever the dimensions and the rest of the name are.", "quantifier": "every input string and flag set", "why_tests_cant": "resource bounds quantify over all inputs", "anchors": ["src/cache.rs: NodeCache::intern"]}
{"id": "C06", "title": "bounded output", "statement": "If a call returns Ok, the demangled text is shorter than 2^20 bytes of UTF-8.", "quantifier": "every input string, flag set and prior buffer content", "why_tests_cant": "expansion through back-references is exponential; tests cannot enumerate it", "anchors": ["src/demangler.rs: writing::BufWriter::write, parse_into"]}
{"id": "C07", "title": "demangle_into overwrites the buffer and agrees with demangle", "statement": "demangle_into returns Ok exactly when demangle does, with the same error otherwise, and on Ok the buffer holds exactly the text demangle returns, whatever the buffer held before.", "quantifier": "every input string, flag set and prior buffer content", "why_tests_cant": "relates two API functions for all inputs and all prior buffer states", "anchors": ["src/lib.rs: demangle, demangle_into", "src/demangler.rs: parse_into"]}
{"id": "C08", "title": "buffer is empty after an error", "statement": "If demangle_into returns Err, the buffer is the empty string.", "quantifier": "every input string, flag set and prior buffer content", "why_tests_cant": "must hold at every possible failure point of the parser and of the renderer", "anchors": ["src/lib.rs: demangle_into", "src/demangler.rs: parse_into safe_restore_buffer"]}
{"id": "C09", "title": "calls are history independent", "statement": "When one buffer is reused for any sequence of demangle_into calls, each call gives the same result and leaves the same buffer as the same call on a fresh buffer.", "quantifier": "every finite sequence of calls", "why_tests_cant": "ranges over all histories", "anchors": ["src/lib.rs: demangle_into"]}
{"id": "C10", "title": "only names starting with ? or . are accepted", "statement": "If the input is accepted it starts with '?' or '.'; every other input (including the empty one) is rejected with Io(UnexpectedEof).", "quantifier": "every input string and flag set", "why_tests_cant": "quantifies over all strings", "anchors": ["src/demangler.rs: do_parse"]}
{"id": "C11", "title": "MD5 names are echoed verbatim", "statement": "For every X without '@' and every continuation Y, demangling ??@X@Y gives ??@X@ — with ??_R4@ appended when Y starts with ??_R4@ — whatever the flags (as long as the name fits the output bound).", "quantifier": "every string X without '@' (any Unicode), every continuation, every flag set", "why_tests_cant": "unbounded text, byte-offset arithmetic on multi-byte characters", "anchors": ["src/demangler.rs: demangle_md5_name"]}
{"id": "C12", "title": "unterminated MD5 names are rejected", "statement": "??@X where X has no '@' is rejected with InvalidMd5Name for every flag set.", "quantifier": "every string X without '@', every flag set", "why_tests_cant": "unbounded text", "anchors": ["src/demangler.rs: demangle_md5_name"]}
{"id": "C13", "title": "integer template arguments round-trip", "statement": "For every u64 value n and sign, a function template instantiated with the encoding of n demangles to that value in decimal; both encodings (digit for 1..10, hex with terminator) denote the right number.", "quantifier": "every n < 2^64, both signs, both encodings", "why_tests_cant": "2^64 values", "anchors": ["src/demangler.rs: demangle_number, demangle_template_parameter_list", "src/nodes/derived.rs: IntegerLiteralNode"]}
{"id": "C14", "title": "over-long numbers wrap modulo 2^64", "statement": "A hexadecimal number of any length is accepted and denotes its value modulo 2^64 (in particular its value if below 2^64); decoding never overflows.", "quantifier": "every string of digits A-P", "why_tests_cant": "unbounded digit strings", "anchors": ["src/demangler.rs: demangle_number"]}
{"id": "C15", "title": "signed numbers outside i64 are rejected, others keep their value", "statement": "A signed field (e.g. member-pointer offset) is accepted iff the magnitude is below 2^63 and then denotes the signed value; a leading ? negates.", "quantifier": "every encoded number", "why_tests_cant": "2^64 values", "anchors": ["src/demangler.rs: demangle_signed"]}
{"id": "C16", "title": "qualified variable names are printed verbatim and outermost-first", "statement": "?x@A1@..@An@@3HA demangles to int An::..::A1::x for all identifiers, with each name reproduced character for character.", "quantifier": "every non-empty list of names (any Unicode, no '@', not starting with a digit or '?')", "why_tests_cant": "unbounded lists of unbounded names", "anchors": ["src/demangler.rs: demangle_simple_string, demangle_name_scope_chain", "src/nodes/derived.rs: QualifiedNameNode"]}
{"id": "C17", "title": "variable types round-trip", "statement": "For every type built from primitives, class/struct/union/enum names, pointers, references and const/volatile, the mangled global variable demangles to the C++ declaration of that type.", "quantifier": "every type of the fragment, any nesting depth", "why_tests_cant": "infinitely many types", "anchors": ["src/demangler.rs: demangle_type, demangle_pointer_type, demangle_variable_encoding", "src/nodes/derived.rs: PointerTypeNode, PrimitiveTypeNode, TagTypeNode"]}
{"id": "C18", "title": "function signatures round-trip", "statement": "For every calling convention, return type and parameter list of the fragment, the mangled global function demangles to its C++ declaration, parameters in order.", "quantifier": "every signature of the fragment", "why_tests_cant": "infinitely many signatures", "anchors": ["src/demangler.rs: demangle_function_encoding, demangle_function_type, demangle_function_parameter_list", "src/nodes/derived.rs: FunctionSignatureNode"]}
{"id": "C19", "title": "name back-references denote the n-th distinct name", "statement": "A digit d in name position denotes the d-th (0-based) distinct name memorised so far in the current context; at most ten are kept and a digit that has no entry is rejected with InvalidBackRef.", "quantifier": "every sequence of names and every digit", "why_tests_cant": "all histories of memorised names", "anchors": ["src/demangler.rs: memorize_string, demangle_back_ref_name"]}
{"id": "C20", "title": "parameter back-references denote the n-th memorised parameter", "statement": "A digit d in a parameter list denotes the d-th earlier parameter whose encoding was longer than one character (at most ten kept); a digit without entry is rejected.", "quantifier": "every parameter list and digit", "why_tests_cant": "all histories of parameters", "anchors": ["src/demangler.rs: demangle_function_parameter_list"]}
{"id": "C21", "title": "template arguments have their own back-reference scope", "statement": "Demangling a template instantiation leaves the enclosing name and parameter back-references unchanged except for memorising the instantiation itself, and inside it the outer ones are not visible.", "quantifier": "every template instantiation in every context", "why_tests_cant": "all nestings and contexts", "anchors": ["src/demangler.rs: demangle_template_instantiation_name"]}
{"id": "C22", "title": "typeinfo names must be consumed completely", "statement": "If a name starting with '.' is accepted then appending any non-empty text that the type parser does not consume makes it rejected; an accepted typeinfo name is consumed to its last character.", "quantifier": "every input starting with '.'", "why_tests_cant": "all inputs", "anchors": ["src/demangler.rs: demangle_typeinfo_name"]}
{"id": "C23", "title": "special tables are labelled and qualified", "statement": "??_7 / ??_8 / ??_S / ??_R4 followed by a class path demangle to [const] path::`vftable' (resp. vbtable, local vftable, RTTI Complete Object Locator), with {for `T'} when a target is given.", "quantifier": "every class path and target", "why_tests_cant": "unbounded names", "anchors": ["src/demangler.rs: demangle_special_table_symbol_node", "src/nodes/derived.rs: SpecialTableSymbolNode"]}
{"id": "C24", "title": "constructors and destructors repeat the class name", "statement": "??0C@..@@ / ??1C@..@@ demangle to ..::C::C / ..::C::~C for every class path.", "quantifier": "every class path", "why_tests_cant": "unbounded names", "anchors": ["src/demangler.rs: demangle_fully_qualified_symbol_name", "src/nodes/derived.rs: StructorIdentifierNode"]}
{"id": "C25", "title": "conversion operators name their return type", "statement": "??BC@@..: the demangled operator is followed by exactly the rendering of the function's return type.", "quantifier": "every return type of the fragment", "why_tests_cant": "infinitely many types", "anchors": ["src/demangler.rs: demangle_encoded_symbol, demangle_declarator", "src/nodes/derived.rs: ConversionOperatorIdentifierNode"]}
{"id": "C26", "title": "string literals decode to the encoded bytes", "statement": "A narrow string literal symbol demangles to the quoted, escaped text of its bytes without the terminator.", "quantifier": "every byte string of printable text up to the encodable length", "why_tests_cant": "2^(8n) strings", "anchors": ["src/demangler.rs: demangle_string_literal, demangle_char_literal, output_escaped_char"]}
{"id": "C27", "title": "decoded string literals are printable ASCII", "statement": "The text of a demangled string literal consists of printable ASCII only (escapes for everything else), whatever bytes it encodes.", "quantifier": "every string literal symbol", "why_tests_cant": "all byte strings", "anchors": ["src/demangler.rs: output_escaped_char"]}
{"id": "C28", "title": "character width guess is 1, 2 or 4 and decoding stays in bounds", "statement": "For every byte sequence and declared non-zero length, the guessed character width is 1, 2 or 4, and every character index below len/width decodes (never out of bounds) to the little-endian value of its bytes.", "quantifier": "every byte sequence and declared length", "why_tests_cant": "all byte strings and lengths", "anchors": ["src/demangler.rs: guess_char_byte_size, decode_multi_byte_char"]}
{"id": "C29", "title": "output characters come from the input or are printable ASCII", "statement": "Every character of the demangled text either occurs in the input or is a printable ASCII character; so ASCII input gives ASCII output and no control character is ever introduced.", "quantifier": "every input string and flag set", "why_tests_cant": "all inputs", "anchors": ["src/nodes/derived.rs", "src/demangler.rs: demangle_locally_scoped_name_piece"]}
{"id": "C30", "title": "brackets are properly nested", "statement": "Unless NAME_ONLY is set, if the input contains no parenthesis and no string literal, the demangled text has balanced parentheses, whatever the other flags. If it contains no square bracket or brace either, then parentheses, square brackets and braces are properly nested among each other: what stands between an opening bracket and the closing one of its kind is properly nested. If the input also has no angle bracket and names no operator whose text has one, the angle brackets of template arguments nest properly with the others. (With NAME_ONLY they need not: a function pointer that returns a function pointer, as a template argument, is opened and not closed.)", "quantifier": "every input without brackets of the kinds in question, every flag set without NAME_ONLY", "why_tests_cant": "all inputs", "anchors": ["src/nodes/derived.rs: PointerTypeNode, FunctionSignatureNode, ThunkSignatureNode, ArrayTypeNode, TemplateParameterReferenceNode, SpecialTableSymbolNode, TemplateParameters::output"]}
{"id": "C31", "title": "unknown flag bits are ignored; aliases coincide", "statement": "Only the ten documented bits influence the result: flag values that agree on bits 0..9 give identical results; the documented aliases are the same bits and the ten flags are pairwise disjoint.", "quantifier": "all pairs of u16 flag values, every input", "why_tests_cant": "2^32 pairs times all inputs", "anchors": ["src/lib.rs: Flags"]}
{"id": "C32", "title": "NO_MS_KEYWORDS subsumes NO_CALLING_CONVENTION and NO_LEADING_UNDERSCORES", "statement": "When NO_MS_KEYWORDS is set, additionally setting NO_CALLING_CONVENTION or NO_LEADING_UNDERSCORES changes nothing.", "quantifier": "every input and flag set", "why_tests_cant": "all inputs", "anchors": ["src/nodes/derived.rs", "src/nodes/enums.rs: CallingConv::output, SingleQualifier"]}
{"id": "C33", "title": "NAME_ONLY subsumes the declaration-level flags", "statement": "When NAME_ONLY is set, additionally setting NO_ACCESS_SPECIFIER, NO_MEMBER_TYPE, NO_VARIABLE_TYPE, NO_THISTYPE or NO_TAG_SPECIFIER changes nothing.", "quantifier": "every input and flag set", "why_tests_cant": "all inputs", "anchors": ["src/nodes/derived.rs"]}
{"id": "C34", "title": "the verdict on a name without templates does not depend on the flags", "statement": "For a name that contains no template instantiation (no `?$`), the flags decide neither whether it is accepted nor with which error it is rejected; only the limit of 2^20 bytes on the text can make the results differ. Names with template instantiations are a genuine exception: the table of back-references compares instantiations by their text under the call's flags, so suppression flags can make a valid name fail with InvalidBackRef or silently rebind a back-reference.", "quantifier": "every input without `?$`, every pair of flag sets (and of Unicode tables); concrete counterexamples with templates", "why_tests_cant": "relates two runs on every input", "anchors": ["src/demangler.rs: memorize_identifier"]}
{"id": "C35", "title": "NAME_ONLY leaves the name, the thunk adjustment and noexcept", "statement": "With NAME_ONLY, whatever the other flags, a variable demangles to exactly its qualified name; a function demangles to its qualified name followed by ' noexcept' if it is noexcept, and a thunk in addition keeps its adjustment between the two. (That noexcept and the adjustment stay is a deviation from 'name only' that callers have to know.)", "quantifier": "every variable and function name of the grammar, every type and signature, every flag set containing NAME_ONLY", "why_tests_cant": "all inputs", "anchors": ["src/nodes/derived.rs: FunctionSignatureNode::do_output_post, VariableSymbolNode"]}
{"id": "C36", "title": "operator codes", "statement": "Each of the operator codes ?2..?Z, ?_0..?_V, ?__A..?__M demangles to the documented operator name; every other digit/upper-case code is accepted with an empty name and any other character is rejected with InvalidIntrinsicFunctionCode.", "quantifier": "every character in each of the three code groups", "why_tests_cant": "table correctness over the whole table combined with all contexts", "anchors": ["src/demangler.rs: translate_intrinsic_function_code", "src/nodes/derived.rs: IntrinsicFunctionIdentifierNode"]}
{"id": "C37", "title": "accepted names give non-empty text", "statement": "With default flags (and with any flags that keep variable types, member kinds and declarations), an accepted name demangles to a non-empty string. With any flags this holds for every accepted name that is neither a type descriptor nor the declaration, outside all scopes, of an operator code without a name; those can give the empty string.", "quantifier": "every accepted input, every flag set", "why_tests_cant": "all inputs", "anchors": ["src/nodes/derived.rs", "src/demangler.rs: demangle_function_identifier_code_group"]}
{"id": "C38", "title": "thunk offsets are printed truncated to 32 bits", "statement": "adjustor / vtordisp / vtordispex thunks print their offsets as the encoded numbers truncated to u32 / i32.", "quantifier": "every i64 offset", "why_tests_cant": "2^64 values", "anchors": ["src/demangler.rs: demangle_function_encoding", "src/nodes/derived.rs: ThunkSignatureNode"]}
{"id": "C39", "title": "text after a complete symbol is ignored", "statement": "Appending any text to a name that demangle accepts does not change the result, whatever the length of the name and of the continuation, except for the symbols whose reading depends on where the input ends: type descriptors (\".\", \"??_R0\"), guards of local statics (\"??_B\", \"??__J\") and hashed names (\"??@\"). In particular it holds for all variables and functions.", "quantifier": "every accepted name, every continuation, every flag set", "why_tests_cant": "all continuations", "anchors": ["src/demangler.rs: do_parse"]}
{"id": "C40", "title": "recursion depth grows with the name: no constant bounds it", "statement": "For every N there is a valid name of 2N+2 characters on which the parser's recursion does not end within N+1 levels (so callers that pass untrusted names must bound their length or provide stack); C03 gives the matching upper bound, linear in the length.", "quantifier": "every number of levels", "why_tests_cant": "needs arbitrarily deep inputs", "anchors": ["src/demangler.rs: demangle_type, demangle_pointer_type"]}
{"id": "C41", "title": "NO_MS_KEYWORDS: suppressed keywords and the blank that stays", "statement": "With NO_MS_KEYWORDS neither __restrict nor __unaligned is printed for a pointer; in a parameter list a suppressed __restrict that follows const or volatile leaves exactly one blank before the closing parenthesis, otherwise none; before a variable's name the blank is never doubled.", "quantifier": "every pointer code, extension, qualifier letter, fundamental type and qualified name", "why_tests_cant": "all inputs", "anchors": ["src/nodes/enums.rs: Qualifiers::output_if_present"]}
{"id": "C42", "title": "array dimensions", "statement": "An array variable prints all its dimensions in order, with [] for a zero dimension; rank zero or negative dimensions are rejected.", "quantifier": "every list of dimensions", "why_tests_cant": "unbounded lists of 2^64 values", "anchors": ["src/demangler.rs: demangle_array_type", "src/nodes/derived.rs: ArrayTypeNode"]}
{"id": "C43", "title": "anonymous namespaces and local scopes", "statement": "?A<key>@ prints `anonymous namespace' whatever the key; ?<n>??<symbol> prints `symbol'::`n'.", "quantifier": "every key / number / symbol", "why_tests_cant": "unbounded names", "anchors": ["src/demangler.rs: demangle_anonymous_namespace_name, demangle_locally_scoped_name_piece"]}
{"id": "C44", "title": "suppression flags only remove text", "statement": "If a mangled name without template instantiations (no `?$`), and not a `.`-name, is accepted under some flags, then it is also accepted with any further flags set, and the output is then a subsequence of the former output: nothing is added, replaced or moved. For `.`-names this holds up to blanks; with templates it does not hold of arbitrary names, but it does hold of every symbol of a compiler (variables, functions, tables, type information, guards, initializers, with templates of any depth) whose names have different texts under both flag sets.", "quantifier": "every mangled name without `?$` and every symbol of a compiler, every flag set and every set of further flags", "why_tests_cant": "all names of unbounded nesting times all pairs of flag sets", "anchors": ["src/lib.rs: Flags, demangle", "src/nodes/derived.rs", "src/nodes/enums.rs", "src/demangler.rs"]}
{"id": "C45", "title": "exactly which errors are returned", "statement": "Every Err returned is one of the documented Error variants, the io error kinds are only UnexpectedEof and OutOfMemory, and eight variants (Utf8Error, InvalidFunctionType, InvalidPointerType, InvalidTagUniqueName, InvalidPointerCVQualifiers, InvalidMemberPointerType, InvalidVariableStorageClass, InvalidLocallyScopedNamePiece) are never returned; every other variant is returned for some name, already with the default flags.", "quantifier": "every input and flag set", "why_tests_cant": "all inputs", "anchors": ["src/lib.rs: Error", "src/demangler.rs"]}
{"id": "C46", "title": "grammar of mangled names", "statement": "Every text derivable in the published grammar of mangled names (types, templates, member pointers, arrays, back-references, local scopes, operators, thunks, vtables, RTTI, dynamic initialisers) demangles to the C++ text of the declaration the derivation denotes, whatever follows it, under every flag set; the only other outcomes are the two documented resource limits.", "quantifier": "every derivation of the grammar, every flag set, every suffix", "why_tests_cant": "infinitely many nested names; tests sample 1084 of them", "anchors": ["src/demangler.rs", "src/nodes/derived.rs", "src/lib.rs: demangle"]}
{"id": "C47", "title": "ordinary names are never called malicious", "statement": "A mangled name of at most 1024 characters is never rejected with MaliciousInput, by demangle or demangle_into.", "quantifier": "every input of at most 1024 characters, every flag set", "why_tests_cant": "needs an amortised count of nodes over all parses", "anchors": ["src/cache.rs: intern", "src/demangler.rs"]}
{"id": "C48", "title": "the grammar is exactly what is accepted", "statement": "Every name that demangle accepts is derivable in the published grammar of mangled names and the output is the C++ text of the declaration the derivation denotes; conversely every derivable name of at most 1024 characters whose text is below the 1 MiB limit is accepted with that text; every other name is rejected with an error. So the grammar does not assign two different texts to one name.", "quantifier": "every input text, every flag set", "why_tests_cant": "completeness of a grammar is a statement about all inputs, including all malformed ones", "anchors": ["src/demangler.rs", "src/lib.rs: demangle"]}
{"id": "C49", "title": "what a compiler mangles is demangled to the declaration", "statement": "For every well-formed C++ variable, function, member, constructor, destructor, conversion operator, operator or thunk over types of any depth (fundamental and class types, pointers, references, arrays, function pointers, pointers to members, template instantiations; template arguments may be types, integers, empty packs, function types, arrays, templates, addresses of and references to variables and functions, pointers to members; names may lie in namespaces, classes, anonymous namespaces and blocks of functions), the mangled name a compiler produces, including every back-reference to names and to parameter types that its ten-entry memories give rise to, is demangled under every flag set to that declaration in C++ without the parts the flags suppress, provided that different names it remembers have different texts under these flags; the names for 32-bit and 64-bit targets give the same text.", "quantifier": "every well-formed declaration, every target word size, every flag set, every text following the name", "why_tests_cant": "the declarations are an infinite recursive family, and back-references make the mangled name of a part depend on everything before it", "anchors": ["src/lib.rs: demangle", "src/demangler.rs: demangle_declarator, demangle_type, demangle_function_parameter_list, demangle_template_parameter_list, memorize_string, memorize_identifier, demangle_back_ref_name"]}
{"id": "C50", "title": "the command line program prints the name and its demangling", "statement": "For every argument and every choice of its ten switches, the example program undecorate_name ends normally after printing exactly two lines: the argument as given, and either the text demangle returns for it with exactly the selected flags, or 'error: Invalid mangled name' if demangle returns an error. The flag set it uses contains a documented flag exactly if the switch of that name was given, and no other bit.", "quantifier": "every argument string and every combination of switches", "why_tests_cant": "1024 switch combinations times all strings", "anchors": ["examples/undecorate_name.rs: main, Cli"]}
{"id": "C51", "title": "error messages tell the errors apart", "statement": "The Display text of every Error is non-empty, and two errors with the same text are the same error, except that the two limits (too many nodes: MaliciousInput; output too long: Io of kind OutOfMemory) share one text. Every error shows the text documented for its variant.", "quantifier": "every pair of errors", "why_tests_cant": "ranges over all pairs of variants; a copy-pasted message would go unnoticed", "anchors": ["src/lib.rs: Error", "src/demangler.rs: BufWriter::write"]}
{"id": "C52", "title": "the work of a call is at most proportional to the length of the name", "statement": "For every name and every set of flags, demangle takes at most 10011 elementary steps for every character of the name plus a constant, where a step is an operation on the input, on the node cache or on the parser's tables, a sequencing of two operations, or one character looked at, compared, copied or written, including all the intermediate renderings of template names and local scopes, the searches ahead in the input and the validations of the output buffer; apart from renderings, parsing takes at most 10010 steps per character and a constant for every node; rendering the result of a successful parse takes a bounded number of steps however long the name.", "quantifier": "every name and every set of flags", "why_tests_cant": "a super-linear blow-up (nested templates rendered again at every level, back-references that double the text, searches ahead that start over at every scope) shows only on names built to trigger it", "anchors": ["src/lib.rs: demangle", "src/demangler.rs: do_parse, memorize_identifier, demangle_locally_scoped_name_piece, BufWriter", "src/nodes/derived.rs: output_pre, output_post"]}
{"id": "C53", "title": "every symbol kind of a compiler is demangled", "statement": "For every symbol a compiler emits besides variables and functions - vftables, vbtables, local vftables and complete object locators of a class (for an optional base class), base class descriptors, base class arrays, class hierarchy descriptors, virtual call thunks, guards of static variables, dynamic initializers and atexit destructors (given by symbol or by name), type descriptors and their names - over the same names and types as in C49, with all back-references, demangle returns the symbol's text without the parts the flags suppress.", "quantifier": "every such symbol over every well-formed class, scope, type or variable, every target word size, every flag set, every text following the name (nothing may follow type descriptors and unnumbered guards)", "why_tests_cant": "an infinite recursive family of names for every kind of symbol and 1024 flag sets", "anchors": ["src/demangler.rs: demangle_special_intrinsic, demangle_special_table_symbol_node, demangle_local_static_guard, demangle_untyped_variable, demangle_rtti_base_class_descriptor_node, demangle_init_fini_stub, demangle_vcall_thunk_node, demangle_typeinfo_name", "src/nodes/derived.rs: SpecialTableSymbolNode, DynamicStructorIdentifierNode, VcallThunkIdentifierNode"]}
{"id": "C54", "title": "byte-level behaviour equals character-level behaviour", "statement": "On every &str (every well-formed UTF-8 byte sequence) the code, which slices at byte offsets, decodes bytes unchecked and validates what it wrote, returns exactly what the character-level description says, stored as UTF-8: it never slices off a character boundary, never decodes ill-formed bytes, never returns Utf8Error, and the caller's String holds well-formed UTF-8 afterwards.", "quantifier": "every well-formed byte sequence, every previous content of the buffer, every flag set", "why_tests_cant": "slice positions depend on where multi-byte characters fall in arbitrary names, literals and memorised texts", "anchors": ["src/mangled_string.rs: MangledString", "src/demangler.rs: BufWriter, Buffer::last_char, parse_into, memorize_identifier, demangle_md5_name", "src/lib.rs: demangle, demangle_into"]}
{"id": "C55", "title": "different declarations are demangled to different texts", "statement": "Under the default flags, if the mangled names of two declarations are demangled to the same text then they are names of the same declaration: the demangled text determines the kind, access, qualified name (with template arguments and local scopes), calling convention, every type down to the last qualifier, noexcept and thunk offsets. The declarations are those whose C++ text shows everything (identifiers are no keywords and class names do not end in an underscore; exported functions, empty packs, statics of functions and conversions to pointers to functions or arrays are left out); for what is left out as not shown, collisions are exhibited.", "quantifier": "every pair of plain well-formed declarations of any depth, either word size, anything following the names", "why_tests_cant": "injectivity is a statement about all pairs of declarations of unbounded size", "anchors": ["src/nodes/derived.rs: output_pre, output_post of every node", "src/nodes/mod.rs: output_space_if_necessary", "src/demangler.rs: parse, demangle_declarator", "src/lib.rs: demangle"]}
{"id": "C56", "title": "the limit on the number of nodes is exact", "statement": "Every name of the grammar has a number of nodes, computed by the rules of the grammar, which is the number of nodes that parsing it makes, does not depend on the derivation, and is at most two per character. A name of the grammar, of any length, is refused with MaliciousInput if and only if its number exceeds 2048; otherwise the result is the text of the declaration it denotes, or the out-of-memory I/O error if that text has 2^20 bytes or more. So demangle returns a text if and only if the name denotes a declaration with that text within both limits. For a variable the number is, in closed form: the names, plus the first ten different names, plus two per qualified name, plus the layers of its type, plus one; so a variable with 2042 stars is accepted and one with 2043 is refused.", "quantifier": "every name of the grammar, of any length, and every flag set; every variable type and name path; every number of pointers", "why_tests_cant": "an exact limit over unboundedly long names and all grammar rules (each of which contributes its own number of nodes), including memorized names that cost a node only the first time", "anchors": ["src/cache.rs: NodeCache::intern", "src/demangler.rs: memorize_string, memorize_identifier, parse", "src/lib.rs: demangle, demangle_into, Error::MaliciousInput"]}
{"id": "C57", "title": "truncated names are rejected", "statement": "An accepted name has exactly one end: there is a length k such that every shorter prefix of the name is rejected with an error and every prefix of at least that length is accepted, with the same result. In particular no proper prefix of what a compiler emits for a variable or a function is accepted, nor one of an accepted type descriptor ('.', '??_R0'). The only exceptions are guards of local statics and hashed names, where an optional number or marker can be cut off.", "quantifier": "every accepted name and all its prefixes, every declaration of the compiler model, every flag set", "why_tests_cant": "all names and all cut points; that no name is a prefix of another is a property of the whole grammar", "anchors": ["src/demangler.rs: do_parse, demangle_typeinfo_name, demangle_local_static_guard, demangle_md5_name", "src/lib.rs: demangle"]}
{"id": "C58", "title": "Blanks in the output are tidy", "statement": "For every symbol a compiler emits (variables, functions, constructors, operators, conversions, thunks, tables, run-time type information, guards, initializers) whose identifiers contain no blanks and do not begin with a closing or end with an opening bracket, and for all flags other than NAME_ONLY and NO_MS_KEYWORDS, the text has no blank at either end, no two blanks in a row, no blank after an opening bracket and none before a closing bracket, a comma or a colon. The two flags, the calling conventions of Swift and symbols without a name are exceptions (shown by examples).", "quantifier": "all well-formed declarations and symbols of Spec/Mangler and Spec/MangledSym (unbounded types, scopes, template arguments), 32 and 64 bits, whatever follows the name, all flag sets without NAME_ONLY and NO_MS_KEYWORDS", "why_tests_cant": "whether a blank is written depends on what was written last, by another node at any depth of the tree and under any of the flags; tests see only a few combinations", "anchors": ["src/nodes/mod.rs: output_space_if_necessary", "src/nodes/derived.rs: output_pre, output_post of PointerTypeNode, FunctionSignatureNode, TagTypeNode, ArrayTypeNode, SpecialTableSymbolNode", "src/nodes/enums.rs: Qualifiers::output, CallingConv::output"]}
{"id": "C59", "title": "Exact verdict for every symbol of a compiler", "statement": "For every symbol a compiler emits, of any size, the outcome of demangling it is determined by two numbers computed from the declaration alone: a symbol of more than 2048 nodes (each type, name, bound and parameter list that is not a back-reference counts) is refused as malicious; otherwise the result is the C++ declaration, or the out-of-memory error if that has 2^20 bytes or more. The count is the same for 32 and 64 bit names and for all flags, and what follows the name does not matter; so both names of a symbol always have the same outcome, and no set of flags makes a symbol malicious.", "quantifier": "all well-formed declarations and symbols of Spec/Mangler and Spec/MangledSym (unbounded size), 32 and 64 bits, all flag sets, any text after the name", "why_tests_cant": "the boundary of 2048 nodes is hit by unboundedly many shapes of declarations (nested pointers, templates, parameter lists, memoized names), and each word size and each of 2^10 flag sets could move it", "anchors": ["src/cache.rs: NodeCache::intern (limit of 2048 nodes)", "src/demangler.rs: memorize_identifier, memorize_string, demangle_function_parameter_list, demangle_array_type", "src/lib.rs: demangle"]}
{"id": "C60", "title": "Different special symbols have different texts", "statement": "Two plain symbols of a compiler (declarations as in C55, tables of classes with or without a base class, base class descriptors and arrays, class hierarchy descriptors, virtual call thunks, guards of static variables, functions that initialize or destroy a variable, type descriptors and the names in them) that are demangled to the same text under the default flags are the same symbol, whether their names are for 32 or 64 bits and whatever follows them. What the text does not show (whether a guard is visible, a guard number 0) is left out, with counterexamples.", "quantifier": "all pairs of plain symbols of Spec/MangledSym (unbounded types, scopes, template arguments, numbers), both word sizes, any text after names that allow one", "why_tests_cant": "a collision needs two symbols out of an infinite set whose texts happen to agree, e.g. a name that looks like another symbol's decoration; tests compare single outputs with expectations", "anchors": ["src/demangler.rs: demangle_special_intrinsic, demangle_special_table_symbol_node, demangle_local_static_guard, demangle_init_fini_stub, demangle_rtti_base_class_descriptor_node, demangle_vcall_thunk_node, demangle_typeinfo_name", "src/nodes/derived.rs: output of SpecialTableSymbolNode, LocalStaticGuardVariableNode, DynamicStructorIdentifierNode, RttiBaseClassDescriptorNode, VcallThunkIdentifierNode"]}
{"id": "C61", "title": "what was demangled is not demangled again", "statement": "The character '@' that separates the parts of mangled names never occurs in the output, with any flags, unless the input has a string literal or a hashed (MD5) name. Every accepted name that begins with '?' contains '@'. So a tool that passes text through the demangler twice (with any flags each time) changes nothing the second time: the second call fails, unless the text begins with a full stop; a hashed name is its own demangling.", "quantifier": "every accepted input without '?_C' and '??@', every pair of flag sets", "why_tests_cant": "all inputs and all pairs of flag sets", "anchors": ["src/demangler.rs: demangle_simple_string, demangle_anonymous_namespace_name, demangle_md5_name, do_parse", "src/nodes/derived.rs: every output", "src/lib.rs: demangle"]}
{"id": "C62", "title": "names are treated alike in every script", "statement": "The decoder does not look at which character beyond Latin-1 it reads. Renaming these characters one to one throughout the mangled name (keeping their length in UTF-8 and whether they are letters) renames them throughout the text returned and changes nothing else: the same inputs are accepted, with the same error if not, and back-references name the same parts. In particular exchanging two letters of a foreign script in the name exchanges them in the text.", "quantifier": "every input, every flag set, every such renaming, whatever the output buffers held", "why_tests_cant": "ranges over all inputs and all one-to-one renamings of over a million characters", "anchors": ["src/mangled_string.rs: every method", "src/demangler.rs: every expectation of a character, memorize_string, demangle_char_literal, demangle_simple_string", "src/nodes/mod.rs: output_space_if_necessary", "src/lib.rs: demangle, demangle_into"]}
{"id": "C63", "title": "the two names of a type descriptor agree", "statement": "For every text x and all flags, the name .x (the string in a type_info object) and the name ??_R0x@8 (the symbol of that object) are either both demangled, up to the size limits, or both rejected. If they are demangled they show the same type, written as a part before and a part after the place of a name: the former as a whole, followed by its label, the latter with its label in that place (with NAME_ONLY the former is the type alone; with NO_VARIABLE_TYPE or NAME_ONLY the latter is the label alone). Every accepted name that begins with ??_R0 is of the form ??_R0x@8.", "quantifier": "all texts x, all flag sets, all Unicode tables", "why_tests_cant": "relates two entry points of the parser and two ways of writing a type over all types, of any nesting", "anchors": ["src/demangler.rs: demangle_typeinfo_name, demangle_special_intrinsic (RttiTypeDescriptor)", "src/nodes/derived.rs: VariableSymbolNode, TypeDescriptor output"]}
{"id": "C64", "title": "a mangled name has one meaning", "statement": "An accepted mangled name denotes exactly one declaration: any two readings of it by the grammar of mangled names are the same declaration in every part (types, qualifiers, template arguments, thunk adjustments, storage), not only in their text, and the text returned is that of this declaration. No symbol that may be followed by other text is a proper prefix of another symbol, so that it is always clear where a symbol ends. (For names that are not refused as malicious; names of at most 1024 characters never are.)", "quantifier": "all names, all flag sets, all pairs of derivations in the grammar", "why_tests_cant": "quantifies over pairs of derivations of unbounded size; tests see one result per name", "anchors": ["src/demangler.rs: parse, do_parse and everything it calls", "src/nodes/derived.rs: the nodes that are built"]}
{"id": "C65", "title": "keys of anonymous namespaces do not matter", "statement": "A compiler derives the key of an anonymous namespace from the path of the source file. Two builds of one program, which give the anonymous namespaces of a symbol different keys (one to one, and none of them the text of another name in the symbol), are shown alike: the mangled names have the same outcome, the same text or the same error, for every kind of symbol, of any size, for 32 or 64 bits, under every set of flags. If keys that were different become the same, the text shown is still the same. A key that is the text of another name does matter: the name is then not remembered, and a back-reference fails.", "quantifier": "all symbols of a compiler (variables, functions, tables, descriptors, guards, initializers), all renamings of keys, all flag sets", "why_tests_cant": "ranges over all declarations, of any nesting, and all renamings", "anchors": ["src/demangler.rs: demangle_name_scope_piece, demangle_anonymous_namespace_name, memorize_string, memorize_identifier", "src/nodes/mod.rs: output of named identifiers"]}
{"id": "C66", "title": "back-references are only abbreviations", "statement": "A mangled name in which every part of a name and every parameter is written out in full wherever it occurs, without a single back-reference, is demangled to its declaration in C++, under every set of flags and whatever follows it, even if different names have the same text under these flags; so are tables, descriptors, thunks, guards and initializers. The name the compiler abbreviates with back-references is never longer than the one written in full, and is demangled to the same text (different names having different texts, and the full name having at most 1024 characters).", "quantifier": "all well-formed declarations and symbols of a compiler (any nesting of types, templates and local scopes), 32 and 64 bits, all flag sets", "why_tests_cant": "ranges over all declarations; the two names drive the tables of names and parameters through different states", "anchors": ["src/demangler.rs: demangle_back_ref_name, memorize_string, memorize_identifier, demangle_function_parameter_list, demangle_template_instantiation_name"]}
{"id": "C67", "title": "a compiler need not use every back-reference", "statement": "Wherever a mangled name may contain a back-reference to a name or to a parameter type, the name or type may instead be written again in full, at each occurrence independently of the others (a type written again is remembered again, up to ten, and its own names may be abbreviated): every such name of a declaration is demangled to the same declaration in C++, under every set of flags and whatever follows it. So is every such name of a table, descriptor, thunk, guard or initializer. No choice makes the name longer than the one without back-references. The two extremes are the name with all the back-references (C49) and the name without any (C66). Names of any length have the one outcome that the number of nodes of the declaration, with these choices, determines: the declaration, or the error for an exhausted budget. Two such names of plain symbols that are demangled to one text are names of one symbol, whatever the choices, the width of pointers and what follows them. Abbreviating is safe for names of any length: if the name without back-references is demangled to some text, so is every name with all or some of them (the budget of nodes is not exceeded by using a back-reference). The name with all the back-references, which the compiler writes, is the shortest of all, and it is demangled to some text whenever any other choice gives a name that is.", "quantifier": "all well-formed declarations of a compiler whose different names have different texts, all sets of choices, 32 and 64 bits, all flag sets", "why_tests_cant": "the number of ways to write a name is exponential in its number of repetitions, and each drives the tables through other states", "anchors": ["src/demangler.rs: demangle_back_ref_name, memorize_string, memorize_identifier, demangle_function_parameter_list, demangle_template_instantiation_name"]}
{"id": "C68", "title": "32-bit and 64-bit names demangle alike", "statement": "The mangled names that a compiler gives to one declaration (or table, descriptor, thunk, guard, initializer, type descriptor) for 32 and for 64 bits, which differ in the marks of pointers, are demangled with the same outcome, the same text or the same error: whatever the length of the names, the flags and what follows them, and whether all, some or none of the back-references are used.", "quantifier": "all well-formed symbols of a compiler whose different names have different texts, all sets of choices of back-references, all flag sets, all continuations", "why_tests_cant": "every type in a name may differ, and the outcome depends on the number of nodes, which must agree for all declarations of all sizes", "anchors": ["src/demangler.rs: demangle_pointer_ext_qualifiers, demangle_pointer_type, demangle_function_type, memorize_string"]}
