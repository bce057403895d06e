# A formal model of undname-rs in Lean 4

## Shape of the model

`lean/Verif/Model/*` is an executable, total, function-by-function model of the crate:

| file | models |
|------|--------|
| `Model/Basic.lean`  | errors and crash kinds, the state/error monad, `Flags` (lib.rs), `CharExt` (extensions.rs), `MangledString` (mangled_string.rs) |
| `Model/Nodes.lean`  | enums.rs, the 26 node kinds of `NodeStorage`, the node cache, `resolve`/`resolve_mut`/`downcast`, the mutators of intermediate.rs |
| `Model/Output.lean` | `BufWriter`, every `output` / `output_pre` / `output_post` of nodes/derived.rs and enums.rs |
| `Model/Parser.lean` | every method of `Demangler` (demangler.rs) |
| `Model/Api.lean`    | `parse_into`, `demangle_into`, `demangle` |

Conventions.

* A `&str` is a `List Char` (the sequence of its Unicode scalar values); byte offsets are computed with
  `Char.utf8Size`, so `find_char`, `split_at_checked`, slicing and the output bound are byte-exact.
* `&mut self` methods are state transformers `St → Except Fail (α × St)`. `Fail` separates
  `err e` (a Rust `Err(e)`) from `crash c`, where `c` is `panic` (a Rust panic), `ub` (a violated
  precondition of an `unsafe` block) or `fuel` (the model's recursion/loop budget ran out, i.e. possible
  non-termination). The code never recovers from an `Err`, so state after an error is not modelled.
* `MangledString.chars`, the redundant character counter, is modelled, with underflow as a panic.
* A node handle is a natural number, the cache a list of nodes; resolving out of bounds or at the wrong
  type is a panic, as in cache.rs. Handles carry no static type; `Kind` tells at which interface a handle
  is resolved.
* The mutual recursion of the parser is tied by a fuel-indexed record of three functions
  (`demangle_type`, `demangle_template_instantiation_name`, `do_parse`): one unit of fuel per nested call,
  started with `length + 1`. The renderer's recursion is tied the same way, one unit per resolved handle,
  started with the number of nodes plus one. Loops are run by `iterate` with budget `remaining length + 1`.
  Running out is `crash fuel`; it is *proved* never to happen.
* `u64` is `Nat` with explicit wrapping/overflow checks, `i64`/`i32` are `Int`, flag sets are `BitVec`.
* `char::is_alphanumeric` outside ASCII is an uninterpreted parameter `uni : Char → Bool`; all theorems
  hold for every choice of it.

## Not modelled

The bump allocator, actual memory layout, stack consumption (only nesting depth), the bytes of a partially written buffer after an
I/O error (the buffer is cleared), `Debug` of `Error`, command line parsing (clap) of the example program, real time (C52 counts steps: see below). `SmallVec`, `ArrayVec`,
`bitflags`, `write!` formatting of integers and strings, and the standard library are modelled by their documented behaviour.
UTF-8 validity of the output is by construction in the main model, which writes characters, never bytes; that this is
what the code does on bytes is C54 (below).

## How the properties are proved

1. *Soundness of the parser* (C01–C05, C29, C45). One Hoare-style theorem for every parser function:
   from a state satisfying an invariant (counter exact, at most 2048 nodes, at most ten back-references,
   every back-reference `Good`) the function either returns `err` or a state with the invariant and a `Good`
   result; it never crashes. `Good cache A k h` is an inductive predicate "the handle `h` resolves, with interface `k`,
   to a well-formed node inside the set `A`, and all children are `Good`"; being inductive it implies acyclicity. The set `A` is universally quantified in every
   specification: choosing `A = {j ≠ i}` shows that nodes created while parsing do not reach node `i`, which is what
   makes the late mutations (template arguments, conversion target, structor class, names of dynamic initialisers) safe.
2. *Soundness of the renderer*: a `Good` handle renders without crashing, with fuel at least the number of nodes,
   and only writes characters satisfying a predicate that the input characters and printable ASCII satisfy.
3. *API laws* (C06–C10) follow from the definition of `parse_into` and the soundness theorem.
4. *A grammar, and refinement* (C46). `Spec/Tree.lean` defines declarations as trees `T` and how a tree is written
   in C++ (`T.text`), `Spec/Grammar.lean` defines by inference rules which text denotes which tree
   (`Gram E category tables tree text tables'`); neither refers to the parser, the node cache or the rendering code.
   `Proof/Sim*.lean` prove, rule by rule, that the parser reads a phrase of the grammar to a node that represents
   its tree, with any text following and any tables before; `Proof/Rep.lean` relates nodes and trees and
   `Proof/Refine.lean` puts the rules together. So every derivable name demangles to the text of its tree.
   *And completeness* (C48): `Proof/Acc*.lean` invert the parser function by function: if it succeeds from a state
   whose tables represent `tb`, the input began with a phrase of the category derivable from `tb`. By induction on the
   recursion budget every accepted name is derivable, so for names of at most 1024 characters the demangler and the
   grammar coincide. *For names of any length* (C56): `Spec/Nodes.lean` adds to every rule the number of nodes the phrase
   costs, and `Exact/Sim*.lean` repeat the refinement with that number, so that the limit of 2048 nodes decides exactly
   which names of the grammar are refused. Laws about all accepted names can then be proved by induction on derivations.
5. *Exact demangling of families of names* (C11–C26, C36, C38, C42, C43): each has a small self-contained specification of
   mangling and of C++ syntax (`Spec/Decl.lean`, `Spec/Templates.lean`, `Spec/Strings.lean`, `Spec/BackRefs.lean`), is shown to be inside the
   grammar, and the text of the tree is computed. Rejections (C12, C15, C19, C20, C22, C36, C42) run the parser on the
   valid prefix by refinement and then show the error (`Proof/Bad*.lean`).
   *The round trip with a compiler* (C49): `Spec/Mangler.lean` is a mangler: C++ types,
   template instantiations, qualified names, variables and functions as mutually inductive types, their mangled names
   with the memory of names and parameter types a compiler keeps, and their C++ declarations under any flags. The
   mangler does not know the flags: it remembers names as such, the library remembers their texts under the flags.
   The hypothesis `Distinct` says that no two remembered names have one text; `C49_distinct_needed` shows that the
   claim fails without it. By mutual induction every well-formed declaration is inside the grammar; the trees for
   back-references to template names differ from those of the names in full, but are equal up to names with the same
   text (`Proof/Alike.lean`, a congruence for printing).
6. *Resources* (C47): a potential argument over the parser shows that a name of n characters creates at most 2n
   nodes, so names of at most 1024 characters are never refused as malicious. `Shows` and `Rejects` in
   `Spec/Shows.lean` state outcomes with this limit and the 2^20 byte limit in view.
7. *Flag laws* (C31–C33): the parser uses the flags only through the renderer, and the renderer of two related flag
   values is the same function (induction on fuel).
   *The verdict does not depend on the flags* (C34): a relational argument over the parser (`Proof/Leafy.lean`,
   `Proof/Twin*.lean`): on a name without `?$`, two runs with different renderers take the same steps and build node
   caches that differ only in the names of local scopes. With templates the property is false of the code; the
   counterexamples are theorems.
   *Laws of all accepted names* (C37): by completeness an accepted name has a derivation, and the law is proved by
   cases on it (`Proof/Grow.lean`: printing only appends; `Proof/Adds.lean`: what appends something).
   *Flags only take text away* (C44): two sets of flags give derivations whose trees differ only in the names of local
   scopes (`Proof/ThinGram.lean`, induction on the derivation), and printing such a pair gives a subsequence
   (`Proof/Thin*.lean`, an invariant on the two texts written so far that also says that a blank inserted in one is
   there in the other). With templates, and for blanks in `.`-names, the property is false; both are theorems.
8. Properties that turned out false of the code (the recursion depth is bounded by a constant; NAME_ONLY prints only
   the name; no stray blanks with NO_MS_KEYWORDS) have been restated as what does hold, with the deviation
   as part of the statement (C34, C35, C40, C41, C44).

## Property by property

| properties | what is modelled | how it is proved, and where |
|---|---|---|
| C01–C03 | whole parser, renderer, API as total functions with explicit crash outcomes | Hoare triples per function, invariant on the state (`Proof/Wp`, `Leaf`, `Types`, `Symbols`, `Parse`, `Top`, `Render`); `Props/Safety` |
| C04 | the node cache and handles | `Good` is inductive, so a `Good` node has a well-founded child relation; `Props/Trees` |
| C05, C06 | node limit; output limit of the writer | invariant of `alloc`; `BufWriter` postcondition; `Props/Safety` |
| C07–C10 | `demangle_into`, `demangle`, `parse_into` as functions of flags, input and old buffer | unfolding of the API and C01; `Props/Api` |
| C11, C12 | MD5 names | run of the parser on the family; `Props/Md5` |
| C13–C15 | integer template arguments | `Spec/Numbers`, `Spec/Templates`; refinement and rejection runs; `Props/Templates`, `Props/Rejects` |
| C16–C18, C24, C25 | variables, functions, structors, conversion operators | `Spec/Decl` shown to be inside the grammar, text of the tree computed; `Props/Decl` |
| C19–C21 | back-reference tables | `Spec/BackRefs`, grammar derivations with explicit tables; `Props/BackRefs` |
| C22 | type_info names, RTTI descriptors | refinement up to the end of the input, rejection of anything after; `Props/Rejects` |
| C23, C38, C42, C43 | vftables &c., thunks, arrays, anonymous and local scopes | grammar derivations; `Props/Special`, `Props/Rejects` |
| C26–C28 | string literals, byte-exact | `Spec/Strings`; `Props/Strings` |
| C29, C30 | characters of the output, nesting of brackets | predicates preserved by the renderer: `TSpec` tracks the stack of open brackets through every writer, with a condition on the input for operator names; the specification is `Spec/Nested`; `Props/Safety`, `Proof/Bracket`, `Props/Brackets` |
| C31–C33 | flags as bits | equality of the renderer for related flags; `Props/Flags` |
| C34 | two runs of the parser with different renderers | relational triples (`Proof/Twin*`); counterexamples with templates; `Props/Twins` |
| C35 | NAME_ONLY | text of trees under NAME_ONLY; `Props/NameOnly` |
| C36 | operator codes | grammar derivations, rejection of unknown codes; `Props/Operators`, `Props/Rejects` |
| C37 | accepted names | derivation from C48, then cases; `Props/NonEmpty` |
| C39 | text after a complete name | refinement with arbitrary following text; `Props/Grammar`, `Props/Accept` |
| C40 | nesting depth of calls (the fuel that is needed) | families of names that need depth n, and the bound; `Props/Depth` |
| C41 | NO_MS_KEYWORDS | text of trees; `Props/MsKeywords` |
| C44 | flags added to an accepted call | paired derivations, paired printing; `Props/Suppress`; with templates, for the symbols of a compiler whose names stay distinct: induction over `Spec/Mangler` (`Proof/Fewer`, `Proof/FewerOk`), `Props/SuppressSym` |
| C45 | the exact set of errors | postcondition of every function (`Props/Safety`); a witness for each remaining variant (`Props/Errors`) |
| C46, C48 | the grammar `Gram`, the trees `T` | refinement (`Proof/Sim*`, `Refine`) and inversion (`Proof/Acc*`, `Accept`); `Props/Grammar`, `Props/Accept` |
| C49 | a compiler's mangler with back-references (specification), the whole demangler | `Spec/Mangler`; `Proof/ManglerPr`, `Alike`, `ManglerGram`: mutual induction, the memory of the mangler related to the tables of the grammar; `Props/RoundTrip` |
| C50 | example program | `Model/Cli`, `Props/Cli`: flags by enumeration of the switches, output from C01 |
| C51 | error texts | `Model/Cli`, `Props/Cli`: enumeration of the variants |
| C52 | steps of parsing and rendering | `Timed/*`: the model in a monad that counts steps, proved to compute the same (`EraseParse`); amortised accounts for rendering (per character written, `CostOut`) and for parsing (per character read and per node, `CostParse`); `Props/Steps` |
| C53 | the other symbols of a compiler (specification), the whole demangler | `Spec/MangledSym`; `Proof/ManglerSym`: each symbol is inside the grammar (names and types by C49's induction), the text of the tree is computed for every flag set; `Props/Symbols` |
| C54 | `MangledString`, `BufWriter`, the nodes, the parser and the API on bytes (`Raw/*`) | `Raw/Utf8Pr` (encoding, decoding, boundaries), `Raw/StrRef`, `Raw/RefOut`, `Raw/RefLeaf`, `Raw/RefParse`: every function commutes with UTF-8 encoding; `Props/Bytes` |
| C55 | nothing new in the model: the texts of `Spec/Mangler.lean`, restricted by `Spec/Plain.lean` | reading a text from the left: two texts of plain things with any continuations that cannot prolong them have equal things and equal continuations, by mutual induction (`Proof/Read*`; the target of a conversion is the result type that has been read already, `Proof/ReadConv`); the names a compiler remembers are plain, hence distinct (`Proof/PlainKeys`), which removes the hypothesis of C49; `Props/Distinct` |
| C56, C39 | nothing new in the model: `Spec/Nodes.lean` is the grammar with the number of nodes of every rule, `Spec/VarNodes.lean` the closed form for variables | the refinement again, with counts (`Exact/Sim*`, `Refine`, `Top`): the parser makes exactly the stated number of nodes or fails because that number exceeds 2048; `Exact/Counted` (same phrases as the grammar), `Exact/Bound` (two per character), `Exact/Vars`; `Props/Exact` |
| C57 | nothing new in the model | the refinement says which text a symbol leaves unread; two readings of one name leave the same, so a symbol is not a proper prefix of another; `Props/Truncate` |
| C58 | nothing new in the model: the texts of `Spec/Mangler.lean`, `Spec/MangledSym.lean`; `Spec/Layout.lean` says what tidy is | mutual induction over declarations with the classes "can begin", "can end", "can be" a text, closed under concatenation (`Proof/Layout`); then C49 and C53; `Props/Layout` |
| C59 | nothing new in the model; `Spec/MangledNodes.lean` counts the nodes of a declaration | mutual induction over declarations: what the mangler writes is read by the counting grammar with exactly that count (`Proof/ManglerGramN`, `ManglerSymN`), the count does not depend on the word size (`Proof/ManglerWord`); then C56; `Props/Verdict` |
| C60 | nothing new in the model: the texts of `Spec/MangledSym.lean`, restricted by `Spec/PlainSym.lean` | the reading of C55 extended to the names of special symbols (`Proof/ReadTy`, `ReadAll`: `Spc`), the three forms of symbols (a declaration, a name, the name of a type) told apart by how their texts start and end (`Proof/ReadSym`); `Props/DistinctSym` |
| C61 | nothing new in the model | the predicate on texts of C29/C30 again, with names that end before the separator (`Proof/Leaf`); that an accepted name has a separator by the grammar (C48); `Props/Separator` |
| C62 | nothing new in the model | every function of the model commutes with the renaming (`Ren/*`: a relation between the runs on a state and on the renamed state, closed under the combinators of the model; characters read are equal or both beyond Latin-1, where every test and table of the code fails); `Props/Scripts` |
| C63 | nothing new in the model | printing depends on the text so far through its last character at most, and what is written after the place of the name on nothing (`Proof/Local`: induction on trees); both names are accepted iff x is a type of the grammar (soundness, and inversion of the two entry points in `Proof/TypeInfo`); `Props/TypeInfo` |
| C64 | nothing new in the model | a node graph represents one tree (`Proof/Unique`: `Rep.unique` by induction, with injectivity of the texts of thunk adjustments); two derivations of one name are read by the same run of the parser, which ends in one graph and at one place; `Props/Unique` |
| C65 | `Spec/AnonKeys`: a declaration or symbol with other keys for its anonymous namespaces | by induction on declarations the text, well-formedness and the remembered names commute with the renaming (`Proof/AnonKeys`), and so do the mangler's memory and the number of nodes if the renaming is one to one (`Proof/AnonNodes`); then C59 for both; `Props/AnonKeys` |
| C66 | `Spec/Spelled`: the mangler without back-references and without a memory | the grammar reads such a name to the declaration from any tables of names and parameters, by induction on declarations (`Proof/Spelled`, `Proof/SpelledSym`), then C43's completeness; equality with the abbreviated name through C49 and C53; lengths by induction (`Proof/Shorter`); `Props/Spelled` |
| C67 | `Spec/Mixed`: a mangler that tosses a coin at every possible back-reference | as C49, by induction on declarations for all sequences of coins (`Proof/Mixed`, `Proof/MixedSym`); all coins heads is the mangler of C49 and all tails the one of C66 (`Proof/MixedEnds`); lengths by induction (`Proof/MixedLength`); exact node counts (`Spec/MixedNodes`, `Proof/MixedN`, `Proof/MixedSymN`) with C56; abbreviating is safe: two runs of the mangler, with coins and without, compared by induction on declarations with an invariant on the two memories of names (`Proof/MixedCheap`, `Proof/MixedSymEnds`); the compiler's choice is the best: walking again what has been remembered adds nothing new to the memories, by induction, so two runs keep the same names (`Proof/MixedBest`); one declaration by C55, one symbol by C60; `Props/Mixed`, `Props/MixedSame` |
| C68 | as C67 | the two manglers remember the same names and types at each point and count the same nodes, by induction on declarations (`Proof/Width`), with the exact outcome of C67; `Props/Width` |
| C47 | number of nodes created | potential argument (`Proof/Cost*`); `Props/Grammar` |

## Counting steps (C52)

`Timed/Output.lean` and `Timed/Parser.lean` are generated by `tools/timed.py` from `Model/Output.lean` and `Model/Parser.lean`: the same
definitions in a monad that returns, beside the result, a number of steps (`Timed/Monad.lean`). A step is one sequencing of two
computations, one access to the parser's state, one operation on the input, one insertion into, lookup in or change of the node
cache, one failure. Operations that are loops in the code cost one step plus one for each iteration: writing a text (its characters),
`last_char` (the whole buffer, which it validates as UTF-8), taking the text out of a buffer (validated again), the searches for `@` (the characters looked at),
splitting off a prefix, `starts_with_local_scope_pattern` (four for every character up to the next `?`), copying a list of nodes, comparing a name with the at most ten
remembered ones (ten for every character of it), making a `Demangler` (the characters of the name are counted).
What is *not* counted: allocation, the arithmetic and table lookups of the pure functions between, the tests of constant prefixes and the loops over the at
most 128 bytes of a narrow string literal beyond reading and writing them.
The account of parsing (`Timed/CostParse.lean`): every character read pays 10000 steps, every character up to the next `?` ten more (for the look-ahead of local scopes: it is not searched twice),
every node made pays for one rendering; the account of rendering (`Timed/CostOut.lean`): every character written pays for the look at the buffer and the
nodes on the path to it.
`Timed/EraseParse.lean` proves that forgetting the steps gives the model back.

## Checking the model against the code

Nothing of the code is run. As a check that the model is the program, `tools/conformance.py` reads the
project's own test vectors as text (every call of `test`, `test_invalid`, `test_option`, `test_options` and
`do_test` in src/tests.rs and the doc examples of src/lib.rs: 1104 vectors, 76 of them invalid names) and
evaluates the Lean definition `demangle` on them: no mismatch (`tools/conformance.out`). This is a test of the
model, not part of any proof. `tools/seed.py` and `tools/mutants*.py` are the seeded-bug harness behind
`seeded/LOG.jsonl`.

## Trusted base

* Lean 4.33.0's kernel. `#print axioms` on every property theorem gives at most `propext`, `Classical.choice` and
  `Quot.sound`; no axiom is added, and no compiled evaluation is used.
* The definitions of `lean/Verif/Model/*` being a faithful transcription of the Rust sources (every definition cites file and lines)
  and of the documented behaviour of the standard library and of the dependencies (`arrayvec`, `smallvec`, `bitflags`,
  `bumpalo` as an allocator that does not fail). (See the previous section for the check of
  the transcription against the crate's own test vectors.)
* The statements: `lean/Verif/Props/*` and the definitions of `lean/Verif/Spec/*` they use.

Modelled: lib.rs (`Flags`, `demangle`, `demangle_into`), demangler.rs (all of it), mangled_string.rs, extensions.rs, cache.rs,
nodes/*.rs (all node kinds, their construction, mutation and output), the `Error` enumeration and its `Display` texts, `main` of examples/undecorate_name.rs after argument parsing. Not modelled: see above.

### The byte-level model (C54)

`Raw/Utf8.lean` models the operations of `core::str` the crate uses, on lists of bytes: `next_code_point` (unchecked, undefined
behaviour on truncated input or a number that is no scalar value), `next_code_point_reverse`, `is_char_boundary`,
`split_at_checked`, slicing (panics off a boundary), `run_utf8_validation`. `Raw/Str.lean` is `MangledString` with the code's own
byte offsets; `Raw/{Nodes,Output,Parser}.lean` are generated from the character model by `tools/raw.py`, which replaces texts by
bytes and each text operation by its byte version; `Raw/Api.lean` adds the `String::from_utf8` check of `parse_into`. The generator
is not trusted: its output is what C54 is about. Trusted: that `Raw/Utf8.lean` describes `core::str`, and that a Rust `&str` is
always well-formed UTF-8 (the hypothesis `from_utf8 name = true`).

Mutants of the model that were tried against the theorems are logged in `seeded/LOG.jsonl`.
The per-property status is in `MANIFEST.json`.
