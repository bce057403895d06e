/-
  Erasure of the parser: the counting parser computes what the model computes.
-/
import Verif.Timed.Erase

namespace Undname.Timed
open Undname (Fail Error Crash Text Handle Cache Kind Node)

/-- A known function. -/
syntax "ref_leaf" : tactic

/-- The rules, with case distinctions. -/
macro "refs" : tactic => `(tactic| repeat' (first
  | assumption
  | ref_leaf
  | with_reducible exact Ref.pure _ | with_reducible exact Ref.pure' _
  | with_reducible exact Ref.crash _ | with_reducible exact Ref.err _
  | with_reducible exact Ref.get | with_reducible exact Ref.set _ | with_reducible exact Ref.modify _ | with_reducible exact Ref.lift _
  | with_reducible exact Ref.okOr _ _
  | with_reducible exact Ref.write _ | with_reducible exact Ref.onStr _ | with_reducible exact Ref.intern _
  | with_reducible refine Ref.whenB ?_ | with_reducible refine Ref.whenSome fun _ => ?_
  | with_reducible refine Ref.bind ?_ fun _ => ?_ | with_reducible refine Ref.ite ?_ ?_
  | with_reducible refine Ref.loopInput (fun _ => ?_) _ | with_reducible refine Ref.forN (fun _ => ?_) _ _
  | with_reducible refine Ref.runW ?_ _ | with_reducible refine Ref.runFresh ?_ _
  | (split <;> try dsimp only)
  | contradiction))

theorem ref_tryAny : Ref tryAny tryAny Undname.tryAny := Ref.onStr _
macro_rules | `(tactic| ref_leaf) => `(tactic| with_reducible exact ref_tryAny)
theorem ref_tryChar {c} : Ref (tryChar c) (tryChar c) (Undname.tryChar c) := by unfold tryChar Undname.tryChar; refs
macro_rules | `(tactic| ref_leaf) => `(tactic| with_reducible exact ref_tryChar)
theorem ref_tryIf {f} : Ref (tryIf f) (tryIf f) (Undname.tryIf f) := Ref.onStr _
macro_rules | `(tactic| ref_leaf) => `(tactic| with_reducible exact ref_tryIf)
theorem ref_tryStr {c} : Ref (tryStr c) (tryStr c) (Undname.tryStr c) := by unfold tryStr Undname.tryStr; refs
macro_rules | `(tactic| ref_leaf) => `(tactic| with_reducible exact ref_tryStr)
theorem ref_tryBytes {n} : Ref (tryBytes n) (tryBytes n) (Undname.tryBytes n) := Ref.same fun _ => rfl
macro_rules | `(tactic| ref_leaf) => `(tactic| with_reducible exact ref_tryBytes)
theorem ref_query {α : Type} {f : MStr → α} : Ref (query f) (query f) (Undname.query f) := by unfold query Undname.query; refs
macro_rules | `(tactic| ref_leaf) => `(tactic| with_reducible exact ref_query)
theorem ref_queryE {α : Type} {f : MStr → Except Fail α} : Ref (queryE f) (queryE f) (Undname.queryE f) := by unfold queryE Undname.queryE; refs
macro_rules | `(tactic| ref_leaf) => `(tactic| with_reducible exact ref_queryE)
theorem ref_findChar {c : Char} : Ref (findChar c) (findChar c) (Undname.query fun m => m.find_char c) := Ref.same fun _ => rfl
macro_rules | `(tactic| ref_leaf) => `(tactic| with_reducible exact ref_findChar)
theorem ref_localScope : Ref localScope localScope (Undname.queryE MStr.starts_with_local_scope_pattern) := Ref.same fun _ => rfl
macro_rules | `(tactic| ref_leaf) => `(tactic| with_reducible exact ref_localScope)
theorem ref_expectChar {c e} : Ref (expectChar c e) (expectChar c e) (Undname.expectChar c e) := by
  have := @ref_tryChar c
  unfold expectChar Undname.expectChar; refs
macro_rules | `(tactic| ref_leaf) => `(tactic| with_reducible exact ref_expectChar)
theorem ref_expectStr {c e} : Ref (expectStr c e) (expectStr c e) (Undname.expectStr c e) := by
  have := @ref_tryStr c
  unfold expectStr Undname.expectStr; refs
macro_rules | `(tactic| ref_leaf) => `(tactic| with_reducible exact ref_expectStr)
theorem ref_expectAny {e} : Ref (expectAny e) (expectAny e) (Undname.expectAny e) := by
  have := ref_tryAny
  unfold expectAny Undname.expectAny; refs
macro_rules | `(tactic| ref_leaf) => `(tactic| with_reducible exact ref_expectAny)
theorem ref_firstIs {f} : Ref (firstIs f) (firstIs f) (Undname.firstIs f) := by
  have h : (fun m : MStr => match m.first_char with | some c => f c | none => false) = _ := rfl
  exact Ref.same fun s => by
    show Except.ok _ = Except.ok _
    congr 2
macro_rules | `(tactic| ref_leaf) => `(tactic| with_reducible exact ref_firstIs)
theorem ref_resolveP {k h} : Ref (resolveP k h) (resolveP k h) (Undname.resolveP k h) := by unfold resolveP Undname.resolveP; refs
macro_rules | `(tactic| ref_leaf) => `(tactic| with_reducible exact ref_resolveP)
theorem ref_downcastP {k k' h} : Ref (downcastP k k' h) (downcastP k k' h) (Undname.downcastP k k' h) := by
  unfold downcastP Undname.downcastP; refs
macro_rules | `(tactic| ref_leaf) => `(tactic| with_reducible exact ref_downcastP)
theorem ref_modifyNode {k h f} : Ref (modifyNode k h f) (modifyNode k h f) (Undname.modifyNode k h f) := by
  have := @ref_resolveP
  unfold modifyNode Undname.modifyNode; refs
macro_rules | `(tactic| ref_leaf) => `(tactic| with_reducible exact ref_modifyNode)

/-! ### Leaf parsers -/

theorem ref_numberBody {x} : Ref (numberBody x) (numberBody x) (Undname.numberBody x) := by
  unfold numberBody Undname.numberBody; refs
macro_rules | `(tactic| ref_leaf) => `(tactic| with_reducible exact ref_numberBody)
theorem ref_number  : Ref (demangle_number ) (demangle_number ) (Undname.demangle_number ) := by
  unfold demangle_number Undname.demangle_number; refs
macro_rules | `(tactic| ref_leaf) => `(tactic| with_reducible exact ref_number)
theorem ref_unsigned  : Ref (demangle_unsigned ) (demangle_unsigned ) (Undname.demangle_unsigned ) := by
  unfold demangle_unsigned Undname.demangle_unsigned; refs
macro_rules | `(tactic| ref_leaf) => `(tactic| with_reducible exact ref_unsigned)
theorem ref_signed  : Ref (demangle_signed ) (demangle_signed ) (Undname.demangle_signed ) := by
  unfold demangle_signed Undname.demangle_signed; refs
macro_rules | `(tactic| ref_leaf) => `(tactic| with_reducible exact ref_signed)
theorem ref_qualifiers  : Ref (demangle_qualifiers ) (demangle_qualifiers ) (Undname.demangle_qualifiers ) := by
  unfold demangle_qualifiers Undname.demangle_qualifiers; refs
macro_rules | `(tactic| ref_leaf) => `(tactic| with_reducible exact ref_qualifiers)
theorem ref_pointer_cv_qualifiers  : Ref (demangle_pointer_cv_qualifiers ) (demangle_pointer_cv_qualifiers ) (Undname.demangle_pointer_cv_qualifiers ) := by
  unfold demangle_pointer_cv_qualifiers Undname.demangle_pointer_cv_qualifiers; refs
macro_rules | `(tactic| ref_leaf) => `(tactic| with_reducible exact ref_pointer_cv_qualifiers)
theorem ref_pointer_ext_qualifiers  : Ref (demangle_pointer_ext_qualifiers ) (demangle_pointer_ext_qualifiers ) (Undname.demangle_pointer_ext_qualifiers ) := by
  unfold demangle_pointer_ext_qualifiers Undname.demangle_pointer_ext_qualifiers; refs
macro_rules | `(tactic| ref_leaf) => `(tactic| with_reducible exact ref_pointer_ext_qualifiers)
theorem ref_function_ref_qualifier  : Ref (demangle_function_ref_qualifier ) (demangle_function_ref_qualifier ) (Undname.demangle_function_ref_qualifier ) := by
  unfold demangle_function_ref_qualifier Undname.demangle_function_ref_qualifier; refs
macro_rules | `(tactic| ref_leaf) => `(tactic| with_reducible exact ref_function_ref_qualifier)
theorem ref_function_class  : Ref (demangle_function_class ) (demangle_function_class ) (Undname.demangle_function_class ) := by
  unfold demangle_function_class Undname.demangle_function_class; refs
macro_rules | `(tactic| ref_leaf) => `(tactic| with_reducible exact ref_function_class)
theorem ref_calling_convention  : Ref (demangle_calling_convention ) (demangle_calling_convention ) (Undname.demangle_calling_convention ) := by
  unfold demangle_calling_convention Undname.demangle_calling_convention; refs
macro_rules | `(tactic| ref_leaf) => `(tactic| with_reducible exact ref_calling_convention)
theorem ref_variable_storage_class  : Ref (demangle_variable_storage_class ) (demangle_variable_storage_class ) (Undname.demangle_variable_storage_class ) := by
  unfold demangle_variable_storage_class Undname.demangle_variable_storage_class; refs
macro_rules | `(tactic| ref_leaf) => `(tactic| with_reducible exact ref_variable_storage_class)
theorem ref_throw_specification  : Ref (demangle_throw_specification ) (demangle_throw_specification ) (Undname.demangle_throw_specification ) := by
  unfold demangle_throw_specification Undname.demangle_throw_specification; refs
macro_rules | `(tactic| ref_leaf) => `(tactic| with_reducible exact ref_throw_specification)
theorem ref_primitive_kind  : Ref (primitive_kind ) (primitive_kind ) (Undname.primitive_kind ) := by
  unfold primitive_kind Undname.primitive_kind; refs
macro_rules | `(tactic| ref_leaf) => `(tactic| with_reducible exact ref_primitive_kind)
theorem ref_primitive_type  : Ref (demangle_primitive_type ) (demangle_primitive_type ) (Undname.demangle_primitive_type ) := by
  unfold demangle_primitive_type Undname.demangle_primitive_type; refs
macro_rules | `(tactic| ref_leaf) => `(tactic| with_reducible exact ref_primitive_type)

theorem ref_memorize_string {t} : Ref (memorize_string t) (memorize_string t) (Undname.memorize_string t) := Ref.same fun _ => rfl
macro_rules | `(tactic| ref_leaf) => `(tactic| with_reducible exact ref_memorize_string)
theorem ref_simple_string {m} : Ref (demangle_simple_string m) (demangle_simple_string m) (Undname.demangle_simple_string m) := by
  unfold demangle_simple_string Undname.demangle_simple_string; refs
macro_rules | `(tactic| ref_leaf) => `(tactic| with_reducible exact ref_simple_string)
theorem ref_simple_name {m} : Ref (demangle_simple_name m) (demangle_simple_name m) (Undname.demangle_simple_name m) := by
  unfold demangle_simple_name Undname.demangle_simple_name; refs
macro_rules | `(tactic| ref_leaf) => `(tactic| with_reducible exact ref_simple_name)
theorem ref_anonymous_namespace_name  : Ref (demangle_anonymous_namespace_name ) (demangle_anonymous_namespace_name ) (Undname.demangle_anonymous_namespace_name ) := by
  unfold demangle_anonymous_namespace_name Undname.demangle_anonymous_namespace_name; refs
macro_rules | `(tactic| ref_leaf) => `(tactic| with_reducible exact ref_anonymous_namespace_name)
theorem ref_back_ref_name  : Ref (demangle_back_ref_name ) (demangle_back_ref_name ) (Undname.demangle_back_ref_name ) := by
  unfold demangle_back_ref_name Undname.demangle_back_ref_name; refs
macro_rules | `(tactic| ref_leaf) => `(tactic| with_reducible exact ref_back_ref_name)
theorem ref_synthesize_from_id {i} : Ref (synthesize_from_id i) (synthesize_from_id i) (Undname.synthesize_from_id i) := by
  unfold synthesize_from_id Undname.synthesize_from_id; refs
macro_rules | `(tactic| ref_leaf) => `(tactic| with_reducible exact ref_synthesize_from_id)
theorem ref_synthesize_from_name {i} : Ref (synthesize_from_name i) (synthesize_from_name i) (Undname.synthesize_from_name i) := by
  unfold synthesize_from_name Undname.synthesize_from_name; refs
macro_rules | `(tactic| ref_leaf) => `(tactic| with_reducible exact ref_synthesize_from_name)
theorem ref_md5_name  : Ref (demangle_md5_name ) (demangle_md5_name ) (Undname.demangle_md5_name ) := by
  unfold demangle_md5_name Undname.demangle_md5_name
  refine Ref.bind ref_query fun x => Ref.bind ref_expectStr fun _ => Ref.bind ref_findChar fun _ => Ref.bind (Ref.okOr _ _) fun a =>
    Ref.bind ref_tryBytes fun _ => Ref.bind (Ref.okOr _ _) fun _ => Ref.bind ref_tryStr fun r4 => ?_
  cases h : splitAtBytes ((if r4 then a + 3 + 6 else a + 3) + 1) x <;> simp only [h] <;> refs
macro_rules | `(tactic| ref_leaf) => `(tactic| with_reducible exact ref_md5_name)
theorem ref_literal_operator_identifier  : Ref (demangle_literal_operator_identifier ) (demangle_literal_operator_identifier ) (Undname.demangle_literal_operator_identifier ) := by
  unfold demangle_literal_operator_identifier Undname.demangle_literal_operator_identifier; refs
macro_rules | `(tactic| ref_leaf) => `(tactic| with_reducible exact ref_literal_operator_identifier)
theorem ref_function_identifier_code_group {g} : Ref (demangle_function_identifier_code_group g) (demangle_function_identifier_code_group g) (Undname.demangle_function_identifier_code_group g) := by
  unfold demangle_function_identifier_code_group Undname.demangle_function_identifier_code_group; refs
macro_rules | `(tactic| ref_leaf) => `(tactic| with_reducible exact ref_function_identifier_code_group)
theorem ref_function_identifier_code  : Ref (demangle_function_identifier_code ) (demangle_function_identifier_code ) (Undname.demangle_function_identifier_code ) := by
  unfold demangle_function_identifier_code Undname.demangle_function_identifier_code; refs
macro_rules | `(tactic| ref_leaf) => `(tactic| with_reducible exact ref_function_identifier_code)

theorem ref_tryTable {α : Type} (l : List (Text × α)) : Ref (tryTable l) (tryTable l) (Undname.tryTable l) := by
  induction l with
  | nil => exact Ref.pure _
  | cons x xs ih => unfold tryTable Undname.tryTable; refs
macro_rules | `(tactic| ref_leaf) => `(tactic| with_reducible exact ref_tryTable _)

theorem ref_special_kind : Ref consume_special_intrinsic_kind consume_special_intrinsic_kind Undname.consume_special_intrinsic_kind :=
  ref_tryTable _
macro_rules | `(tactic| ref_leaf) => `(tactic| with_reducible exact ref_special_kind)

theorem ref_unchecked {o} : Ref (demangle_char_literal.unchecked o) (demangle_char_literal.unchecked o) (Undname.demangle_char_literal.unchecked o) := by
  cases o
  · exact Ref.crash _
  · exact Ref.pure _
macro_rules | `(tactic| ref_leaf) => `(tactic| with_reducible exact ref_unchecked)
theorem ref_char_literal  : Ref (demangle_char_literal ) (demangle_char_literal ) (Undname.demangle_char_literal ) := by
  unfold demangle_char_literal Undname.demangle_char_literal; refs
macro_rules | `(tactic| ref_leaf) => `(tactic| with_reducible exact ref_char_literal)
theorem ref_wchar_literal  : Ref (demangle_wchar_literal ) (demangle_wchar_literal ) (Undname.demangle_wchar_literal ) := by
  unfold demangle_wchar_literal Undname.demangle_wchar_literal; refs
macro_rules | `(tactic| ref_leaf) => `(tactic| with_reducible exact ref_wchar_literal)
theorem ref_output_escaped_char {c} : Ref (output_escaped_char c) (output_escaped_char c) (Undname.output_escaped_char c) := by
  unfold output_escaped_char Undname.output_escaped_char
  cases escapedChar c <;> dsimp only <;> refs
macro_rules | `(tactic| ref_leaf) => `(tactic| with_reducible exact ref_output_escaped_char)
theorem ref_wideBody {b x} : Ref (wideBody b x) (wideBody b x) (Undname.wideBody b x) := by
  unfold wideBody Undname.wideBody; refs
macro_rules | `(tactic| ref_leaf) => `(tactic| with_reducible exact ref_wideBody)
theorem ref_narrowBody {b} : Ref (narrowBody b) (narrowBody b) (Undname.narrowBody b) := by
  unfold narrowBody Undname.narrowBody; refs
macro_rules | `(tactic| ref_leaf) => `(tactic| with_reducible exact ref_narrowBody)
theorem ref_decodeBody {b c n t x} : Ref (decodeBody b c n t x) (decodeBody b c n t x) (Undname.decodeBody b c n t x) := by
  unfold decodeBody Undname.decodeBody; refs
macro_rules | `(tactic| ref_leaf) => `(tactic| with_reducible exact ref_decodeBody)
theorem ref_string_literal  : Ref (demangle_string_literal ) (demangle_string_literal ) (Undname.demangle_string_literal ) := by
  unfold demangle_string_literal Undname.demangle_string_literal; refs
macro_rules | `(tactic| ref_leaf) => `(tactic| with_reducible exact ref_string_literal)

/-! ### Recursive parsers -/

/-- Renderers that agree. -/
def RefRend (rend' rend : Renderer) (orend : Undname.Renderer) : Prop := ∀ c k h, Ref (rend' c k h) (rend c k h) (orend c k h)

theorem RefRend.at {rend' rend orend} (h : RefRend rend' rend orend) {c k x} : Ref (rend' c k x) (rend c k x) (orend c k x) := h c k x

/-- Recursive functions that agree. -/
structure RefFns (r' r : Fns) (o : Undname.Fns) : Prop where
  type : ∀ {q}, Ref (r'.type q) (r.type q) (o.type q)
  tmpl : ∀ {b}, Ref (r'.tmpl b) (r.tmpl b) (o.tmpl b)
  parse : Ref r'.parse r.parse o.parse

macro_rules | `(tactic| ref_leaf) => `(tactic| (with_reducible refine RefRend.at ?_) <;> assumption)
macro_rules | `(tactic| ref_leaf) => `(tactic| (with_reducible refine RefFns.type ?_) <;> assumption)
macro_rules | `(tactic| ref_leaf) => `(tactic| (with_reducible refine RefFns.tmpl ?_) <;> assumption)
macro_rules | `(tactic| ref_leaf) => `(tactic| (with_reducible refine RefFns.parse ?_) <;> assumption)

section
variable {rend' rend : Renderer} {orend : Undname.Renderer} {r' r : Fns} {o : Undname.Fns}

theorem ref_memorize_identifier {i} (hrend : RefRend rend' rend orend) :
    Ref (memorize_identifier rend' i) (memorize_identifier rend i) (Undname.memorize_identifier orend i) := by
  unfold memorize_identifier Undname.memorize_identifier; refs
macro_rules | `(tactic| ref_leaf) => `(tactic| (with_reducible refine ref_memorize_identifier ?_) <;> assumption)

theorem ref_unqualified_type_name {m} (hr : RefFns r' r o) :
    Ref (demangle_unqualified_type_name r' m) (demangle_unqualified_type_name r m) (Undname.demangle_unqualified_type_name o m) := by
  unfold demangle_unqualified_type_name Undname.demangle_unqualified_type_name; refs
macro_rules | `(tactic| ref_leaf) => `(tactic| (with_reducible refine ref_unqualified_type_name ?_) <;> assumption)

theorem ref_unqualified_symbol_name {m} (hr : RefFns r' r o) :
    Ref (demangle_unqualified_symbol_name r' m) (demangle_unqualified_symbol_name r m) (Undname.demangle_unqualified_symbol_name o m) := by
  unfold demangle_unqualified_symbol_name Undname.demangle_unqualified_symbol_name; refs
macro_rules | `(tactic| ref_leaf) => `(tactic| (with_reducible refine ref_unqualified_symbol_name ?_) <;> assumption)

theorem ref_locally_scoped_name_piece (hrend : RefRend rend' rend orend) (hr : RefFns r' r o) :
    Ref (demangle_locally_scoped_name_piece rend' r' ) (demangle_locally_scoped_name_piece rend r ) (Undname.demangle_locally_scoped_name_piece orend o ) := by
  unfold demangle_locally_scoped_name_piece Undname.demangle_locally_scoped_name_piece; refs
macro_rules | `(tactic| ref_leaf) => `(tactic| (with_reducible refine ref_locally_scoped_name_piece ?_ ?_) <;> assumption)

theorem ref_name_scope_piece (hrend : RefRend rend' rend orend) (hr : RefFns r' r o) :
    Ref (demangle_name_scope_piece rend' r' ) (demangle_name_scope_piece rend r ) (Undname.demangle_name_scope_piece orend o ) := by
  unfold demangle_name_scope_piece Undname.demangle_name_scope_piece; refs
macro_rules | `(tactic| ref_leaf) => `(tactic| (with_reducible refine ref_name_scope_piece ?_ ?_) <;> assumption)

theorem ref_scopeChainBody {l} (hrend : RefRend rend' rend orend) (hr : RefFns r' r o) :
    Ref (scopeChainBody rend' r' l) (scopeChainBody rend r l) (Undname.scopeChainBody orend o l) := by
  unfold scopeChainBody Undname.scopeChainBody; refs
macro_rules | `(tactic| ref_leaf) => `(tactic| (with_reducible refine ref_scopeChainBody ?_ ?_) <;> assumption)

theorem ref_name_scope_chain {l} (hrend : RefRend rend' rend orend) (hr : RefFns r' r o) :
    Ref (demangle_name_scope_chain rend' r' l) (demangle_name_scope_chain rend r l) (Undname.demangle_name_scope_chain orend o l) := by
  unfold demangle_name_scope_chain Undname.demangle_name_scope_chain; refs
macro_rules | `(tactic| ref_leaf) => `(tactic| (with_reducible refine ref_name_scope_chain ?_ ?_) <;> assumption)

theorem ref_fully_qualified_type_name (hrend : RefRend rend' rend orend) (hr : RefFns r' r o) :
    Ref (demangle_fully_qualified_type_name rend' r' ) (demangle_fully_qualified_type_name rend r ) (Undname.demangle_fully_qualified_type_name orend o ) := by
  unfold demangle_fully_qualified_type_name Undname.demangle_fully_qualified_type_name; refs
macro_rules | `(tactic| ref_leaf) => `(tactic| (with_reducible refine ref_fully_qualified_type_name ?_ ?_) <;> assumption)

theorem ref_class_of_structor {qn} :
    Ref (class_of_structor  qn) (class_of_structor  qn) (Undname.class_of_structor  qn) := by
  unfold class_of_structor Undname.class_of_structor
  refine Ref.bind ref_resolveP fun q => ?_
  cases q <;> dsimp only <;> try exact Ref.crash _
  refine Ref.bind ref_resolveP fun q => ?_
  cases q <;> dsimp only <;> try exact Ref.crash _
  rename_i l
  refine Ref.ite (Ref.err _) ?_
  cases l[l.length - 2]? <;> dsimp only <;> refs
macro_rules | `(tactic| ref_leaf) => `(tactic| with_reducible exact ref_class_of_structor)

theorem ref_fully_qualified_symbol_name (hrend : RefRend rend' rend orend) (hr : RefFns r' r o) :
    Ref (demangle_fully_qualified_symbol_name rend' r' ) (demangle_fully_qualified_symbol_name rend r ) (Undname.demangle_fully_qualified_symbol_name orend o ) := by
  unfold demangle_fully_qualified_symbol_name Undname.demangle_fully_qualified_symbol_name; refs
macro_rules | `(tactic| ref_leaf) => `(tactic| (with_reducible refine ref_fully_qualified_symbol_name ?_ ?_) <;> assumption)

theorem ref_class_type (hrend : RefRend rend' rend orend) (hr : RefFns r' r o) :
    Ref (demangle_class_type rend' r' ) (demangle_class_type rend r ) (Undname.demangle_class_type orend o ) := by
  unfold demangle_class_type Undname.demangle_class_type
  refine Ref.bind ref_expectAny fun f => ?_
  by_cases h1 : f = 'T'
  · subst h1; dsimp only; refs
  by_cases h2 : f = 'U'
  · subst h2; dsimp only; refs
  by_cases h3 : f = 'V'
  · subst h3; dsimp only; refs
  by_cases h4 : f = 'W'
  · subst h4; dsimp only; refs
  split <;> try contradiction
  refs
macro_rules | `(tactic| ref_leaf) => `(tactic| (with_reducible refine ref_class_type ?_ ?_) <;> assumption)

theorem ref_custom_type (hr : RefFns r' r o) :
    Ref (demangle_custom_type r' ) (demangle_custom_type r ) (Undname.demangle_custom_type o ) := by
  unfold demangle_custom_type Undname.demangle_custom_type; refs
macro_rules | `(tactic| ref_leaf) => `(tactic| (with_reducible refine ref_custom_type ?_) <;> assumption)

theorem ref_paramListBody_push_param {t} :
    Ref (paramListBody.push_param  t) (paramListBody.push_param  t) (Undname.paramListBody.push_param  t) := by
  unfold paramListBody.push_param Undname.paramListBody.push_param; refs
macro_rules | `(tactic| ref_leaf) => `(tactic| with_reducible exact ref_paramListBody_push_param)

theorem ref_paramListBody {l} (hr : RefFns r' r o) :
    Ref (paramListBody r' l) (paramListBody r l) (Undname.paramListBody o l) := by
  unfold paramListBody Undname.paramListBody; refs
macro_rules | `(tactic| ref_leaf) => `(tactic| (with_reducible refine ref_paramListBody ?_) <;> assumption)

theorem ref_function_parameter_list (hr : RefFns r' r o) :
    Ref (demangle_function_parameter_list r' ) (demangle_function_parameter_list r ) (Undname.demangle_function_parameter_list o ) := by
  unfold demangle_function_parameter_list Undname.demangle_function_parameter_list; refs
macro_rules | `(tactic| ref_leaf) => `(tactic| (with_reducible refine ref_function_parameter_list ?_) <;> assumption)

theorem ref_function_this_quals {b} :
    Ref (function_this_quals  b) (function_this_quals  b) (Undname.function_this_quals  b) := by
  unfold function_this_quals Undname.function_this_quals; refs
macro_rules | `(tactic| ref_leaf) => `(tactic| with_reducible exact ref_function_this_quals)

theorem ref_function_type {b} (hr : RefFns r' r o) :
    Ref (demangle_function_type r' b) (demangle_function_type r b) (Undname.demangle_function_type o b) := by
  unfold demangle_function_type Undname.demangle_function_type; refs
macro_rules | `(tactic| ref_leaf) => `(tactic| (with_reducible refine ref_function_type ?_) <;> assumption)

theorem ref_pointer_type (hr : RefFns r' r o) :
    Ref (demangle_pointer_type r' ) (demangle_pointer_type r ) (Undname.demangle_pointer_type o ) := by
  unfold demangle_pointer_type Undname.demangle_pointer_type; refs
macro_rules | `(tactic| ref_leaf) => `(tactic| (with_reducible refine ref_pointer_type ?_) <;> assumption)

theorem ref_member_pointer_type (hrend : RefRend rend' rend orend) (hr : RefFns r' r o) :
    Ref (demangle_member_pointer_type rend' r' ) (demangle_member_pointer_type rend r ) (Undname.demangle_member_pointer_type orend o ) := by
  unfold demangle_member_pointer_type Undname.demangle_member_pointer_type; refs
macro_rules | `(tactic| ref_leaf) => `(tactic| (with_reducible refine ref_member_pointer_type ?_ ?_) <;> assumption)

theorem ref_arrayDim {l} :
    Ref (arrayDim  l) (arrayDim  l) (Undname.arrayDim  l) := by
  unfold arrayDim Undname.arrayDim; refs
macro_rules | `(tactic| ref_leaf) => `(tactic| with_reducible exact ref_arrayDim)

theorem ref_array_type (hr : RefFns r' r o) :
    Ref (demangle_array_type r' ) (demangle_array_type r ) (Undname.demangle_array_type o ) := by
  unfold demangle_array_type Undname.demangle_array_type; refs
macro_rules | `(tactic| ref_leaf) => `(tactic| (with_reducible refine ref_array_type ?_) <;> assumption)

theorem ref_type_quals {q} :
    Ref (type_quals  q) (type_quals  q) (Undname.type_quals  q) := by
  cases q <;> unfold type_quals Undname.type_quals <;> refs
macro_rules | `(tactic| ref_leaf) => `(tactic| with_reducible exact ref_type_quals)

theorem ref_type_body (hrend : RefRend rend' rend orend) (hr : RefFns r' r o) :
    Ref (demangle_type_body rend' r' ) (demangle_type_body rend r ) (Undname.demangle_type_body orend o ) := by
  unfold demangle_type_body Undname.demangle_type_body; refs
macro_rules | `(tactic| ref_leaf) => `(tactic| (with_reducible refine ref_type_body ?_ ?_) <;> assumption)

theorem ref_type {q} (hrend : RefRend rend' rend orend) (hr : RefFns r' r o) :
    Ref (demangle_type rend' r' q) (demangle_type rend r q) (Undname.demangle_type orend o q) := by
  unfold demangle_type Undname.demangle_type; refs
macro_rules | `(tactic| ref_leaf) => `(tactic| (with_reducible refine ref_type ?_ ?_) <;> assumption)

theorem ref_trySpecifier {b l} :
    Ref (trySpecifier  b l) (trySpecifier  b l) (Undname.trySpecifier  b l) := by
  exact ref_tryTable _
macro_rules | `(tactic| ref_leaf) => `(tactic| with_reducible exact ref_trySpecifier)

theorem ref_offsets {n} :
    Ref (offsets  n) (offsets  n) (Undname.offsets  n) := by
  unfold offsets Undname.offsets; refs
macro_rules | `(tactic| ref_leaf) => `(tactic| with_reducible exact ref_offsets)

theorem ref_symbol_identifier {s} :
    Ref (symbol_identifier  s) (symbol_identifier  s) (Undname.symbol_identifier  s) := by
  unfold symbol_identifier Undname.symbol_identifier
  refine Ref.bind ref_resolveP fun n => ?_
  cases n.get_name <;> dsimp only <;> refs
macro_rules | `(tactic| ref_leaf) => `(tactic| with_reducible exact ref_symbol_identifier)

set_option maxHeartbeats 2000000 in
theorem ref_template_member_pointer {c} (hrend : RefRend rend' rend orend) (hr : RefFns r' r o) :
    Ref (template_member_pointer rend' r' c) (template_member_pointer rend r c) (Undname.template_member_pointer orend o c) := by
  unfold template_member_pointer Undname.template_member_pointer
  refine Ref.bind ref_query fun q => ?_
  by_cases h1 : c = '1'
  · subst h1; dsimp only; refs
  by_cases h2 : c = 'H'
  · subst h2; dsimp only; refs
  by_cases h3 : c = 'I'
  · subst h3; dsimp only; refs
  by_cases h4 : c = 'J'
  · subst h4; dsimp only; refs
  split <;> try contradiction
  refs
macro_rules | `(tactic| ref_leaf) => `(tactic| (with_reducible refine ref_template_member_pointer ?_ ?_) <;> assumption)

theorem ref_template_data_member_pointer {c} :
    Ref (template_data_member_pointer  c) (template_data_member_pointer  c) (Undname.template_data_member_pointer  c) := by
  unfold template_data_member_pointer Undname.template_data_member_pointer
  by_cases h1 : c = 'G'
  · subst h1; dsimp only; refs
  by_cases h2 : c = 'F'
  · subst h2; dsimp only; refs
  split <;> try contradiction
  refs
macro_rules | `(tactic| ref_leaf) => `(tactic| with_reducible exact ref_template_data_member_pointer)

theorem ref_template_argument {b} (hrend : RefRend rend' rend orend) (hr : RefFns r' r o) :
    Ref (template_argument rend' r' b) (template_argument rend r b) (Undname.template_argument orend o b) := by
  unfold template_argument Undname.template_argument; refs
macro_rules | `(tactic| ref_leaf) => `(tactic| (with_reducible refine ref_template_argument ?_ ?_) <;> assumption)

theorem ref_templateListBody {l} (hrend : RefRend rend' rend orend) (hr : RefFns r' r o) :
    Ref (templateListBody rend' r' l) (templateListBody rend r l) (Undname.templateListBody orend o l) := by
  unfold templateListBody Undname.templateListBody; refs
macro_rules | `(tactic| ref_leaf) => `(tactic| (with_reducible refine ref_templateListBody ?_ ?_) <;> assumption)

theorem ref_template_parameter_list (hrend : RefRend rend' rend orend) (hr : RefFns r' r o) :
    Ref (demangle_template_parameter_list rend' r' ) (demangle_template_parameter_list rend r ) (Undname.demangle_template_parameter_list orend o ) := by
  unfold demangle_template_parameter_list Undname.demangle_template_parameter_list; refs
macro_rules | `(tactic| ref_leaf) => `(tactic| (with_reducible refine ref_template_parameter_list ?_ ?_) <;> assumption)

theorem ref_template_instantiation_name {b} (hrend : RefRend rend' rend orend) (hr : RefFns r' r o) :
    Ref (demangle_template_instantiation_name rend' r' b) (demangle_template_instantiation_name rend r b) (Undname.demangle_template_instantiation_name orend o b) := by
  unfold demangle_template_instantiation_name Undname.demangle_template_instantiation_name; refs
macro_rules | `(tactic| ref_leaf) => `(tactic| (with_reducible refine ref_template_instantiation_name ?_ ?_) <;> assumption)

theorem ref_variable_quals {t} (hrend : RefRend rend' rend orend) (hr : RefFns r' r o) :
    Ref (variable_quals rend' r' t) (variable_quals rend r t) (Undname.variable_quals orend o t) := by
  unfold variable_quals Undname.variable_quals
  refine Ref.bind ref_downcastP fun p => ?_
  cases p with
  | none => dsimp only; refs
  | some p =>
    dsimp only
    refine Ref.bind ref_pointer_ext_qualifiers fun _ => Ref.bind ref_resolveP fun n => ?_
    cases n <;> dsimp only <;> refs
macro_rules | `(tactic| ref_leaf) => `(tactic| (with_reducible refine ref_variable_quals ?_ ?_) <;> assumption)

theorem ref_variable_encoding {t} (hrend : RefRend rend' rend orend) (hr : RefFns r' r o) :
    Ref (demangle_variable_encoding rend' r' t) (demangle_variable_encoding rend r t) (Undname.demangle_variable_encoding orend o t) := by
  unfold demangle_variable_encoding Undname.demangle_variable_encoding; refs
macro_rules | `(tactic| ref_leaf) => `(tactic| (with_reducible refine ref_variable_encoding ?_ ?_) <;> assumption)

theorem ref_thunk_adjust {t} :
    Ref (thunk_adjust  t) (thunk_adjust  t) (Undname.thunk_adjust  t) := by
  unfold thunk_adjust Undname.thunk_adjust; refs
macro_rules | `(tactic| ref_leaf) => `(tactic| with_reducible exact ref_thunk_adjust)

theorem ref_function_encoding (hr : RefFns r' r o) :
    Ref (demangle_function_encoding r' ) (demangle_function_encoding r ) (Undname.demangle_function_encoding o ) := by
  unfold demangle_function_encoding Undname.demangle_function_encoding; refs
macro_rules | `(tactic| ref_leaf) => `(tactic| (with_reducible refine ref_function_encoding ?_) <;> assumption)

theorem ref_function_return_type {f} :
    Ref (function_return_type  f) (function_return_type  f) (Undname.function_return_type  f) := by
  unfold function_return_type Undname.function_return_type
  refine Ref.bind ref_resolveP fun n => ?_
  cases n <;> dsimp only <;> refs
macro_rules | `(tactic| ref_leaf) => `(tactic| with_reducible exact ref_function_return_type)

theorem ref_encoded_symbol {n} (hrend : RefRend rend' rend orend) (hr : RefFns r' r o) :
    Ref (demangle_encoded_symbol rend' r' n) (demangle_encoded_symbol rend r n) (Undname.demangle_encoded_symbol orend o n) := by
  unfold demangle_encoded_symbol Undname.demangle_encoded_symbol; refs
macro_rules | `(tactic| ref_leaf) => `(tactic| (with_reducible refine ref_encoded_symbol ?_ ?_) <;> assumption)

theorem ref_declarator (hrend : RefRend rend' rend orend) (hr : RefFns r' r o) :
    Ref (demangle_declarator rend' r' ) (demangle_declarator rend r ) (Undname.demangle_declarator orend o ) := by
  unfold demangle_declarator Undname.demangle_declarator; refs
macro_rules | `(tactic| ref_leaf) => `(tactic| (with_reducible refine ref_declarator ?_ ?_) <;> assumption)

theorem ref_typeinfo_name (hr : RefFns r' r o) :
    Ref (demangle_typeinfo_name r' ) (demangle_typeinfo_name r ) (Undname.demangle_typeinfo_name o ) := by
  unfold demangle_typeinfo_name Undname.demangle_typeinfo_name; refs
macro_rules | `(tactic| ref_leaf) => `(tactic| (with_reducible refine ref_typeinfo_name ?_) <;> assumption)

theorem ref_special_table_symbol_node {k} (hrend : RefRend rend' rend orend) (hr : RefFns r' r o) :
    Ref (demangle_special_table_symbol_node rend' r' k) (demangle_special_table_symbol_node rend r k) (Undname.demangle_special_table_symbol_node orend o k) := by
  unfold demangle_special_table_symbol_node Undname.demangle_special_table_symbol_node; refs
macro_rules | `(tactic| ref_leaf) => `(tactic| (with_reducible refine ref_special_table_symbol_node ?_ ?_) <;> assumption)

theorem ref_local_static_guard {k} (hrend : RefRend rend' rend orend) (hr : RefFns r' r o) :
    Ref (demangle_local_static_guard rend' r' k) (demangle_local_static_guard rend r k) (Undname.demangle_local_static_guard orend o k) := by
  unfold demangle_local_static_guard Undname.demangle_local_static_guard; refs
macro_rules | `(tactic| ref_leaf) => `(tactic| (with_reducible refine ref_local_static_guard ?_ ?_) <;> assumption)

theorem ref_untyped_variable {k} (hrend : RefRend rend' rend orend) (hr : RefFns r' r o) :
    Ref (demangle_untyped_variable rend' r' k) (demangle_untyped_variable rend r k) (Undname.demangle_untyped_variable orend o k) := by
  unfold demangle_untyped_variable Undname.demangle_untyped_variable; refs
macro_rules | `(tactic| ref_leaf) => `(tactic| (with_reducible refine ref_untyped_variable ?_ ?_) <;> assumption)

theorem ref_rtti_base_class_descriptor_node_u32 :
    Ref (demangle_rtti_base_class_descriptor_node.u32  ) (demangle_rtti_base_class_descriptor_node.u32  ) (Undname.demangle_rtti_base_class_descriptor_node.u32  ) := by
  unfold demangle_rtti_base_class_descriptor_node.u32 Undname.demangle_rtti_base_class_descriptor_node.u32; refs
macro_rules | `(tactic| ref_leaf) => `(tactic| with_reducible exact ref_rtti_base_class_descriptor_node_u32)

theorem ref_rtti_base_class_descriptor_node (hrend : RefRend rend' rend orend) (hr : RefFns r' r o) :
    Ref (demangle_rtti_base_class_descriptor_node rend' r' ) (demangle_rtti_base_class_descriptor_node rend r ) (Undname.demangle_rtti_base_class_descriptor_node orend o ) := by
  unfold demangle_rtti_base_class_descriptor_node Undname.demangle_rtti_base_class_descriptor_node; refs
macro_rules | `(tactic| ref_leaf) => `(tactic| (with_reducible refine ref_rtti_base_class_descriptor_node ?_ ?_) <;> assumption)

theorem ref_init_fini_stub {b} (hrend : RefRend rend' rend orend) (hr : RefFns r' r o) :
    Ref (demangle_init_fini_stub rend' r' b) (demangle_init_fini_stub rend r b) (Undname.demangle_init_fini_stub orend o b) := by
  unfold demangle_init_fini_stub Undname.demangle_init_fini_stub; refs
macro_rules | `(tactic| ref_leaf) => `(tactic| (with_reducible refine ref_init_fini_stub ?_ ?_) <;> assumption)

theorem ref_vcall_thunk_node (hrend : RefRend rend' rend orend) (hr : RefFns r' r o) :
    Ref (demangle_vcall_thunk_node rend' r' ) (demangle_vcall_thunk_node rend r ) (Undname.demangle_vcall_thunk_node orend o ) := by
  unfold demangle_vcall_thunk_node Undname.demangle_vcall_thunk_node; refs
macro_rules | `(tactic| ref_leaf) => `(tactic| (with_reducible refine ref_vcall_thunk_node ?_ ?_) <;> assumption)

theorem ref_rtti_type_descriptor (hr : RefFns r' r o) :
    Ref (demangle_rtti_type_descriptor r' ) (demangle_rtti_type_descriptor r ) (Undname.demangle_rtti_type_descriptor o ) := by
  unfold demangle_rtti_type_descriptor Undname.demangle_rtti_type_descriptor; refs
macro_rules | `(tactic| ref_leaf) => `(tactic| (with_reducible refine ref_rtti_type_descriptor ?_) <;> assumption)

theorem ref_special_intrinsic {k} (hrend : RefRend rend' rend orend) (hr : RefFns r' r o) :
    Ref (special_intrinsic rend' r' k) (special_intrinsic rend r k) (Undname.special_intrinsic orend o k) := by
  cases k <;> unfold special_intrinsic Undname.special_intrinsic <;> dsimp only <;> refs
macro_rules | `(tactic| ref_leaf) => `(tactic| (with_reducible refine ref_special_intrinsic ?_ ?_) <;> assumption)

theorem ref_do_parse (hrend : RefRend rend' rend orend) (hr : RefFns r' r o) :
    Ref (do_parse rend' r' ) (do_parse rend r ) (Undname.do_parse orend o ) := by
  unfold do_parse Undname.do_parse; refs
macro_rules | `(tactic| ref_leaf) => `(tactic| (with_reducible refine ref_do_parse ?_ ?_) <;> assumption)

end

theorem ref_fns {rend' rend : Renderer} {orend : Undname.Renderer} (h : RefRend rend' rend orend) (n : Nat) :
    RefFns (fns rend' n) (fns rend n) (Undname.fns orend n) := by
  induction n with
  | zero => exact ⟨Ref.crash _, Ref.crash _, Ref.crash _⟩
  | succ n ih => exact ⟨ref_type h ih, ref_template_instantiation_name h ih, ref_do_parse h ih⟩

/-- The counting program computes what the model computes. -/
theorem demangle_fst (E : Env) (m : Text) : (demangle E m).1 = Undname.demangle E m := by
  have hp : (parse (render E) m).1 = Undname.parse (Undname.render E) m :=
    ((ref_fns (fun c k h => ref_render E c k h) (m.length + 1)).parse (Undname.initSt m)).1
  unfold demangle Undname.demangle demangle_into parse_into
  rw [← hp]
  rcases hr : parse (render E) m with ⟨x, n⟩
  cases x with
  | error e => cases e <;> rfl
  | ok x =>
    obtain ⟨h, s⟩ := x
    have hq := (ref_render E s.cache .ISymbolNode h []).1
    dsimp only [clear]
    rw [← hq]
    rcases hr : render E s.cache .ISymbolNode h [] with ⟨x, n⟩
    cases x with
    | error e => cases e <;> rfl
    | ok x => rfl

end Undname.Timed
