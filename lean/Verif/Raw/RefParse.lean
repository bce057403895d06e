/-
  The parser on bytes does what the parser on characters does: the recursive functions.
-/
import Verif.Raw.RefLeaf

namespace Undname.Raw
open Undname (Fail Error Crash Text SM)

/-! ### Recursive parsers -/

/-- Renderers that agree. -/
def ComRend (rend : Renderer) (orend : Undname.Renderer) : Prop := ∀ c k h, Com enc id (rend (nodes c) k h) (orend c k h)

theorem ComRend.at {rend orend} (h : ComRend rend orend) {s : Undname.St} {k x} : Com enc id (rend (ofSt s).cache k x) (orend s.cache k x) :=
  h s.cache k x

/-- Recursive functions that agree. -/
structure ComFns (r : Fns) (o : Undname.Fns) : Prop where
  type : ∀ {q}, Com ofSt id (r.type q) (o.type q)
  tmpl : ∀ {b}, Com ofSt id (r.tmpl b) (o.tmpl b)
  parse : Com ofSt id r.parse o.parse

macro_rules | `(tactic| com_leaf) => `(tactic| (with_reducible refine ComRend.at ?_) <;> assumption)
macro_rules | `(tactic| com_leaf) => `(tactic| (with_reducible refine ComFns.type ?_) <;> assumption)
macro_rules | `(tactic| com_leaf) => `(tactic| (with_reducible refine ComFns.tmpl ?_) <;> assumption)
macro_rules | `(tactic| com_leaf) => `(tactic| (with_reducible refine ComFns.parse ?_) <;> assumption)

section
variable {rend : Renderer} {orend : Undname.Renderer} {r : Fns} {o : Undname.Fns}

theorem com_memorize_identifier {i} (hrend : ComRend rend orend) :
    Com ofSt id (memorize_identifier rend i) (Undname.memorize_identifier orend i) := by
  unfold memorize_identifier Undname.memorize_identifier
  exact Com.bind Com.get fun s => Com.bind (com_runW_nil hrend.at) fun t => com_into com_memorize_string
macro_rules | `(tactic| com_leaf) => `(tactic| (with_reducible refine com_memorize_identifier ?_) <;> assumption)

theorem com_unqualified_type_name {m} (hr : ComFns r o) :
    Com ofSt id (demangle_unqualified_type_name r m) (Undname.demangle_unqualified_type_name o m) := by
  unfold demangle_unqualified_type_name Undname.demangle_unqualified_type_name; coms
macro_rules | `(tactic| com_leaf) => `(tactic| (with_reducible refine com_unqualified_type_name ?_) <;> assumption)

theorem com_unqualified_symbol_name {m} (hr : ComFns r o) :
    Com ofSt id (demangle_unqualified_symbol_name r m) (Undname.demangle_unqualified_symbol_name o m) := by
  unfold demangle_unqualified_symbol_name Undname.demangle_unqualified_symbol_name; coms
macro_rules | `(tactic| com_leaf) => `(tactic| (with_reducible refine com_unqualified_symbol_name ?_) <;> assumption)

theorem com_locally_scoped_name_piece (hrend : ComRend rend orend) (hr : ComFns r o) :
    Com ofSt id (demangle_locally_scoped_name_piece rend r ) (Undname.demangle_locally_scoped_name_piece orend o ) := by
  unfold demangle_locally_scoped_name_piece Undname.demangle_locally_scoped_name_piece
  refine Com.bindI com_expectChar fun _ => Com.bindI com_number fun p => ?_
  refine Com.ite (Com.errI _) (Com.bindI com_expectChar fun _ => Com.bindI hr.parse fun _ => Com.bind Com.get fun s => ?_)
  refine Com.bind (com_runW_nil (g := id) (Com.bindI (com_writeT _) fun _ => Com.bindI hrend.at fun _ => com_writeT _)) fun t => ?_
  exact com_into (com_intern rfl)
macro_rules | `(tactic| com_leaf) => `(tactic| (with_reducible refine com_locally_scoped_name_piece ?_ ?_) <;> assumption)

theorem com_name_scope_piece (hrend : ComRend rend orend) (hr : ComFns r o) :
    Com ofSt id (demangle_name_scope_piece rend r ) (Undname.demangle_name_scope_piece orend o ) := by
  unfold demangle_name_scope_piece Undname.demangle_name_scope_piece; coms
macro_rules | `(tactic| com_leaf) => `(tactic| (with_reducible refine com_name_scope_piece ?_ ?_) <;> assumption)

theorem com_scopeChainBody {l} (hrend : ComRend rend orend) (hr : ComFns r o) :
    Com ofSt id (scopeChainBody rend r l) (Undname.scopeChainBody orend o l) := by
  unfold scopeChainBody Undname.scopeChainBody; coms
macro_rules | `(tactic| com_leaf) => `(tactic| (with_reducible refine com_scopeChainBody ?_ ?_) <;> assumption)

theorem com_name_scope_chain {l} (hrend : ComRend rend orend) (hr : ComFns r o) :
    Com ofSt id (demangle_name_scope_chain rend r l) (Undname.demangle_name_scope_chain orend o l) := by
  unfold demangle_name_scope_chain Undname.demangle_name_scope_chain; coms
macro_rules | `(tactic| com_leaf) => `(tactic| (with_reducible refine com_name_scope_chain ?_ ?_) <;> assumption)

theorem com_fully_qualified_type_name (hrend : ComRend rend orend) (hr : ComFns r o) :
    Com ofSt id (demangle_fully_qualified_type_name rend r ) (Undname.demangle_fully_qualified_type_name orend o ) := by
  unfold demangle_fully_qualified_type_name Undname.demangle_fully_qualified_type_name; coms
macro_rules | `(tactic| com_leaf) => `(tactic| (with_reducible refine com_fully_qualified_type_name ?_ ?_) <;> assumption)

theorem com_class_of_structor {qn} :
    Com ofSt id (class_of_structor  qn) (Undname.class_of_structor  qn) := by
  unfold class_of_structor Undname.class_of_structor
  refine Com.bind com_resolveP fun q => ?_
  cases q <;> dsimp only [node] <;> try exact Com.crash _
  refine Com.bind com_resolveP fun q => ?_
  cases q <;> dsimp only [node] <;> try exact Com.crash _
  rename_i l
  refine Com.ite (Com.errI _) ?_
  cases l[l.length - 2]? <;> dsimp only <;> coms
macro_rules | `(tactic| com_leaf) => `(tactic| with_reducible exact com_class_of_structor)

theorem com_fully_qualified_symbol_name (hrend : ComRend rend orend) (hr : ComFns r o) :
    Com ofSt id (demangle_fully_qualified_symbol_name rend r ) (Undname.demangle_fully_qualified_symbol_name orend o ) := by
  unfold demangle_fully_qualified_symbol_name Undname.demangle_fully_qualified_symbol_name; coms
macro_rules | `(tactic| com_leaf) => `(tactic| (with_reducible refine com_fully_qualified_symbol_name ?_ ?_) <;> assumption)

theorem com_class_type (hrend : ComRend rend orend) (hr : ComFns r o) :
    Com ofSt id (demangle_class_type rend r ) (Undname.demangle_class_type orend o ) := by
  unfold demangle_class_type Undname.demangle_class_type
  refine Com.bindI com_expectAny fun f => ?_
  by_cases h1 : f = 'T'
  · subst h1; dsimp only; coms
  by_cases h2 : f = 'U'
  · subst h2; dsimp only; coms
  by_cases h3 : f = 'V'
  · subst h3; dsimp only; coms
  by_cases h4 : f = 'W'
  · subst h4; dsimp only; coms
  split <;> try contradiction
  coms
macro_rules | `(tactic| com_leaf) => `(tactic| (with_reducible refine com_class_type ?_ ?_) <;> assumption)

theorem com_custom_type (hr : ComFns r o) :
    Com ofSt id (demangle_custom_type r ) (Undname.demangle_custom_type o ) := by
  unfold demangle_custom_type Undname.demangle_custom_type; coms
macro_rules | `(tactic| com_leaf) => `(tactic| (with_reducible refine com_custom_type ?_) <;> assumption)

theorem com_paramListBody_push_param {t} :
    Com ofSt id (paramListBody.push_param  t) (Undname.paramListBody.push_param  t) := by
  refine Com.modify fun s => ?_
  show (if s.function_params.length < 10 then _ else _) = _
  split <;> rfl
macro_rules | `(tactic| com_leaf) => `(tactic| with_reducible exact com_paramListBody_push_param)

theorem com_paramListBody {l} (hr : ComFns r o) :
    Com ofSt id (paramListBody r l) (Undname.paramListBody o l) := by
  unfold paramListBody Undname.paramListBody
  refine Com.bindI com_firstIs fun _ => Com.ite (Com.pureI _) (Com.bindI com_is_empty fun _ => Com.ite (Com.errI _) ?_)
  refine Com.bindI com_tryIf fun n => ?_
  cases n with
  | none => dsimp only; coms
  | some n =>
    dsimp only
    exact Com.bind Com.get fun s => Com.bindI (Com.okOrI _ _) fun _ => Com.pureI _
macro_rules | `(tactic| com_leaf) => `(tactic| (with_reducible refine com_paramListBody ?_) <;> assumption)

theorem com_function_parameter_list (hr : ComFns r o) :
    Com ofSt id (demangle_function_parameter_list r ) (Undname.demangle_function_parameter_list o ) := by
  unfold demangle_function_parameter_list Undname.demangle_function_parameter_list; coms
macro_rules | `(tactic| com_leaf) => `(tactic| (with_reducible refine com_function_parameter_list ?_) <;> assumption)

theorem com_function_this_quals {b} :
    Com ofSt id (function_this_quals  b) (Undname.function_this_quals  b) := by
  unfold function_this_quals Undname.function_this_quals; coms
macro_rules | `(tactic| com_leaf) => `(tactic| with_reducible exact com_function_this_quals)

theorem com_function_type {b} (hr : ComFns r o) :
    Com ofSt id (demangle_function_type r b) (Undname.demangle_function_type o b) := by
  unfold demangle_function_type Undname.demangle_function_type; coms
macro_rules | `(tactic| com_leaf) => `(tactic| (with_reducible refine com_function_type ?_) <;> assumption)

theorem com_pointer_type (hr : ComFns r o) :
    Com ofSt id (demangle_pointer_type r ) (Undname.demangle_pointer_type o ) := by
  unfold demangle_pointer_type Undname.demangle_pointer_type; coms
macro_rules | `(tactic| com_leaf) => `(tactic| (with_reducible refine com_pointer_type ?_) <;> assumption)

theorem com_member_pointer_type (hrend : ComRend rend orend) (hr : ComFns r o) :
    Com ofSt id (demangle_member_pointer_type rend r ) (Undname.demangle_member_pointer_type orend o ) := by
  unfold demangle_member_pointer_type Undname.demangle_member_pointer_type; coms
macro_rules | `(tactic| com_leaf) => `(tactic| (with_reducible refine com_member_pointer_type ?_ ?_) <;> assumption)

theorem com_arrayDim {l} :
    Com ofSt id (arrayDim  l) (Undname.arrayDim  l) := by
  unfold arrayDim Undname.arrayDim; coms
macro_rules | `(tactic| com_leaf) => `(tactic| with_reducible exact com_arrayDim)

theorem com_array_type (hr : ComFns r o) :
    Com ofSt id (demangle_array_type r ) (Undname.demangle_array_type o ) := by
  unfold demangle_array_type Undname.demangle_array_type; coms
macro_rules | `(tactic| com_leaf) => `(tactic| (with_reducible refine com_array_type ?_) <;> assumption)

theorem com_type_quals {q} :
    Com ofSt id (type_quals  q) (Undname.type_quals  q) := by
  cases q <;> unfold type_quals Undname.type_quals <;> coms
macro_rules | `(tactic| com_leaf) => `(tactic| with_reducible exact com_type_quals)

theorem com_type_body (hrend : ComRend rend orend) (hr : ComFns r o) :
    Com ofSt id (demangle_type_body rend r ) (Undname.demangle_type_body orend o ) := by
  have e : Undname.demangle_type_body orend o = (do
    let b ← Undname.query Undname.MStr.is_tag_type
    if b then Undname.demangle_class_type orend o
    else do
      let b ← Undname.query Undname.MStr.is_pointer_type
      if b then do
        let k ← Undname.queryE Undname.MStr.is_member_pointer
        match k with
        | some true => Undname.demangle_member_pointer_type orend o
        | some false => Undname.demangle_pointer_type o
        | none => SM.err .InvalidType
      else do
        let b ← Undname.query Undname.MStr.is_array_type
        if b then Undname.demangle_array_type o
        else do
          let b ← Undname.query Undname.MStr.is_function_type
          if b then do
            let a8 ← Undname.tryStr c!"$$A8@@"
            if a8 then Undname.demangle_function_type o true
            else do
              let a6 ← Undname.tryStr c!"$$A6"
              if a6 then Undname.demangle_function_type o false else SM.err .InvalidType
          else do
            let b ← Undname.query Undname.MStr.is_custom_type
            if b then Undname.demangle_custom_type o else Undname.demangle_primitive_type) := by
    funext s
    unfold Undname.demangle_type_body
    have hq : ∀ {α β : Type} (f : Undname.MStr → α) (k : α → Undname.P β), (Undname.query f >>= k) s = k (f s.str) s := fun f k => rfl
    simp only [hq, id]
    split
    · rfl
    · simp only [hq]
      split
      · rfl
      · simp only [hq]
        split
        · rfl
        · simp only [hq]
          split
          · rfl
          · simp only [hq]
  rw [e]
  unfold demangle_type_body
  have h1 := @com_queryX _ _ _ MStr.is_tag_type_enc
  have h2 := @com_queryX _ _ _ MStr.is_pointer_type_enc
  have h3 := @com_queryX _ _ _ MStr.is_array_type_enc
  have h4 := @com_queryI _ _ _ MStr.is_function_type_enc
  have h5 := @com_queryX _ _ _ MStr.is_custom_type_enc
  coms
macro_rules | `(tactic| com_leaf) => `(tactic| (with_reducible refine com_type_body ?_ ?_) <;> assumption)

theorem com_type {q} (hrend : ComRend rend orend) (hr : ComFns r o) :
    Com ofSt id (demangle_type rend r q) (Undname.demangle_type orend o q) := by
  unfold demangle_type Undname.demangle_type; coms
macro_rules | `(tactic| com_leaf) => `(tactic| (with_reducible refine com_type ?_ ?_) <;> assumption)

theorem com_trySpecifier {b l} :
    Com ofSt id (trySpecifier  b l) (Undname.trySpecifier  b l) := by
  exact com_tryTable _
macro_rules | `(tactic| com_leaf) => `(tactic| with_reducible exact com_trySpecifier)

theorem com_offsets {n} :
    Com ofSt id (offsets  n) (Undname.offsets  n) := by
  unfold offsets Undname.offsets; coms
macro_rules | `(tactic| com_leaf) => `(tactic| with_reducible exact com_offsets)

theorem com_symbol_identifier {s} :
    Com ofSt id (symbol_identifier  s) (Undname.symbol_identifier  s) := by
  unfold symbol_identifier Undname.symbol_identifier
  refine Com.bind com_resolveP fun n => ?_
  rw [get_name_enc]
  cases n.get_name with
  | none => coms
  | some h =>
    dsimp only
    refine Com.bind Com.get fun s => ?_
    coms
macro_rules | `(tactic| com_leaf) => `(tactic| with_reducible exact com_symbol_identifier)

set_option maxHeartbeats 2000000 in
theorem com_template_member_pointer {c} (hrend : ComRend rend orend) (hr : ComFns r o) :
    Com ofSt id (template_member_pointer rend r c) (Undname.template_member_pointer orend o c) := by
  unfold template_member_pointer Undname.template_member_pointer
  refine Com.bindI com_starts fun q => ?_
  by_cases h1 : c = '1'
  · subst h1; dsimp only; coms
  by_cases h2 : c = 'H'
  · subst h2; dsimp only; coms
  by_cases h3 : c = 'I'
  · subst h3; dsimp only; coms
  by_cases h4 : c = 'J'
  · subst h4; dsimp only; coms
  split <;> try contradiction
  coms
macro_rules | `(tactic| com_leaf) => `(tactic| (with_reducible refine com_template_member_pointer ?_ ?_) <;> assumption)

theorem com_template_data_member_pointer {c} :
    Com ofSt id (template_data_member_pointer  c) (Undname.template_data_member_pointer  c) := by
  unfold template_data_member_pointer Undname.template_data_member_pointer
  by_cases h1 : c = 'G'
  · subst h1; dsimp only; coms
  by_cases h2 : c = 'F'
  · subst h2; dsimp only; coms
  split <;> try contradiction
  coms
macro_rules | `(tactic| com_leaf) => `(tactic| with_reducible exact com_template_data_member_pointer)

theorem com_template_argument {b} (hrend : ComRend rend orend) (hr : ComFns r o) :
    Com ofSt id (template_argument rend r b) (Undname.template_argument orend o b) := by
  unfold template_argument Undname.template_argument; coms
macro_rules | `(tactic| com_leaf) => `(tactic| (with_reducible refine com_template_argument ?_ ?_) <;> assumption)

theorem com_templateListBody {l} (hrend : ComRend rend orend) (hr : ComFns r o) :
    Com ofSt id (templateListBody rend r l) (Undname.templateListBody orend o l) := by
  unfold templateListBody Undname.templateListBody; coms
macro_rules | `(tactic| com_leaf) => `(tactic| (with_reducible refine com_templateListBody ?_ ?_) <;> assumption)

theorem com_template_parameter_list (hrend : ComRend rend orend) (hr : ComFns r o) :
    Com ofSt id (demangle_template_parameter_list rend r ) (Undname.demangle_template_parameter_list orend o ) := by
  unfold demangle_template_parameter_list Undname.demangle_template_parameter_list; coms
macro_rules | `(tactic| com_leaf) => `(tactic| (with_reducible refine com_template_parameter_list ?_ ?_) <;> assumption)

theorem com_template_instantiation_name {b} (hrend : ComRend rend orend) (hr : ComFns r o) :
    Com ofSt id (demangle_template_instantiation_name rend r b) (Undname.demangle_template_instantiation_name orend o b) := by
  unfold demangle_template_instantiation_name Undname.demangle_template_instantiation_name
  refine Com.bindI com_expectStr fun _ => Com.bind Com.get fun outer => Com.bindI (Com.modify fun s => rfl) fun _ =>
    Com.bindI (com_unqualified_symbol_name hr) fun i => Com.bindI (com_template_parameter_list hrend hr) fun _ =>
    Com.bindI (com_modifyNode (set_template_params_enc _)) fun _ => Com.bindI (Com.modify fun s => rfl) fun _ => Com.ite ?_ (Com.pureI _)
  refine Com.bind com_resolveP fun n => ?_
  rw [isConversionOrStructor_enc]
  coms
macro_rules | `(tactic| com_leaf) => `(tactic| (with_reducible refine com_template_instantiation_name ?_ ?_) <;> assumption)

theorem com_variable_quals {t} (hrend : ComRend rend orend) (hr : ComFns r o) :
    Com ofSt id (variable_quals rend r t) (Undname.variable_quals orend o t) := by
  unfold variable_quals Undname.variable_quals
  refine Com.bindI com_downcastP fun p => ?_
  cases p with
  | none => dsimp only; coms
  | some p =>
    dsimp only
    refine Com.bindI com_pointer_ext_qualifiers fun _ => Com.bind com_resolveP fun n => ?_
    cases n <;> dsimp only [node] <;> coms
macro_rules | `(tactic| com_leaf) => `(tactic| (with_reducible refine com_variable_quals ?_ ?_) <;> assumption)

theorem com_variable_encoding {t} (hrend : ComRend rend orend) (hr : ComFns r o) :
    Com ofSt id (demangle_variable_encoding rend r t) (Undname.demangle_variable_encoding orend o t) := by
  unfold demangle_variable_encoding Undname.demangle_variable_encoding; coms
macro_rules | `(tactic| com_leaf) => `(tactic| (with_reducible refine com_variable_encoding ?_ ?_) <;> assumption)

theorem com_thunk_adjust {t} :
    Com ofSt id (thunk_adjust  t) (Undname.thunk_adjust  t) := by
  unfold thunk_adjust Undname.thunk_adjust; coms
macro_rules | `(tactic| com_leaf) => `(tactic| with_reducible exact com_thunk_adjust)

theorem com_function_encoding (hr : ComFns r o) :
    Com ofSt id (demangle_function_encoding r ) (Undname.demangle_function_encoding o ) := by
  unfold demangle_function_encoding Undname.demangle_function_encoding
  refine Com.bindI com_tryStr fun _ => Com.bindI com_is_empty fun _ => Com.ite (Com.errI _) (Com.bindI com_function_class fun _ => ?_)
  refine Com.bindI com_thunk_adjust fun ttn => ?_
  cases ttn with
  | none => dsimp only; coms
  | some a =>
    dsimp only
    refine Com.ite (Com.bindI (com_intern rfl) fun _ => Com.bind com_resolveP fun n => ?_)
      (Com.bindI (com_function_type hr) fun _ => Com.bind com_resolveP fun n => ?_)
    all_goals (rw [asFuncSig_enc]; coms)
macro_rules | `(tactic| com_leaf) => `(tactic| (with_reducible refine com_function_encoding ?_) <;> assumption)

theorem com_function_return_type {f} :
    Com ofSt id (function_return_type  f) (Undname.function_return_type  f) := by
  unfold function_return_type Undname.function_return_type
  refine Com.bind com_resolveP fun n => ?_
  cases n <;> dsimp only [node] <;> try exact Com.crash _
  refine Com.bind com_resolveP fun n => ?_
  rw [asFuncSig_enc]
  exact Com.pureI _
macro_rules | `(tactic| com_leaf) => `(tactic| with_reducible exact com_function_return_type)

theorem com_encoded_symbol {n} (hrend : ComRend rend orend) (hr : ComFns r o) :
    Com ofSt id (demangle_encoded_symbol rend r n) (Undname.demangle_encoded_symbol orend o n) := by
  unfold demangle_encoded_symbol Undname.demangle_encoded_symbol
  refine Com.bindI com_first_char fun _ => Com.bindI (Com.okOrI _ _) fun _ => Com.ite (by coms) ?_
  refine Com.bindI (com_function_encoding hr) fun _ => Com.bindI com_function_return_type fun _ => Com.bind Com.get fun s => ?_
  coms
macro_rules | `(tactic| com_leaf) => `(tactic| (with_reducible refine com_encoded_symbol ?_ ?_) <;> assumption)

theorem com_declarator (hrend : ComRend rend orend) (hr : ComFns r o) :
    Com ofSt id (demangle_declarator rend r ) (Undname.demangle_declarator orend o ) := by
  unfold demangle_declarator Undname.demangle_declarator
  refine Com.bindI (com_fully_qualified_symbol_name hrend hr) fun _ => Com.bindI (com_encoded_symbol hrend hr) fun _ =>
    Com.bindI (com_modifyNode (set_name_enc _)) fun _ => Com.bind Com.get fun s => Com.bindI com_unqualified fun _ =>
    Com.bindI (Com.okOrI _ _) fun _ => Com.bind com_resolveP fun n => ?_
  rw [isUntypedConversion_enc]
  coms
macro_rules | `(tactic| com_leaf) => `(tactic| (with_reducible refine com_declarator ?_ ?_) <;> assumption)

theorem com_typeinfo_name (hr : ComFns r o) :
    Com ofSt id (demangle_typeinfo_name r ) (Undname.demangle_typeinfo_name o ) := by
  unfold demangle_typeinfo_name Undname.demangle_typeinfo_name; coms
macro_rules | `(tactic| com_leaf) => `(tactic| (with_reducible refine com_typeinfo_name ?_) <;> assumption)

theorem com_special_table_symbol_node {k} (hrend : ComRend rend orend) (hr : ComFns r o) :
    Com ofSt id (demangle_special_table_symbol_node rend r k) (Undname.demangle_special_table_symbol_node orend o k) := by
  unfold demangle_special_table_symbol_node Undname.demangle_special_table_symbol_node; coms
macro_rules | `(tactic| com_leaf) => `(tactic| (with_reducible refine com_special_table_symbol_node ?_ ?_) <;> assumption)

theorem com_local_static_guard {k} (hrend : ComRend rend orend) (hr : ComFns r o) :
    Com ofSt id (demangle_local_static_guard rend r k) (Undname.demangle_local_static_guard orend o k) := by
  unfold demangle_local_static_guard Undname.demangle_local_static_guard; coms
macro_rules | `(tactic| com_leaf) => `(tactic| (with_reducible refine com_local_static_guard ?_ ?_) <;> assumption)

theorem com_untyped_variable {k} (hrend : ComRend rend orend) (hr : ComFns r o) :
    Com ofSt id (demangle_untyped_variable rend r k) (Undname.demangle_untyped_variable orend o k) := by
  unfold demangle_untyped_variable Undname.demangle_untyped_variable; coms
macro_rules | `(tactic| com_leaf) => `(tactic| (with_reducible refine com_untyped_variable ?_ ?_) <;> assumption)

theorem com_rtti_base_class_descriptor_node_u32 :
    Com ofSt id (demangle_rtti_base_class_descriptor_node.u32  ) (Undname.demangle_rtti_base_class_descriptor_node.u32  ) := by
  unfold demangle_rtti_base_class_descriptor_node.u32 Undname.demangle_rtti_base_class_descriptor_node.u32; coms
macro_rules | `(tactic| com_leaf) => `(tactic| with_reducible exact com_rtti_base_class_descriptor_node_u32)

theorem com_rtti_base_class_descriptor_node (hrend : ComRend rend orend) (hr : ComFns r o) :
    Com ofSt id (demangle_rtti_base_class_descriptor_node rend r ) (Undname.demangle_rtti_base_class_descriptor_node orend o ) := by
  unfold demangle_rtti_base_class_descriptor_node Undname.demangle_rtti_base_class_descriptor_node; coms
macro_rules | `(tactic| com_leaf) => `(tactic| (with_reducible refine com_rtti_base_class_descriptor_node ?_ ?_) <;> assumption)

theorem com_init_fini_stub {b} (hrend : ComRend rend orend) (hr : ComFns r o) :
    Com ofSt id (demangle_init_fini_stub rend r b) (Undname.demangle_init_fini_stub orend o b) := by
  unfold demangle_init_fini_stub Undname.demangle_init_fini_stub
  refine Com.bindI com_tryChar fun _ => Com.bindI (com_declarator hrend hr) fun _ => Com.bindI com_downcastP fun v => ?_
  cases v with
  | some v => dsimp only; coms
  | none =>
    dsimp only
    refine Com.bindI com_downcastP fun f => ?_
    cases f with
    | none => coms
    | some f =>
      dsimp only
      refine Com.ite (Com.errI _) (Com.bind com_resolveP fun n => ?_)
      rw [get_name_enc]
      coms
macro_rules | `(tactic| com_leaf) => `(tactic| (with_reducible refine com_init_fini_stub ?_ ?_) <;> assumption)

theorem com_vcall_thunk_node (hrend : ComRend rend orend) (hr : ComFns r o) :
    Com ofSt id (demangle_vcall_thunk_node rend r ) (Undname.demangle_vcall_thunk_node orend o ) := by
  unfold demangle_vcall_thunk_node Undname.demangle_vcall_thunk_node; coms
macro_rules | `(tactic| com_leaf) => `(tactic| (with_reducible refine com_vcall_thunk_node ?_ ?_) <;> assumption)

theorem com_rtti_type_descriptor (hr : ComFns r o) :
    Com ofSt id (demangle_rtti_type_descriptor r ) (Undname.demangle_rtti_type_descriptor o ) := by
  unfold demangle_rtti_type_descriptor Undname.demangle_rtti_type_descriptor
  exact Com.bindI hr.type fun _ => Com.bindI com_expectStr fun _ => Com.bindI com_is_empty fun _ =>
    Com.ite (Com.bindI com_synthesize_from_name fun _ => com_intern rfl) (Com.errI _)
macro_rules | `(tactic| com_leaf) => `(tactic| (with_reducible refine com_rtti_type_descriptor ?_) <;> assumption)

theorem com_special_intrinsic {k} (hrend : ComRend rend orend) (hr : ComFns r o) :
    Com ofSt id (special_intrinsic rend r k) (Undname.special_intrinsic orend o k) := by
  cases k <;> unfold special_intrinsic Undname.special_intrinsic <;> dsimp only <;> coms
macro_rules | `(tactic| com_leaf) => `(tactic| (with_reducible refine com_special_intrinsic ?_ ?_) <;> assumption)

theorem com_do_parse (hrend : ComRend rend orend) (hr : ComFns r o) :
    Com ofSt id (do_parse rend r ) (Undname.do_parse orend o ) := by
  unfold do_parse Undname.do_parse; coms
macro_rules | `(tactic| com_leaf) => `(tactic| (with_reducible refine com_do_parse ?_ ?_) <;> assumption)

end

theorem com_fns {rend : Renderer} {orend : Undname.Renderer} (h : ComRend rend orend) {n n' : Nat} (hn : n ≤ n') :
    ComFns (fns rend n') (Undname.fns orend n) := by
  induction n generalizing n' with
  | zero => exact ⟨Com.crash _, Com.crash _, Com.crash _⟩
  | succ n ih =>
    cases n' with
    | zero => omega
    | succ n' =>
      have ih := ih (n' := n') (by omega)
      exact ⟨com_type h ih, com_template_instantiation_name h ih, com_do_parse h ih⟩

end Undname.Raw
