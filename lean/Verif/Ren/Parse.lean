/-
  On the renamed input the parser does, renamed, what it does: the recursive functions.
-/
import Verif.Ren.Leaf

namespace Undname.Ren
variable {ρ : Renaming}

theorem com_internL {t : Text} (ht : lowText t = true) : Com (renS ρ) id (intern (.NamedIdentifier none t)) (intern (.NamedIdentifier none t)) :=
  com_intern (congrArg (Node.NamedIdentifier none) (ren_low ht).symm)
macro_rules | `(tactic| com_leaf) => `(tactic| with_reducible exact com_internL (by decide))
theorem com_synthesizeL {t : Text} (ht : lowText t = true) : Com (renS ρ) id (synthesize_from_name t) (synthesize_from_name t) := by
  have := com_synthesize_from_name (ρ := ρ) (i := t)
  rw [ren_low ht] at this; exact this
macro_rules | `(tactic| com_leaf) => `(tactic| with_reducible exact com_synthesizeL (by decide))
macro_rules | `(tactic| com_leaf) => `(tactic| with_reducible exact com_tryTable _ (by decide))

/-! ### Recursive parsers -/

/-- Renderers that agree. -/
def ComRend (ρ : Renaming) (rend : Renderer) (orend : Renderer) : Prop := ∀ c k h, Com (ren ρ) id (rend ((renC ρ) c) k h) (orend c k h)

theorem ComRend.at {rend orend} (h : ComRend ρ rend orend) {s : St} {k x} : Com (ren ρ) id (rend ((renS ρ) s).cache k x) (orend s.cache k x) :=
  h s.cache k x

/-- Recursive functions that agree. -/
structure ComFns (ρ : Renaming) (r : Fns) (o : Fns) : Prop where
  type : ∀ {q}, Com (renS ρ) id (r.type q) (o.type q)
  tmpl : ∀ {b}, Com (renS ρ) id (r.tmpl b) (o.tmpl b)
  parse : Com (renS ρ) id r.parse o.parse

macro_rules | `(tactic| com_leaf) => `(tactic| (with_reducible refine ComRend.at ?_) <;> assumption)
macro_rules | `(tactic| com_leaf) => `(tactic| (with_reducible refine ComFns.type ?_) <;> assumption)
macro_rules | `(tactic| com_leaf) => `(tactic| (with_reducible refine ComFns.tmpl ?_) <;> assumption)
macro_rules | `(tactic| com_leaf) => `(tactic| (with_reducible refine ComFns.parse ?_) <;> assumption)

section
variable {rend : Renderer} {orend : Renderer} {r : Fns} {o : Fns}

theorem com_memorize_identifier {i} (hrend : ComRend ρ rend orend) :
    Com (renS ρ) id (memorize_identifier rend i) (memorize_identifier orend i) := by
  unfold memorize_identifier
  exact Com.bind Com.get fun s => Com.bind (com_runW_nil hrend.at) fun t => com_memorize_string
macro_rules | `(tactic| com_leaf) => `(tactic| (with_reducible refine com_memorize_identifier ?_) <;> assumption)

theorem com_unqualified_type_name {m} (hr : ComFns ρ r o) :
    Com (renS ρ) id (demangle_unqualified_type_name r m) (demangle_unqualified_type_name o m) := by
  unfold demangle_unqualified_type_name; coms
macro_rules | `(tactic| com_leaf) => `(tactic| (with_reducible refine com_unqualified_type_name ?_) <;> assumption)

theorem com_unqualified_symbol_name {m} (hr : ComFns ρ r o) :
    Com (renS ρ) id (demangle_unqualified_symbol_name r m) (demangle_unqualified_symbol_name o m) := by
  unfold demangle_unqualified_symbol_name; coms
macro_rules | `(tactic| com_leaf) => `(tactic| (with_reducible refine com_unqualified_symbol_name ?_) <;> assumption)

theorem com_locally_scoped_name_piece (hrend : ComRend ρ rend orend) (hr : ComFns ρ r o) :
    Com (renS ρ) id (demangle_locally_scoped_name_piece rend r ) (demangle_locally_scoped_name_piece orend o ) := by
  unfold demangle_locally_scoped_name_piece
  refine Com.bindI (com_expectChar (by decide)) fun _ => Com.bindI com_number fun p => ?_
  refine Com.ite (Com.errI _) (Com.bindI (com_expectChar (by decide)) fun _ => Com.bindI hr.parse fun _ => Com.bind Com.get fun s => ?_)
  refine Com.bind (com_runW_nil (g := id) (Com.bindI (com_write _) fun _ => Com.bindI hrend.at fun _ => com_write _ (by low_text))) fun t => ?_
  exact com_intern rfl
macro_rules | `(tactic| com_leaf) => `(tactic| (with_reducible refine com_locally_scoped_name_piece ?_ ?_) <;> assumption)

theorem com_name_scope_piece (hrend : ComRend ρ rend orend) (hr : ComFns ρ r o) :
    Com (renS ρ) id (demangle_name_scope_piece rend r ) (demangle_name_scope_piece orend o ) := by
  unfold demangle_name_scope_piece; coms
macro_rules | `(tactic| com_leaf) => `(tactic| (with_reducible refine com_name_scope_piece ?_ ?_) <;> assumption)

theorem com_scopeChainBody {l} (hrend : ComRend ρ rend orend) (hr : ComFns ρ r o) :
    Com (renS ρ) id (scopeChainBody rend r l) (scopeChainBody orend o l) := by
  unfold scopeChainBody; coms
macro_rules | `(tactic| com_leaf) => `(tactic| (with_reducible refine com_scopeChainBody ?_ ?_) <;> assumption)

theorem com_name_scope_chain {l} (hrend : ComRend ρ rend orend) (hr : ComFns ρ r o) :
    Com (renS ρ) id (demangle_name_scope_chain rend r l) (demangle_name_scope_chain orend o l) := by
  unfold demangle_name_scope_chain; coms
macro_rules | `(tactic| com_leaf) => `(tactic| (with_reducible refine com_name_scope_chain ?_ ?_) <;> assumption)

theorem com_fully_qualified_type_name (hrend : ComRend ρ rend orend) (hr : ComFns ρ r o) :
    Com (renS ρ) id (demangle_fully_qualified_type_name rend r ) (demangle_fully_qualified_type_name orend o ) := by
  unfold demangle_fully_qualified_type_name; coms
macro_rules | `(tactic| com_leaf) => `(tactic| (with_reducible refine com_fully_qualified_type_name ?_ ?_) <;> assumption)

theorem com_class_of_structor {qn} :
    Com (renS ρ) id (class_of_structor  qn) (class_of_structor  qn) := by
  unfold class_of_structor
  refine Com.bind com_resolveP fun q => ?_
  cases q <;> dsimp only [renN] <;> try exact Com.crash _
  refine Com.bind com_resolveP fun q => ?_
  cases q <;> dsimp only [renN] <;> try exact Com.crash _
  rename_i l
  refine Com.ite (Com.errI _) ?_
  cases l[l.length - 2]? <;> dsimp only <;> coms
macro_rules | `(tactic| com_leaf) => `(tactic| with_reducible exact com_class_of_structor)

theorem com_fully_qualified_symbol_name (hrend : ComRend ρ rend orend) (hr : ComFns ρ r o) :
    Com (renS ρ) id (demangle_fully_qualified_symbol_name rend r ) (demangle_fully_qualified_symbol_name orend o ) := by
  unfold demangle_fully_qualified_symbol_name; coms
macro_rules | `(tactic| com_leaf) => `(tactic| (with_reducible refine com_fully_qualified_symbol_name ?_ ?_) <;> assumption)

theorem com_class_type (hrend : ComRend ρ rend orend) (hr : ComFns ρ r o) :
    Com (renS ρ) id (demangle_class_type rend r ) (demangle_class_type orend o ) := by
  unfold demangle_class_type
  refine Com.bindC com_expectAny (fun f => ?_) fun c d hc hd => ?_
  · by_cases h1 : f = 'T'
    · subst h1; dsimp only; coms
    by_cases h2 : f = 'U'
    · subst h2; dsimp only; coms
    by_cases h3 : f = 'V'
    · subst h3; dsimp only; coms
    by_cases h4 : f = 'W'
    · subst h4; dsimp only; coms
    split <;> try contradiction
    coms
  · split <;> first | exact absurd hd (by decide) | skip
    split <;> first | exact absurd hc (by decide) | skip
    exact Com.errI _
macro_rules | `(tactic| com_leaf) => `(tactic| (with_reducible refine com_class_type ?_ ?_) <;> assumption)

theorem com_custom_type (hr : ComFns ρ r o) :
    Com (renS ρ) id (demangle_custom_type r ) (demangle_custom_type o ) := by
  unfold demangle_custom_type; coms
macro_rules | `(tactic| com_leaf) => `(tactic| (with_reducible refine com_custom_type ?_) <;> assumption)

theorem com_paramListBody_push_param {t} :
    Com (renS ρ) id (paramListBody.push_param  t) (paramListBody.push_param  t) := by
  refine Com.modify fun s => ?_
  show (if s.function_params.length < 10 then _ else _) = _
  split <;> rfl
macro_rules | `(tactic| com_leaf) => `(tactic| with_reducible exact com_paramListBody_push_param)

theorem com_paramListBody {l} (hr : ComFns ρ r o) :
    Com (renS ρ) id (paramListBody r l) (paramListBody o l) := by
  unfold paramListBody
  refine Com.bindI (com_firstIs ((Low.beq' '@').or (Low.beq' 'Z'))) fun _ => Com.ite (Com.pureI _) (Com.bindI com_is_empty fun _ => Com.ite (Com.errI _) ?_)
  refine Com.bindI (com_tryIf isDigit_low) fun n => ?_
  cases n with
  | none => dsimp only; coms
  | some n =>
    dsimp only
    exact Com.bind Com.get fun s => Com.bindI (Com.okOrI _ _) fun _ => Com.pureI _
macro_rules | `(tactic| com_leaf) => `(tactic| (with_reducible refine com_paramListBody ?_) <;> assumption)

theorem com_function_parameter_list (hr : ComFns ρ r o) :
    Com (renS ρ) id (demangle_function_parameter_list r ) (demangle_function_parameter_list o ) := by
  unfold demangle_function_parameter_list; coms
macro_rules | `(tactic| com_leaf) => `(tactic| (with_reducible refine com_function_parameter_list ?_) <;> assumption)

theorem com_function_this_quals {b} :
    Com (renS ρ) id (function_this_quals  b) (function_this_quals  b) := by
  unfold function_this_quals; coms
macro_rules | `(tactic| com_leaf) => `(tactic| with_reducible exact com_function_this_quals)

theorem com_function_type {b} (hr : ComFns ρ r o) :
    Com (renS ρ) id (demangle_function_type r b) (demangle_function_type o b) := by
  unfold demangle_function_type; coms
macro_rules | `(tactic| com_leaf) => `(tactic| (with_reducible refine com_function_type ?_) <;> assumption)

theorem com_pointer_type (hr : ComFns ρ r o) :
    Com (renS ρ) id (demangle_pointer_type r ) (demangle_pointer_type o ) := by
  unfold demangle_pointer_type; coms
macro_rules | `(tactic| com_leaf) => `(tactic| (with_reducible refine com_pointer_type ?_) <;> assumption)

theorem com_member_pointer_type (hrend : ComRend ρ rend orend) (hr : ComFns ρ r o) :
    Com (renS ρ) id (demangle_member_pointer_type rend r ) (demangle_member_pointer_type orend o ) := by
  unfold demangle_member_pointer_type; coms
macro_rules | `(tactic| com_leaf) => `(tactic| (with_reducible refine com_member_pointer_type ?_ ?_) <;> assumption)

theorem com_arrayDim {l} :
    Com (renS ρ) id (arrayDim  l) (arrayDim  l) := by
  unfold arrayDim; coms
macro_rules | `(tactic| com_leaf) => `(tactic| with_reducible exact com_arrayDim)

theorem com_array_type (hr : ComFns ρ r o) :
    Com (renS ρ) id (demangle_array_type r ) (demangle_array_type o ) := by
  unfold demangle_array_type; coms
macro_rules | `(tactic| com_leaf) => `(tactic| (with_reducible refine com_array_type ?_) <;> assumption)

theorem com_type_quals {q} :
    Com (renS ρ) id (type_quals  q) (type_quals  q) := by
  cases q <;> unfold type_quals <;> coms
macro_rules | `(tactic| com_leaf) => `(tactic| with_reducible exact com_type_quals)

theorem com_type_body (hrend : ComRend ρ rend orend) (hr : ComFns ρ r o) :
    Com (renS ρ) id (demangle_type_body rend r ) (demangle_type_body orend o ) := by
  unfold demangle_type_body
  refine Com.bind (com_queryG (g := renM ρ) fun _ => rfl) fun m => ?_
  rw [MStr.is_tag_type_ren, MStr.is_pointer_type_ren, MStr.is_array_type_ren, MStr.is_function_type_ren, MStr.is_custom_type_ren]
  coms
macro_rules | `(tactic| com_leaf) => `(tactic| (with_reducible refine com_type_body ?_ ?_) <;> assumption)

theorem com_type {q} (hrend : ComRend ρ rend orend) (hr : ComFns ρ r o) :
    Com (renS ρ) id (demangle_type rend r q) (demangle_type orend o q) := by
  unfold demangle_type; coms
macro_rules | `(tactic| com_leaf) => `(tactic| (with_reducible refine com_type ?_ ?_) <;> assumption)

theorem com_trySpecifier {b : Bool} {l : List Char} (hl : l.all (fun c => c.toNat < 256) = true) :
    Com (renS ρ) id (trySpecifier  b l) (trySpecifier  b l) := by
  unfold trySpecifier
  refine com_tryTable _ ?_
  induction l with
  | nil => rfl
  | cons x xs ih =>
    simp only [List.all_cons, Bool.and_eq_true] at hl
    rw [List.map_cons, List.all_cons, ih hl.2, Bool.and_true]
    cases b
    · show ((decide ('$'.toNat < 256)) && (decide (x.toNat < 256) && true)) = true
      rw [hl.1]; rfl
    · show (decide (x.toNat < 256) && true) = true
      rw [hl.1]; rfl
macro_rules | `(tactic| com_leaf) => `(tactic| with_reducible exact com_trySpecifier (by decide))

theorem com_offsets {n} :
    Com (renS ρ) id (offsets  n) (offsets  n) := by
  unfold offsets; coms
macro_rules | `(tactic| com_leaf) => `(tactic| with_reducible exact com_offsets)

theorem com_symbol_identifier {s} :
    Com (renS ρ) id (symbol_identifier  s) (symbol_identifier  s) := by
  unfold symbol_identifier
  refine Com.bind com_resolveP fun n => ?_
  rw [get_name_ren]
  cases n.get_name with
  | none => coms
  | some h =>
    dsimp only
    refine Com.bind Com.get fun s => ?_
    coms
macro_rules | `(tactic| com_leaf) => `(tactic| with_reducible exact com_symbol_identifier)

set_option maxHeartbeats 2000000 in
theorem com_template_member_pointer {c} (hrend : ComRend ρ rend orend) (hr : ComFns ρ r o) :
    Com (renS ρ) id (template_member_pointer rend r c) (template_member_pointer orend o c) := by
  unfold template_member_pointer
  refine Com.bindI (com_starts (by decide)) fun q => ?_
  by_cases h1 : c = '1'
  · subst h1; dsimp only; coms
  by_cases h2 : c = 'H'
  · subst h2; dsimp only; coms
  by_cases h3 : c = 'I'
  · subst h3; dsimp only; coms
  by_cases h4 : c = 'J'
  · subst h4; dsimp only; coms
  split <;> try contradiction
  coms
macro_rules | `(tactic| com_leaf) => `(tactic| (with_reducible refine com_template_member_pointer ?_ ?_) <;> assumption)

theorem com_template_data_member_pointer {c} :
    Com (renS ρ) id (template_data_member_pointer  c) (template_data_member_pointer  c) := by
  unfold template_data_member_pointer
  by_cases h1 : c = 'G'
  · subst h1; dsimp only; coms
  by_cases h2 : c = 'F'
  · subst h2; dsimp only; coms
  split <;> try contradiction
  coms
macro_rules | `(tactic| com_leaf) => `(tactic| with_reducible exact com_template_data_member_pointer)

theorem com_template_argument {b} (hrend : ComRend ρ rend orend) (hr : ComFns ρ r o) :
    Com (renS ρ) id (template_argument rend r b) (template_argument orend o b) := by
  unfold template_argument; coms
macro_rules | `(tactic| com_leaf) => `(tactic| (with_reducible refine com_template_argument ?_ ?_) <;> assumption)

theorem com_templateListBody {l} (hrend : ComRend ρ rend orend) (hr : ComFns ρ r o) :
    Com (renS ρ) id (templateListBody rend r l) (templateListBody orend o l) := by
  unfold templateListBody; coms
macro_rules | `(tactic| com_leaf) => `(tactic| (with_reducible refine com_templateListBody ?_ ?_) <;> assumption)

theorem com_template_parameter_list (hrend : ComRend ρ rend orend) (hr : ComFns ρ r o) :
    Com (renS ρ) id (demangle_template_parameter_list rend r ) (demangle_template_parameter_list orend o ) := by
  unfold demangle_template_parameter_list; coms
macro_rules | `(tactic| com_leaf) => `(tactic| (with_reducible refine com_template_parameter_list ?_ ?_) <;> assumption)

theorem com_template_instantiation_name {b} (hrend : ComRend ρ rend orend) (hr : ComFns ρ r o) :
    Com (renS ρ) id (demangle_template_instantiation_name rend r b) (demangle_template_instantiation_name orend o b) := by
  unfold demangle_template_instantiation_name
  refine Com.bindI (com_expectStr (by decide)) fun _ => Com.bind Com.get fun outer => Com.bindI (Com.modify fun s => rfl) fun _ =>
    Com.bindI (com_unqualified_symbol_name hr) fun i => Com.bindI (com_template_parameter_list hrend hr) fun _ =>
    Com.bindI (com_modifyNode (set_template_params_ren _)) fun _ => Com.bindI (Com.modify fun s => rfl) fun _ => Com.ite ?_ (Com.pureI _)
  refine Com.bind com_resolveP fun n => ?_
  rw [isConversionOrStructor_ren]
  coms
macro_rules | `(tactic| com_leaf) => `(tactic| (with_reducible refine com_template_instantiation_name ?_ ?_) <;> assumption)

theorem com_variable_quals {t} (hrend : ComRend ρ rend orend) (hr : ComFns ρ r o) :
    Com (renS ρ) id (variable_quals rend r t) (variable_quals orend o t) := by
  unfold variable_quals
  refine Com.bindI com_downcastP fun p => ?_
  cases p with
  | none => dsimp only; coms
  | some p =>
    dsimp only
    refine Com.bindI com_pointer_ext_qualifiers fun _ => Com.bind com_resolveP fun n => ?_
    cases n <;> dsimp only [renN] <;> coms
macro_rules | `(tactic| com_leaf) => `(tactic| (with_reducible refine com_variable_quals ?_ ?_) <;> assumption)

theorem com_variable_encoding {t} (hrend : ComRend ρ rend orend) (hr : ComFns ρ r o) :
    Com (renS ρ) id (demangle_variable_encoding rend r t) (demangle_variable_encoding orend o t) := by
  unfold demangle_variable_encoding; coms
macro_rules | `(tactic| com_leaf) => `(tactic| (with_reducible refine com_variable_encoding ?_ ?_) <;> assumption)

theorem com_thunk_adjust {t} :
    Com (renS ρ) id (thunk_adjust  t) (thunk_adjust  t) := by
  unfold thunk_adjust; coms
macro_rules | `(tactic| com_leaf) => `(tactic| with_reducible exact com_thunk_adjust)

theorem com_function_encoding (hr : ComFns ρ r o) :
    Com (renS ρ) id (demangle_function_encoding r ) (demangle_function_encoding o ) := by
  unfold demangle_function_encoding
  refine Com.bindI (com_tryStr (by decide)) fun _ => Com.bindI com_is_empty fun _ => Com.ite (Com.errI _) (Com.bindI com_function_class fun _ => ?_)
  refine Com.bindI com_thunk_adjust fun ttn => ?_
  cases ttn with
  | none => dsimp only; coms
  | some a =>
    dsimp only
    refine Com.ite (Com.bindI (com_intern rfl) fun _ => Com.bind com_resolveP fun n => ?_)
      (Com.bindI (com_function_type hr) fun _ => Com.bind com_resolveP fun n => ?_)
    all_goals (rw [asFuncSig_ren]; coms)
macro_rules | `(tactic| com_leaf) => `(tactic| (with_reducible refine com_function_encoding ?_) <;> assumption)

theorem com_function_return_type {f} :
    Com (renS ρ) id (function_return_type  f) (function_return_type  f) := by
  unfold function_return_type
  refine Com.bind com_resolveP fun n => ?_
  cases n <;> dsimp only [renN] <;> try exact Com.crash _
  refine Com.bind com_resolveP fun n => ?_
  rw [asFuncSig_ren]
  exact Com.pureI _
macro_rules | `(tactic| com_leaf) => `(tactic| with_reducible exact com_function_return_type)

theorem com_encoded_symbol {n} (hrend : ComRend ρ rend orend) (hr : ComFns ρ r o) :
    Com (renS ρ) id (demangle_encoded_symbol rend r n) (demangle_encoded_symbol orend o n) := by
  unfold demangle_encoded_symbol
  refine Com.bind com_first_char fun _ => Com.bind (Com.okOrG _ _) fun c => ?_
  simp only [f_beq (ρ := ρ) (show '0'.toNat < 256 by decide), f_beq (ρ := ρ) (show '1'.toNat < 256 by decide), f_beq (ρ := ρ) (show '2'.toNat < 256 by decide), f_beq (ρ := ρ) (show '3'.toNat < 256 by decide), f_beq (ρ := ρ) (show '4'.toNat < 256 by decide)]
  refine Com.ite (by coms) ?_
  refine Com.bindI (com_function_encoding hr) fun _ => Com.bindI com_function_return_type fun _ => Com.bind Com.get fun s => ?_
  coms
macro_rules | `(tactic| com_leaf) => `(tactic| (with_reducible refine com_encoded_symbol ?_ ?_) <;> assumption)

theorem com_declarator (hrend : ComRend ρ rend orend) (hr : ComFns ρ r o) :
    Com (renS ρ) id (demangle_declarator rend r ) (demangle_declarator orend o ) := by
  unfold demangle_declarator
  refine Com.bindI (com_fully_qualified_symbol_name hrend hr) fun _ => Com.bindI (com_encoded_symbol hrend hr) fun _ =>
    Com.bindI (com_modifyNode (set_name_ren _)) fun _ => Com.bind Com.get fun s => Com.bindI com_unqualified fun _ =>
    Com.bindI (Com.okOrI _ _) fun _ => Com.bind com_resolveP fun n => ?_
  rw [isUntypedConversion_ren]
  coms
macro_rules | `(tactic| com_leaf) => `(tactic| (with_reducible refine com_declarator ?_ ?_) <;> assumption)

theorem com_typeinfo_name (hr : ComFns ρ r o) :
    Com (renS ρ) id (demangle_typeinfo_name r ) (demangle_typeinfo_name o ) := by
  unfold demangle_typeinfo_name; coms
macro_rules | `(tactic| com_leaf) => `(tactic| (with_reducible refine com_typeinfo_name ?_) <;> assumption)

theorem com_special_table_symbol_node {k} (hrend : ComRend ρ rend orend) (hr : ComFns ρ r o) :
    Com (renS ρ) id (demangle_special_table_symbol_node rend r k) (demangle_special_table_symbol_node orend o k) := by
  unfold demangle_special_table_symbol_node
  cases hk : specialTableName k with
  | none => exact fun s => rfl
  | some t =>
    have ht : lowText t = true := by
      cases k <;> simp only [specialTableName, Option.some.injEq] at hk <;> first | (subst hk; decide) | cases hk
    have h1 := com_internL (ρ := ρ) ht
    have h2 := com_tryIf (ρ := ρ) ((Low.beq' '6').or (Low.beq' '7'))
    show Com (renS ρ) id (SM.bind (SM.pure t) _) (SM.bind (SM.pure t) _)
    show Com (renS ρ) id (intern _ >>= _) (intern _ >>= _)
    coms
macro_rules | `(tactic| com_leaf) => `(tactic| (with_reducible refine com_special_table_symbol_node ?_ ?_) <;> assumption)

theorem com_local_static_guard {k} (hrend : ComRend ρ rend orend) (hr : ComFns ρ r o) :
    Com (renS ρ) id (demangle_local_static_guard rend r k) (demangle_local_static_guard orend o k) := by
  unfold demangle_local_static_guard; coms
macro_rules | `(tactic| com_leaf) => `(tactic| (with_reducible refine com_local_static_guard ?_ ?_) <;> assumption)

theorem com_untyped_variable {k} (hk : lowText k = true) (hrend : ComRend ρ rend orend) (hr : ComFns ρ r o) :
    Com (renS ρ) id (demangle_untyped_variable rend r k) (demangle_untyped_variable orend o k) := by
  have := com_internL (ρ := ρ) hk
  unfold demangle_untyped_variable; coms
macro_rules | `(tactic| com_leaf) => `(tactic| (with_reducible refine com_untyped_variable (by decide) ?_ ?_) <;> assumption)

theorem com_rtti_base_class_descriptor_node_u32 :
    Com (renS ρ) id (demangle_rtti_base_class_descriptor_node.u32  ) (demangle_rtti_base_class_descriptor_node.u32  ) := by
  unfold demangle_rtti_base_class_descriptor_node.u32; coms
macro_rules | `(tactic| com_leaf) => `(tactic| with_reducible exact com_rtti_base_class_descriptor_node_u32)

theorem com_rtti_base_class_descriptor_node (hrend : ComRend ρ rend orend) (hr : ComFns ρ r o) :
    Com (renS ρ) id (demangle_rtti_base_class_descriptor_node rend r ) (demangle_rtti_base_class_descriptor_node orend o ) := by
  unfold demangle_rtti_base_class_descriptor_node; coms
macro_rules | `(tactic| com_leaf) => `(tactic| (with_reducible refine com_rtti_base_class_descriptor_node ?_ ?_) <;> assumption)

theorem com_init_fini_stub {b} (hrend : ComRend ρ rend orend) (hr : ComFns ρ r o) :
    Com (renS ρ) id (demangle_init_fini_stub rend r b) (demangle_init_fini_stub orend o b) := by
  unfold demangle_init_fini_stub
  refine Com.bindI (com_tryChar (by decide)) fun _ => Com.bindI (com_declarator hrend hr) fun _ => Com.bindI com_downcastP fun v => ?_
  cases v with
  | some v => dsimp only; coms
  | none =>
    dsimp only
    refine Com.bindI com_downcastP fun f => ?_
    cases f with
    | none => coms
    | some f =>
      dsimp only
      refine Com.ite (Com.errI _) (Com.bind com_resolveP fun n => ?_)
      rw [get_name_ren]
      coms
macro_rules | `(tactic| com_leaf) => `(tactic| (with_reducible refine com_init_fini_stub ?_ ?_) <;> assumption)

theorem com_vcall_thunk_node (hrend : ComRend ρ rend orend) (hr : ComFns ρ r o) :
    Com (renS ρ) id (demangle_vcall_thunk_node rend r ) (demangle_vcall_thunk_node orend o ) := by
  unfold demangle_vcall_thunk_node; coms
macro_rules | `(tactic| com_leaf) => `(tactic| (with_reducible refine com_vcall_thunk_node ?_ ?_) <;> assumption)

theorem com_rtti_type_descriptor (hr : ComFns ρ r o) :
    Com (renS ρ) id (demangle_rtti_type_descriptor r ) (demangle_rtti_type_descriptor o ) := by
  unfold demangle_rtti_type_descriptor
  exact Com.bindI hr.type fun _ => Com.bindI (com_expectStr (by decide)) fun _ => Com.bindI com_is_empty fun _ =>
    Com.ite (Com.bindI (com_synthesizeL (by decide)) fun _ => com_intern rfl) (Com.errI _)
macro_rules | `(tactic| com_leaf) => `(tactic| (with_reducible refine com_rtti_type_descriptor ?_) <;> assumption)

theorem com_special_intrinsic {k} (hrend : ComRend ρ rend orend) (hr : ComFns ρ r o) :
    Com (renS ρ) id (special_intrinsic rend r k) (special_intrinsic orend o k) := by
  cases k <;> unfold special_intrinsic <;> dsimp only <;> coms
macro_rules | `(tactic| com_leaf) => `(tactic| (with_reducible refine com_special_intrinsic ?_ ?_) <;> assumption)

theorem com_do_parse (hrend : ComRend ρ rend orend) (hr : ComFns ρ r o) :
    Com (renS ρ) id (do_parse rend r ) (do_parse orend o ) := by
  unfold do_parse; coms
macro_rules | `(tactic| com_leaf) => `(tactic| (with_reducible refine com_do_parse ?_ ?_) <;> assumption)

end

theorem com_fns {rend : Renderer} {orend : Renderer} (h : ComRend ρ rend orend) {n n' : Nat} (hn : n ≤ n') :
    ComFns ρ (fns rend n') (fns orend n) := by
  induction n generalizing n' with
  | zero => exact ⟨Com.crash _, Com.crash _, Com.crash _⟩
  | succ n ih =>
    cases n' with
    | zero => omega
    | succ n' =>
      have ih := ih (n' := n') (by omega)
      exact ⟨com_type h ih, com_template_instantiation_name h ih, com_do_parse h ih⟩

end Undname.Ren
