/-
  The parser on bytes does what the parser on characters does: the functions that do not recurse.
-/
import Verif.Raw.RefOut

namespace Undname.Raw
open Undname (Fail Error Crash Text SM splitAtBytes)

/-- The state of the parser, as bytes. -/
def ofSt (s : Undname.St) : St := ⟨ofMStr s.str, nodes s.cache, s.names, s.function_params⟩

theorem com_onStr {α α' : Type} {g : α → α'} {m' : SM MStr α'} {m : SM Undname.MStr α}
    (h : ∀ s, m' (ofMStr s) = onBytes g (m s)) : Com ofSt g (onStr m') (Undname.onStr m) := by
  intro s
  unfold onStr Undname.onStr
  show Image ofSt g (match m s.str with | .ok (a, str) => _ | .error e => _) (match m' (ofMStr s.str) with | .ok (a, str) => _ | .error e => _)
  rw [h]
  cases m s.str with
  | error e => cases e <;> trivial
  | ok x => rfl

theorem com_queryG {α α' : Type} {g : α → α'} {q' : MStr → α'} {q : Undname.MStr → α} (h : ∀ m, q' (ofMStr m) = g (q m)) :
    Com ofSt g (query q') (Undname.query q) := by
  intro s
  show Except.ok (q' (ofMStr s.str), ofSt s) = _
  rw [h]

theorem com_queryI {α : Type} {q' : MStr → α} {q : Undname.MStr → α} (h : ∀ m, q' (ofMStr m) = q m) :
    Com ofSt id (query q') (Undname.query q) := com_queryG h

theorem com_queryX {α : Type} {q' : MStr → Except Fail α} {q : Undname.MStr → α} (h : ∀ m, q' (ofMStr m) = .ok (q m)) :
    Com ofSt id (queryE q') (Undname.query q) := by
  intro s
  show SM.lift (q' (ofMStr s.str)) (ofSt s) = _
  rw [h]; rfl

theorem com_queryE {α : Type} {q' : MStr → Except Fail α} {q : Undname.MStr → Except Fail α} (h : ∀ m, q' (ofMStr m) = q m) :
    Com ofSt id (queryE q') (Undname.queryE q) := by
  intro s
  show Image ofSt id (SM.lift (q s.str) s) (SM.lift (q' (ofMStr s.str)) (ofSt s))
  rw [h]
  exact Com.liftI _ _

theorem com_intern {n' : Node} {n : Undname.Node} (h : n' = node n) : Com ofSt id (intern n') (Undname.intern n) := by
  subst h
  intro s
  have hl : (nodes s.cache).length = s.cache.length := List.length_map _
  show Image ofSt id (Undname.intern n s) (intern (node n) ⟨ofMStr s.str, nodes s.cache, s.names, s.function_params⟩)
  unfold intern Undname.intern
  dsimp only
  rw [hl]
  by_cases hn : s.cache.length + 1 > NODE_LIMIT
  · simp only [hn, if_true, Image]
  · simp only [hn, if_false, Image, id, ofSt, nodes, List.map_append, List.map]

theorem com_runW {m' : W Unit} {m : Undname.W Unit} {g : Unit → Unit} (h : Com enc g m' m) (t : Text) :
    Com ofSt enc (runW m' (enc t)) (Undname.runW m t) := by
  intro s
  have h1 := h t
  unfold runW Undname.runW
  cases hm : m t with
  | error e =>
    rw [hm] at h1
    cases e with
    | crash c => trivial
    | err e =>
      have h1 : m' (enc t) = _ := h1
      rw [h1]; rfl
  | ok x =>
    rw [hm] at h1
    have h1 : m' (enc t) = .ok (g x.1, enc x.2) := h1
    rw [h1]; rfl

theorem com_runW_nil {m' : W Unit} {m : Undname.W Unit} {g : Unit → Unit} (h : Com enc g m' m) :
    Com ofSt enc (runW m' []) (Undname.runW m []) := com_runW h []

theorem com_into {α α' : Type} {g : α → α'} {t : Text} {k' : Bytes → P α'} {m : Undname.P α} (h : Com ofSt g (k' (enc t)) m) :
    Com ofSt g (try_into (enc t) >>= k') m := by
  intro s
  show Image ofSt g (m s) (SM.bind (try_into (enc t)) k' (ofSt s))
  unfold SM.bind try_into
  rw [from_utf8_enc]
  exact h s

theorem ofSt_fuel (s : Undname.St) : s.str.string.length + 1 ≤ (ofSt s).str.string.length + 1 :=
  Nat.succ_le_succ (MStr.text_le_enc _)

theorem com_loopG {β β' γ γ' : Type} (gb : β → β') (gc : γ → γ') {b' : β' → P (β' ⊕ γ')} {b : β → Undname.P (β ⊕ γ)}
    (h : ∀ x, Com ofSt (Sum.map gb gc) (b' (gb x)) (b x)) (x : β) : Com ofSt gc (loopInput b' (gb x)) (Undname.loopInput b x) :=
  fun s => Com.iterate gb gc h (ofSt_fuel s) x s

theorem com_loop {β γ : Type} {b' : β → P (β ⊕ γ)} {b : β → Undname.P (β ⊕ γ)} (h : ∀ x, Com ofSt id (b' x) (b x)) (x : β) :
    Com ofSt id (loopInput b' x) (Undname.loopInput b x) :=
  com_loopG id id (fun x => (h x).retype fun a => by cases a <;> rfl) x

/-- A known function. -/
syntax "com_leaf" : tactic

/-- The rules, with case distinctions. -/
macro "coms" : tactic => `(tactic| repeat' (first
  | assumption
  | com_leaf
  | with_reducible exact Com.pureI _ | with_reducible exact Com.pureI' _
  | with_reducible exact Com.crash _ | with_reducible exact Com.errI _
  | with_reducible exact Com.okOrI _ _ | with_reducible exact Com.liftI _
  | with_reducible exact com_writeT _
  | with_reducible exact com_intern rfl
  | with_reducible refine Com.whenB ?_ | with_reducible refine Com.whenSome fun _ => ?_
  | with_reducible refine Com.bindI ?_ fun _ => ?_ | with_reducible refine Com.ite ?_ ?_
  | with_reducible refine com_loop (fun _ => ?_) _ | with_reducible refine Com.forNI (fun _ => ?_) _ _
  | (split <;> try dsimp only)
  | contradiction))

theorem com_tryAny : Com ofSt id tryAny Undname.tryAny := com_onStr MStr.try_consume_enc
macro_rules | `(tactic| com_leaf) => `(tactic| with_reducible exact com_tryAny)
theorem com_tryChar {c} : Com ofSt id (tryChar c) (Undname.tryChar c) :=
  Com.bindI (com_onStr (MStr.try_consume_char_enc c)) fun _ => Com.pureI _
macro_rules | `(tactic| com_leaf) => `(tactic| with_reducible exact com_tryChar)
theorem com_tryIf {f} : Com ofSt id (tryIf f) (Undname.tryIf f) := com_onStr (MStr.try_consume_char_if_enc f)
macro_rules | `(tactic| com_leaf) => `(tactic| with_reducible exact com_tryIf)
theorem com_tryStr {c} : Com ofSt id (tryStr c) (Undname.tryStr c) :=
  Com.bindI (com_onStr (MStr.try_consume_str_enc c)) fun _ => Com.pureI _
macro_rules | `(tactic| com_leaf) => `(tactic| with_reducible exact com_tryStr)
theorem com_try2 : Com ofSt id (onStr MStr.try_consume_2_chars) (Undname.onStr Undname.MStr.try_consume_2_chars) :=
  com_onStr MStr.try_consume_2_chars_enc
macro_rules | `(tactic| com_leaf) => `(tactic| with_reducible exact com_try2)
theorem com_tryBytes {n} : Com ofSt (Option.map enc) (tryBytes n) (Undname.tryBytes n) := com_onStr (MStr.try_consume_n_bytes_enc n)
theorem com_is_empty : Com ofSt id (query MStr.is_empty) (Undname.query Undname.MStr.is_empty) := com_queryI MStr.is_empty_enc
macro_rules | `(tactic| com_leaf) => `(tactic| with_reducible exact com_is_empty)
theorem com_len_bytes : Com ofSt id (query MStr.len_bytes) (Undname.query Undname.MStr.len_bytes) := com_queryI MStr.len_bytes_enc
macro_rules | `(tactic| com_leaf) => `(tactic| with_reducible exact com_len_bytes)
theorem com_len_chars : Com ofSt id (query MStr.len_chars) (Undname.query Undname.MStr.len_chars) := com_queryI fun _ => rfl
macro_rules | `(tactic| com_leaf) => `(tactic| with_reducible exact com_len_chars)
theorem com_starts {t : Text} : Com ofSt id (query fun m => m.starts_with t) (Undname.query fun m => m.starts_with t) :=
  com_queryI fun m => MStr.starts_with_enc m t
macro_rules | `(tactic| com_leaf) => `(tactic| with_reducible exact com_starts)
theorem com_find {c : Char} : Com ofSt id (queryE (MStr.find_char c)) (Undname.query fun m => m.find_char c) :=
  com_queryX (MStr.find_char_enc c)
macro_rules | `(tactic| com_leaf) => `(tactic| with_reducible exact com_find)
theorem com_first_char : Com ofSt id (queryE MStr.first_char) (Undname.query Undname.MStr.first_char) := com_queryX MStr.first_char_enc
macro_rules | `(tactic| com_leaf) => `(tactic| with_reducible exact com_first_char)
theorem com_firstIs {f} : Com ofSt id (firstIs f) (Undname.firstIs f) := com_queryX (MStr.first_is_enc f)
macro_rules | `(tactic| com_leaf) => `(tactic| with_reducible exact com_firstIs)
theorem com_local_scope : Com ofSt id (queryE MStr.starts_with_local_scope_pattern)
    (Undname.queryE Undname.MStr.starts_with_local_scope_pattern) := com_queryE MStr.local_scope_enc
macro_rules | `(tactic| com_leaf) => `(tactic| with_reducible exact com_local_scope)
theorem com_member_pointer : Com ofSt id (queryE MStr.is_member_pointer) (Undname.queryE Undname.MStr.is_member_pointer) :=
  com_queryE MStr.is_member_pointer_enc
macro_rules | `(tactic| com_leaf) => `(tactic| with_reducible exact com_member_pointer)

theorem com_expectChar {c e} : Com ofSt id (expectChar c e) (Undname.expectChar c e) := by
  unfold expectChar Undname.expectChar; coms
macro_rules | `(tactic| com_leaf) => `(tactic| with_reducible exact com_expectChar)
theorem com_expectStr {c e} : Com ofSt id (expectStr c e) (Undname.expectStr c e) := by
  unfold expectStr Undname.expectStr; coms
macro_rules | `(tactic| com_leaf) => `(tactic| with_reducible exact com_expectStr)
theorem com_expectAny {e} : Com ofSt id (expectAny e) (Undname.expectAny e) := by
  unfold expectAny Undname.expectAny; coms
macro_rules | `(tactic| com_leaf) => `(tactic| with_reducible exact com_expectAny)
theorem com_resolveP {k h} : Com ofSt node (resolveP k h) (Undname.resolveP k h) :=
  Com.bind Com.get fun s => Com.liftG (resolve_enc k s.cache h)
theorem com_downcastP {k k' h} : Com ofSt id (downcastP k k' h) (Undname.downcastP k k' h) := by
  refine Com.bind Com.get fun s => Com.liftG ?_
  show downcast k k' (nodes s.cache) h = _
  rw [downcast_enc]
  cases Undname.downcast k k' s.cache h <;> rfl
macro_rules | `(tactic| com_leaf) => `(tactic| with_reducible exact com_downcastP)
theorem com_unqualified {s : Undname.St} {h} :
    Com ofSt id (SM.lift (get_unqualified_identifier (ofSt s).cache h)) (SM.lift (Undname.get_unqualified_identifier s.cache h)) := by
  show Com ofSt id (SM.lift (get_unqualified_identifier (nodes s.cache) h)) _
  rw [unqualified_enc]
  exact Com.liftI _
macro_rules | `(tactic| com_leaf) => `(tactic| with_reducible exact com_unqualified)
theorem com_modifyNode {k h} {f' : Node → Node} {f : Undname.Node → Undname.Node} (hf : ∀ n, f' (node n) = node (f n)) :
    Com ofSt id (modifyNode k h f') (Undname.modifyNode k h f) := by
  refine Com.bind com_resolveP fun n => Com.modify fun s => ?_
  rw [hf]
  simp only [ofSt, nodes, List.map_set]

/-! ### Updates of nodes -/

theorem append_quals_enc (q : Qualifiers) (n : Undname.Node) : Node.append_quals q (node n) = node (n.append_quals q) := by cases n <;> rfl
macro_rules | `(tactic| com_leaf) => `(tactic| with_reducible exact com_modifyNode (append_quals_enc _))
theorem set_quals_enc (q : Qualifiers) (n : Undname.Node) : Node.set_quals q (node n) = node (n.set_quals q) := by cases n <;> rfl
macro_rules | `(tactic| com_leaf) => `(tactic| with_reducible exact com_modifyNode (set_quals_enc _))
theorem set_function_class_enc (q : FuncClass) (n : Undname.Node) : Node.set_function_class q (node n) = node (n.set_function_class q) := by
  cases n <;> rfl
macro_rules | `(tactic| com_leaf) => `(tactic| with_reducible exact com_modifyNode (set_function_class_enc _))
theorem set_template_params_enc (q : Handle) (n : Undname.Node) : Node.set_template_params q (node n) = node (n.set_template_params q) := by
  cases n <;> rfl
macro_rules | `(tactic| com_leaf) => `(tactic| with_reducible exact com_modifyNode (set_template_params_enc _))
theorem set_name_enc (q : Handle) (n : Undname.Node) : Node.set_name q (node n) = node (n.set_name q) := by cases n <;> rfl
macro_rules | `(tactic| com_leaf) => `(tactic| with_reducible exact com_modifyNode (set_name_enc _))
theorem set_class_enc (q : Handle) (n : Undname.Node) : set_class q (node n) = node (Undname.set_class q n) := by cases n <;> rfl
macro_rules | `(tactic| com_leaf) => `(tactic| with_reducible exact com_modifyNode (set_class_enc _))
theorem pointer_or_quals_enc (q : Qualifiers) (n : Undname.Node) : pointer_or_quals q (node n) = node (Undname.pointer_or_quals q n) := by
  cases n <;> rfl
macro_rules | `(tactic| com_leaf) => `(tactic| with_reducible exact com_modifyNode (pointer_or_quals_enc _))
theorem set_target_type_enc (q : Option Handle) (n : Undname.Node) : set_target_type q (node n) = node (Undname.set_target_type q n) := by
  cases n <;> rfl
macro_rules | `(tactic| com_leaf) => `(tactic| with_reducible exact com_modifyNode (set_target_type_enc _))
theorem set_scope_index_enc (q : Nat) (n : Undname.Node) : set_scope_index q (node n) = node (Undname.set_scope_index q n) := by
  cases n <;> rfl
macro_rules | `(tactic| com_leaf) => `(tactic| with_reducible exact com_modifyNode (set_scope_index_enc _))
theorem set_offset_enc (q : Nat) (n : Undname.Node) : set_offset q (node n) = node (Undname.set_offset q n) := by cases n <;> rfl
macro_rules | `(tactic| com_leaf) => `(tactic| with_reducible exact com_modifyNode (set_offset_enc _))
theorem asFuncSig_enc (n : Undname.Node) : (node n).asFuncSig = n.asFuncSig := by cases n <;> rfl
theorem get_name_enc (n : Undname.Node) : (node n).get_name = n.get_name := by
  cases n with
  | VariableSymbol m _ _ => cases m with
    | none => rfl
    | some m => cases m <;> rfl
  | _ => rfl
theorem isConversionOrStructor_enc (n : Undname.Node) : (node n).isConversionOrStructor = n.isConversionOrStructor := by cases n <;> rfl
theorem isUntypedConversion_enc (n : Undname.Node) : (node n).isUntypedConversion = n.isUntypedConversion := by
  cases n with
  | ConversionOperatorIdentifier _ t => cases t <;> rfl
  | _ => rfl

/-! ### Leaf parsers -/

theorem com_numberBody {x} : Com ofSt id (numberBody x) (Undname.numberBody x) := by
  unfold numberBody Undname.numberBody; coms
macro_rules | `(tactic| com_leaf) => `(tactic| with_reducible exact com_numberBody)
theorem com_number  : Com ofSt id (demangle_number ) (Undname.demangle_number ) := by
  unfold demangle_number Undname.demangle_number; coms
macro_rules | `(tactic| com_leaf) => `(tactic| with_reducible exact com_number)
theorem com_unsigned  : Com ofSt id (demangle_unsigned ) (Undname.demangle_unsigned ) := by
  unfold demangle_unsigned Undname.demangle_unsigned; coms
macro_rules | `(tactic| com_leaf) => `(tactic| with_reducible exact com_unsigned)
theorem com_signed  : Com ofSt id (demangle_signed ) (Undname.demangle_signed ) := by
  unfold demangle_signed Undname.demangle_signed; coms
macro_rules | `(tactic| com_leaf) => `(tactic| with_reducible exact com_signed)
theorem com_qualifiers  : Com ofSt id (demangle_qualifiers ) (Undname.demangle_qualifiers ) := by
  unfold demangle_qualifiers Undname.demangle_qualifiers; coms
macro_rules | `(tactic| com_leaf) => `(tactic| with_reducible exact com_qualifiers)
theorem com_pointer_cv_qualifiers  : Com ofSt id (demangle_pointer_cv_qualifiers ) (Undname.demangle_pointer_cv_qualifiers ) := by
  unfold demangle_pointer_cv_qualifiers Undname.demangle_pointer_cv_qualifiers; coms
macro_rules | `(tactic| com_leaf) => `(tactic| with_reducible exact com_pointer_cv_qualifiers)
theorem com_pointer_ext_qualifiers  : Com ofSt id (demangle_pointer_ext_qualifiers ) (Undname.demangle_pointer_ext_qualifiers ) := by
  unfold demangle_pointer_ext_qualifiers Undname.demangle_pointer_ext_qualifiers; coms
macro_rules | `(tactic| com_leaf) => `(tactic| with_reducible exact com_pointer_ext_qualifiers)
theorem com_function_ref_qualifier  : Com ofSt id (demangle_function_ref_qualifier ) (Undname.demangle_function_ref_qualifier ) := by
  unfold demangle_function_ref_qualifier Undname.demangle_function_ref_qualifier; coms
macro_rules | `(tactic| com_leaf) => `(tactic| with_reducible exact com_function_ref_qualifier)
theorem com_function_class  : Com ofSt id (demangle_function_class ) (Undname.demangle_function_class ) := by
  unfold demangle_function_class Undname.demangle_function_class; coms
macro_rules | `(tactic| com_leaf) => `(tactic| with_reducible exact com_function_class)
theorem com_calling_convention  : Com ofSt id (demangle_calling_convention ) (Undname.demangle_calling_convention ) := by
  unfold demangle_calling_convention Undname.demangle_calling_convention; coms
macro_rules | `(tactic| com_leaf) => `(tactic| with_reducible exact com_calling_convention)
theorem com_variable_storage_class  : Com ofSt id (demangle_variable_storage_class ) (Undname.demangle_variable_storage_class ) := by
  unfold demangle_variable_storage_class Undname.demangle_variable_storage_class; coms
macro_rules | `(tactic| com_leaf) => `(tactic| with_reducible exact com_variable_storage_class)
theorem com_throw_specification  : Com ofSt id (demangle_throw_specification ) (Undname.demangle_throw_specification ) := by
  unfold demangle_throw_specification Undname.demangle_throw_specification; coms
macro_rules | `(tactic| com_leaf) => `(tactic| with_reducible exact com_throw_specification)
theorem com_primitive_kind  : Com ofSt id (primitive_kind ) (Undname.primitive_kind ) := by
  unfold primitive_kind Undname.primitive_kind; coms
macro_rules | `(tactic| com_leaf) => `(tactic| with_reducible exact com_primitive_kind)
theorem com_primitive_type  : Com ofSt id (demangle_primitive_type ) (Undname.demangle_primitive_type ) := by
  unfold demangle_primitive_type Undname.demangle_primitive_type; coms
macro_rules | `(tactic| com_leaf) => `(tactic| with_reducible exact com_primitive_type)

theorem beq_enc (a b : Text) : (enc a == enc b) = (a == b) := by
  rw [Bool.eq_iff_iff]
  simp only [beq_iff_eq]
  exact ⟨fun h => enc_inj h, fun h => by rw [h]⟩

theorem names_contain_enc (c : Undname.Cache) (t : Text) (l : List Handle) :
    memorize_string.names_contain (nodes c) (enc t) l = Undname.memorize_string.names_contain c t l := by
  induction l with
  | nil => rfl
  | cons h hs ih =>
    unfold memorize_string.names_contain Undname.memorize_string.names_contain
    rw [resolve_enc]
    cases hr : Undname.resolve .NamedIdentifier c h with
    | error e => rfl
    | ok n => cases n <;> simp only [ih, Except.map, node, beq_enc]


theorem com_push_name {h} : Com ofSt id (memorize_string.push_name h) (Undname.memorize_string.push_name h) := by
  unfold memorize_string.push_name Undname.memorize_string.push_name
  refine Com.bind Com.get fun s => ?_
  show Com ofSt id (if s.names.length < 10 then _ else _) _
  exact Com.ite Com.set (Com.crash _)
macro_rules | `(tactic| com_leaf) => `(tactic| with_reducible exact com_push_name)

theorem com_memorize_string {t} : Com ofSt id (memorize_string (enc t)) (Undname.memorize_string t) := by
  unfold memorize_string Undname.memorize_string
  refine Com.bind Com.get fun s => ?_
  show Com ofSt id (SM.lift (memorize_string.names_contain (nodes s.cache) (enc t) s.names) >>= fun known =>
    if s.names.length < 10 && !known then _ else _) _
  rw [names_contain_enc]
  coms
macro_rules | `(tactic| com_leaf) => `(tactic| with_reducible exact com_memorize_string)
theorem com_simple_string {m} : Com ofSt enc (demangle_simple_string m) (Undname.demangle_simple_string m) := by
  unfold demangle_simple_string Undname.demangle_simple_string
  refine Com.bindI com_find fun _ => Com.bindI (Com.okOrI _ _) fun _ => Com.ite (Com.errI _) ?_
  refine Com.bind com_tryBytes fun _ => Com.bind (Com.okOrG _ _) fun _ => Com.bindI com_expectChar fun _ =>
    Com.bindI (Com.whenB com_memorize_string) fun _ => Com.pure _
theorem com_simple_name {m} : Com ofSt id (demangle_simple_name m) (Undname.demangle_simple_name m) :=
  Com.bind com_simple_string fun _ => com_intern rfl
macro_rules | `(tactic| com_leaf) => `(tactic| with_reducible exact com_simple_name)
theorem com_anonymous_namespace_name  : Com ofSt id (demangle_anonymous_namespace_name ) (Undname.demangle_anonymous_namespace_name ) := by
  unfold demangle_anonymous_namespace_name Undname.demangle_anonymous_namespace_name
  refine Com.bindI com_expectStr fun _ => Com.bindI com_find fun _ => Com.bindI (Com.okOrI _ _) fun _ => Com.bind com_tryBytes fun _ =>
    Com.bind (Com.okOrG _ _) fun _ => Com.bindI com_memorize_string fun _ => Com.bindI com_expectChar fun _ => com_intern rfl
macro_rules | `(tactic| com_leaf) => `(tactic| with_reducible exact com_anonymous_namespace_name)
theorem com_back_ref_name  : Com ofSt id (demangle_back_ref_name ) (Undname.demangle_back_ref_name ) := by
  unfold demangle_back_ref_name Undname.demangle_back_ref_name
  refine Com.bindI com_tryIf fun _ => Com.bindI (Com.okOrI _ _) fun _ => Com.bind Com.get fun _ => Com.okOrI _ _
macro_rules | `(tactic| com_leaf) => `(tactic| with_reducible exact com_back_ref_name)
theorem com_synthesize_from_id {i} : Com ofSt id (synthesize_from_id i) (Undname.synthesize_from_id i) := by
  unfold synthesize_from_id Undname.synthesize_from_id; coms
macro_rules | `(tactic| com_leaf) => `(tactic| with_reducible exact com_synthesize_from_id)
theorem com_synthesize_from_name {i} : Com ofSt id (synthesize_from_name (enc i)) (Undname.synthesize_from_name i) :=
  Com.bindI (com_intern rfl) fun _ => com_synthesize_from_id
macro_rules | `(tactic| com_leaf) => `(tactic| with_reducible exact com_synthesize_from_name)
theorem com_md5_name  : Com ofSt id (demangle_md5_name ) (Undname.demangle_md5_name ) := by
  unfold demangle_md5_name Undname.demangle_md5_name
  refine Com.bind (com_queryG (g := enc) fun _ => rfl) fun x => Com.bindI com_expectStr fun _ => Com.bindI com_find fun _ => Com.bindI (Com.okOrI _ _) fun a =>
    Com.bind com_tryBytes fun _ => Com.bind (Com.okOrG _ _) fun _ => Com.bindI com_tryStr fun r4 => ?_
  dsimp only
  rw [slice_upto_enc]
  cases h : splitAtBytes ((if r4 then a + 3 + 6 else a + 3) + 1) x with
  | none => exact Com.crash _
  | some p =>
    intro s
    show Image ofSt id _ (SM.bind (SM.lift (.ok (enc p.1))) _ (ofSt s))
    exact (Com.bindI com_synthesize_from_name fun _ => com_intern rfl :
      Com ofSt id (synthesize_from_name (enc p.1) >>= fun name => intern (.Md5Symbol name))
        (Undname.synthesize_from_name p.1 >>= fun name => Undname.intern (.Md5Symbol name))) s
macro_rules | `(tactic| com_leaf) => `(tactic| with_reducible exact com_md5_name)
theorem com_literal_operator_identifier  : Com ofSt id (demangle_literal_operator_identifier ) (Undname.demangle_literal_operator_identifier ) :=
  Com.bind com_simple_string fun _ => com_intern rfl
macro_rules | `(tactic| com_leaf) => `(tactic| with_reducible exact com_literal_operator_identifier)
theorem com_function_identifier_code_group {g} : Com ofSt id (demangle_function_identifier_code_group g) (Undname.demangle_function_identifier_code_group g) := by
  unfold demangle_function_identifier_code_group Undname.demangle_function_identifier_code_group; coms
macro_rules | `(tactic| com_leaf) => `(tactic| with_reducible exact com_function_identifier_code_group)
theorem com_function_identifier_code  : Com ofSt id (demangle_function_identifier_code ) (Undname.demangle_function_identifier_code ) := by
  unfold demangle_function_identifier_code Undname.demangle_function_identifier_code; coms
macro_rules | `(tactic| com_leaf) => `(tactic| with_reducible exact com_function_identifier_code)

theorem com_tryTable {α : Type} (l : List (Text × α)) : Com ofSt id (tryTable l) (Undname.tryTable l) := by
  induction l with
  | nil => exact Com.pureI _
  | cons x xs ih => unfold tryTable Undname.tryTable; coms
macro_rules | `(tactic| com_leaf) => `(tactic| with_reducible exact com_tryTable _)

theorem com_special_kind : Com ofSt id consume_special_intrinsic_kind Undname.consume_special_intrinsic_kind :=
  com_tryTable _
macro_rules | `(tactic| com_leaf) => `(tactic| with_reducible exact com_special_kind)

theorem com_unchecked {o} : Com ofSt id (demangle_char_literal.unchecked o) (Undname.demangle_char_literal.unchecked o) := by
  cases o
  · exact Com.crash _
  · exact Com.pureI _
macro_rules | `(tactic| com_leaf) => `(tactic| with_reducible exact com_unchecked)
theorem com_char_literal  : Com ofSt id (demangle_char_literal ) (Undname.demangle_char_literal ) := by
  unfold demangle_char_literal Undname.demangle_char_literal; coms
macro_rules | `(tactic| com_leaf) => `(tactic| with_reducible exact com_char_literal)
theorem com_wchar_literal  : Com ofSt id (demangle_wchar_literal ) (Undname.demangle_wchar_literal ) := by
  unfold demangle_wchar_literal Undname.demangle_wchar_literal; coms
macro_rules | `(tactic| com_leaf) => `(tactic| with_reducible exact com_wchar_literal)
theorem com_output_escaped_char {c} : Com enc id (output_escaped_char c) (Undname.output_escaped_char c) := by
  unfold output_escaped_char Undname.output_escaped_char
  cases escapedChar c <;> dsimp only <;> coms
macro_rules | `(tactic| com_leaf) => `(tactic| with_reducible exact com_output_escaped_char)
theorem com_wideBody {b x} : Com ofSt (Sum.map (Prod.map id enc) enc) (wideBody b (Prod.map id enc x)) (Undname.wideBody b x) := by
  obtain ⟨n, t⟩ := x
  unfold wideBody Undname.wideBody
  dsimp only [Prod.map]
  refine Com.bindI com_tryChar fun _ => Com.ite (Com.pure (g := Sum.map (Prod.map id enc) enc) (Sum.inr t)) ?_
  refine Com.bindI com_len_bytes fun _ => Com.ite (Com.errI _) ?_
  refine Com.bindI com_wchar_literal fun _ => ?_
  refine Com.ite (Com.bind (com_runW com_output_escaped_char t) fun t => ?_) ?_
  · exact Com.pure (g := Sum.map (Prod.map id enc) enc) (Sum.inl (_, t))
  · exact Com.pure (g := Sum.map (Prod.map id enc) enc) (Sum.inl (_, t))
theorem com_narrowBody {b} : Com ofSt id (narrowBody b) (Undname.narrowBody b) := by
  unfold narrowBody Undname.narrowBody; coms
macro_rules | `(tactic| com_leaf) => `(tactic| with_reducible exact com_narrowBody)
theorem com_decodeBody {b c n t x} : Com ofSt (Prod.map id enc) (decodeBody b c n t (Prod.map id enc x)) (Undname.decodeBody b c n t x) := by
  obtain ⟨k, t⟩ := x
  unfold decodeBody Undname.decodeBody
  dsimp only [Prod.map, id]
  refine Com.bindI (Com.okOrI _ _) fun _ => ?_
  refine Com.ite (Com.bind (com_runW com_output_escaped_char t) fun t => ?_) ?_
  · exact Com.pure (g := Prod.map id enc) (_, t)
  · exact Com.pure (g := Prod.map id enc) (_, t)
theorem com_string_literal  : Com ofSt id (demangle_string_literal ) (Undname.demangle_string_literal ) := by
  unfold demangle_string_literal Undname.demangle_string_literal
  refine Com.bindI com_expectStr fun _ => Com.bindI com_expectAny fun _ => ?_
  dsimp only
  refine Com.ite (Com.bindI (Com.pureI _) fun w => ?_) (Com.ite (Com.bindI (Com.pureI _) fun w => ?_)
    (Com.bindI (Com.errI _) fun w => ?_))
  all_goals
    refine Com.bindI com_number fun p => ?_
    refine Com.ite (Com.errI _) ?_
    refine Com.bindI com_find fun _ => Com.bindI (Com.okOrI _ _) fun _ => Com.bind com_tryBytes fun _ => Com.bind (Com.okOrG _ _) fun _ =>
      Com.bindI com_is_empty fun _ => Com.ite (Com.errI _) (Com.ite ?_ ?_)
    · refine Com.bind (com_loopG (Prod.map id enc) enc (fun _ => com_wideBody) (p.1, [])) fun t => com_into ?_
      exact com_intern rfl
    · refine Com.bindI (com_loop (fun _ => com_narrowBody) []) fun l => ?_
      refine Com.bindI (Com.okOrI _ _) fun _ => Com.bindI (Com.okOrI _ _) fun _ => ?_
      refine Com.bind (Com.forN (Prod.map id enc) (fun _ => com_decodeBody) _ (0, [])) fun x => ?_
      obtain ⟨i, t⟩ := x
      dsimp only [Prod.map]
      exact com_into (com_intern rfl)
macro_rules | `(tactic| com_leaf) => `(tactic| with_reducible exact com_string_literal)

end Undname.Raw
