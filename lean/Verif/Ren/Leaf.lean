/-
  On the renamed input the parser does, renamed, what it does: the functions that do not recurse.
-/
import Verif.Ren.Out

namespace Undname.Ren
variable {ρ : Renaming}

/-- The state of the parser, renamed. -/
def renS (ρ : Renaming) (s : St) : St := ⟨(renM ρ) s.str, (renC ρ) s.cache, s.names, s.function_params⟩

theorem com_onStr {α α' : Type} {g : α → α'} {m' : SM MStr α'} {m : SM MStr α}
    (h : ∀ s, m' ((renM ρ) s) = onRen ρ g (m s)) : Com (renS ρ) g (onStr m') (onStr m) := by
  intro s
  unfold onStr
  show Image (renS ρ) g (match m s.str with | .ok (a, str) => _ | .error e => _) (match m' ((renM ρ) s.str) with | .ok (a, str) => _ | .error e => _)
  rw [h]
  cases m s.str with
  | error e => cases e <;> trivial
  | ok x => rfl

theorem com_queryG {α α' : Type} {g : α → α'} {q' : MStr → α'} {q : MStr → α} (h : ∀ m, q' ((renM ρ) m) = g (q m)) :
    Com (renS ρ) g (query q') (query q) := by
  intro s
  show Except.ok (q' ((renM ρ) s.str), (renS ρ) s) = _
  rw [h]

theorem com_queryI {α : Type} {q' : MStr → α} {q : MStr → α} (h : ∀ m, q' ((renM ρ) m) = q m) :
    Com (renS ρ) id (query q') (query q) := com_queryG h

theorem com_queryE {α : Type} {q' : MStr → Except Fail α} {q : MStr → Except Fail α} (h : ∀ m, q' ((renM ρ) m) = q m) :
    Com (renS ρ) id (queryE q') (queryE q) := by
  intro s
  show Image (renS ρ) id (SM.lift (q s.str) s) (SM.lift (q' ((renM ρ) s.str)) ((renS ρ) s))
  rw [h]
  exact Com.liftI _ _

theorem com_intern {n' : Node} {n : Node} (h : n' = (renN ρ) n) : Com (renS ρ) id (intern n') (intern n) := by
  subst h
  intro s
  have hl : ((renC ρ) s.cache).length = s.cache.length := List.length_map _
  show Image (renS ρ) id (intern n s) (intern ((renN ρ) n) ⟨(renM ρ) s.str, (renC ρ) s.cache, s.names, s.function_params⟩)
  unfold intern
  dsimp only
  rw [hl]
  by_cases hn : s.cache.length + 1 > NODE_LIMIT
  · simp only [hn, if_true, Image]
  · simp only [hn, if_false, Image, id, renS, renC, List.map_append, List.map]

theorem com_runW {m' : W Unit} {m : W Unit} {g : Unit → Unit} (h : Com (ren ρ) g m' m) (t : Text) :
    Com (renS ρ) (ren ρ) (runW m' ((ren ρ) t)) (runW m t) := by
  intro s
  have h1 := h t
  unfold runW
  cases hm : m t with
  | error e =>
    rw [hm] at h1
    cases e with
    | crash c => trivial
    | err e =>
      have h1 : m' ((ren ρ) t) = _ := h1
      rw [h1]; rfl
  | ok x =>
    rw [hm] at h1
    have h1 : m' ((ren ρ) t) = .ok (g x.1, (ren ρ) x.2) := h1
    rw [h1]; rfl

theorem com_runW_nil {m' : W Unit} {m : W Unit} {g : Unit → Unit} (h : Com (ren ρ) g m' m) :
    Com (renS ρ) (ren ρ) (runW m' []) (runW m []) := com_runW h []

theorem renS_fuel (s : St) : s.str.string.length + 1 ≤ ((renS ρ) s).str.string.length + 1 := by
  show _ ≤ (ren ρ s.str.string).length + 1
  rw [ren_length]; exact Nat.le_refl _

/-- A character read: the same on both sides, or beyond Latin-1 on both. -/
theorem Com.bindC {α : Type} {m : P Char} {k k' : Char → P α} (hm : Com (renS ρ) ρ.f m m) (h1 : ∀ c, Com (renS ρ) id (k' c) (k c))
    (h2 : ∀ c d : Char, 256 ≤ c.toNat → 256 ≤ d.toNat → Com (renS ρ) id (k' d) (k c)) : Com (renS ρ) id (m >>= k') (m >>= k) := by
  refine Com.bind hm fun c => ?_
  rcases ρ.cases c with h | ⟨ha, hb⟩
  · rw [h]; exact h1 c
  · exact h2 c _ ha hb

theorem com_loopG {β β' γ γ' : Type} (gb : β → β') (gc : γ → γ') {b' : β' → P (β' ⊕ γ')} {b : β → P (β ⊕ γ)}
    (h : ∀ x, Com (renS ρ) (Sum.map gb gc) (b' (gb x)) (b x)) (x : β) : Com (renS ρ) gc (loopInput b' (gb x)) (loopInput b x) :=
  fun s => Com.iterate gb gc h (renS_fuel s) x s

theorem com_loop {β γ : Type} {b' : β → P (β ⊕ γ)} {b : β → P (β ⊕ γ)} (h : ∀ x, Com (renS ρ) id (b' x) (b x)) (x : β) :
    Com (renS ρ) id (loopInput b' x) (loopInput b x) :=
  com_loopG id id (fun x => (h x).retype fun a => by cases a <;> rfl) x

/-- A known function. -/
syntax "com_leaf" : tactic

theorem com_tryAny : Com (renS ρ) (Option.map ρ.f) tryAny tryAny := com_onStr MStr.try_consume_ren
theorem com_expectAny {e} : Com (renS ρ) ρ.f (expectAny e) (expectAny e) := by
  unfold expectAny
  exact Com.bind com_tryAny fun _ => Com.okOrG _ _
theorem big_absurd {c : Char} {p : Prop} (h : 256 ≤ c.toNat) (hc : c.toNat < 256) : p := absurd h (by omega)
/-- No character beyond Latin-1. -/
macro "big" : tactic => `(tactic| (exfalso; first
  | exact absurd ‹256 ≤ Char.toNat _› (by decide)
  | (rename_i h1 h2; first | exact absurd h1 (by decide) | exact absurd h2 (by decide))))
/-- The rules, with case distinctions. -/
macro "coms" : tactic => `(tactic| repeat' (first
  | assumption
  | com_leaf
  | with_reducible exact Com.pureI _ | with_reducible exact Com.pureI' _
  | with_reducible exact Com.crash _ | with_reducible exact Com.errI _
  | with_reducible exact Com.okOrI _ _ | with_reducible exact Com.liftI _
  | with_reducible exact com_write _ (by low_text)
  | with_reducible exact com_intern rfl
  | with_reducible refine Com.whenB ?_ | with_reducible refine Com.whenSome fun _ => ?_
  | with_reducible refine Com.bindC com_expectAny (fun _ => ?_) (fun _ _ _ _ => ?_)
  | with_reducible refine Com.bindI ?_ fun _ => ?_ | with_reducible refine Com.ite ?_ ?_
  | with_reducible refine com_loop (fun _ => ?_) _ | with_reducible refine Com.forNI (fun _ => ?_) _ _
  | (split <;> try dsimp only)
  | big
  | contradiction))

theorem com_tryChar {c : Char} (hc : c.toNat < 256) : Com (renS ρ) id (tryChar c) (tryChar c) :=
  Com.bindI (com_onStr (MStr.try_consume_char_ren c hc)) fun _ => Com.pureI _
macro_rules | `(tactic| com_leaf) => `(tactic| with_reducible exact com_tryChar (by decide))
theorem com_tryIf {f} (hf : Low f) : Com (renS ρ) id (tryIf f) (tryIf f) := com_onStr (MStr.try_consume_char_if_ren hf)
macro_rules | `(tactic| com_leaf) => `(tactic| with_reducible exact com_tryIf isDigit_low)
theorem com_tryStr {c} (hc : lowText c = true) : Com (renS ρ) id (tryStr c) (tryStr c) :=
  Com.bindI (com_onStr (MStr.try_consume_str_ren hc)) fun _ => Com.pureI _
macro_rules | `(tactic| com_leaf) => `(tactic| with_reducible exact com_tryStr (by decide))
theorem com_try2 : Com (renS ρ) (Option.map (Prod.map ρ.f ρ.f)) (onStr MStr.try_consume_2_chars) (onStr MStr.try_consume_2_chars) :=
  com_onStr MStr.try_consume_2_chars_ren
theorem com_tryBytes {n} : Com (renS ρ) (Option.map (ren ρ)) (tryBytes n) (tryBytes n) := com_onStr (MStr.try_consume_n_bytes_ren n)
theorem com_is_empty : Com (renS ρ) id (query MStr.is_empty) (query MStr.is_empty) := com_queryI MStr.is_empty_ren
macro_rules | `(tactic| com_leaf) => `(tactic| with_reducible exact com_is_empty)
theorem com_len_bytes : Com (renS ρ) id (query MStr.len_bytes) (query MStr.len_bytes) := com_queryI MStr.len_bytes_ren
macro_rules | `(tactic| com_leaf) => `(tactic| with_reducible exact com_len_bytes)
theorem com_len_chars : Com (renS ρ) id (query MStr.len_chars) (query MStr.len_chars) := com_queryI fun _ => rfl
macro_rules | `(tactic| com_leaf) => `(tactic| with_reducible exact com_len_chars)
theorem com_starts {t : Text} (ht : lowText t = true) : Com (renS ρ) id (query fun m => m.starts_with t) (query fun m => m.starts_with t) :=
  com_queryI fun m => MStr.starts_with_ren m ht
macro_rules | `(tactic| com_leaf) => `(tactic| with_reducible exact com_starts (by decide))
theorem com_find {c : Char} (hc : c.toNat < 256) : Com (renS ρ) id (query fun m => m.find_char c) (query fun m => m.find_char c) :=
  com_queryI (MStr.find_char_ren c hc)
macro_rules | `(tactic| com_leaf) => `(tactic| with_reducible exact com_find (by decide))
theorem com_first_char : Com (renS ρ) (Option.map ρ.f) (query MStr.first_char) (query MStr.first_char) := com_queryG MStr.first_char_ren
theorem com_firstIs {f} (hf : Low f) : Com (renS ρ) id (firstIs f) (firstIs f) := com_queryI (MStr.first_is_ren hf)
macro_rules | `(tactic| com_leaf) => `(tactic| with_reducible exact com_firstIs isDigit_low)
theorem com_local_scope : Com (renS ρ) id (queryE MStr.starts_with_local_scope_pattern)
    (queryE MStr.starts_with_local_scope_pattern) := com_queryE MStr.local_scope_ren
macro_rules | `(tactic| com_leaf) => `(tactic| with_reducible exact com_local_scope)
theorem com_member_pointer : Com (renS ρ) id (queryE MStr.is_member_pointer) (queryE MStr.is_member_pointer) :=
  com_queryE MStr.is_member_pointer_ren
macro_rules | `(tactic| com_leaf) => `(tactic| with_reducible exact com_member_pointer)

theorem com_expectChar {c e} (hc : c.toNat < 256) : Com (renS ρ) id (expectChar c e) (expectChar c e) := by
  have := com_tryChar (ρ := ρ) hc
  unfold expectChar; coms
macro_rules | `(tactic| com_leaf) => `(tactic| with_reducible exact com_expectChar (by decide))
theorem com_expectStr {c e} (hc : lowText c = true) : Com (renS ρ) id (expectStr c e) (expectStr c e) := by
  have := com_tryStr (ρ := ρ) hc
  unfold expectStr; coms
macro_rules | `(tactic| com_leaf) => `(tactic| with_reducible exact com_expectStr (by decide))
theorem com_resolveP {k h} : Com (renS ρ) (renN ρ) (resolveP k h) (resolveP k h) :=
  Com.bind Com.get fun s => Com.liftG (resolve_ren k s.cache h)
theorem com_downcastP {k k' h} : Com (renS ρ) id (downcastP k k' h) (downcastP k k' h) := by
  refine Com.bind Com.get fun s => Com.liftG ?_
  show downcast k k' ((renC ρ) s.cache) h = _
  rw [downcast_ren]
  cases downcast k k' s.cache h <;> rfl
macro_rules | `(tactic| com_leaf) => `(tactic| with_reducible exact com_downcastP)
theorem com_unqualified {s : St} {h} :
    Com (renS ρ) id (SM.lift (get_unqualified_identifier ((renS ρ) s).cache h)) (SM.lift (get_unqualified_identifier s.cache h)) := by
  show Com (renS ρ) id (SM.lift (get_unqualified_identifier ((renC ρ) s.cache) h)) _
  rw [unqualified_ren]
  exact Com.liftI _
macro_rules | `(tactic| com_leaf) => `(tactic| with_reducible exact com_unqualified)
theorem com_modifyNode {k h} {f' : Node → Node} {f : Node → Node} (hf : ∀ n, f' ((renN ρ) n) = (renN ρ) (f n)) :
    Com (renS ρ) id (modifyNode k h f') (modifyNode k h f) := by
  refine Com.bind com_resolveP fun n => Com.modify fun s => ?_
  rw [hf]
  simp only [renS, renC, List.map_set]

/-! ### Updates of (renC ρ) -/

theorem append_quals_ren (q : Qualifiers) (n : Node) : Node.append_quals q ((renN ρ) n) = (renN ρ) (n.append_quals q) := by cases n <;> rfl
macro_rules | `(tactic| com_leaf) => `(tactic| with_reducible exact com_modifyNode (append_quals_ren _))
theorem set_quals_ren (q : Qualifiers) (n : Node) : Node.set_quals q ((renN ρ) n) = (renN ρ) (n.set_quals q) := by cases n <;> rfl
macro_rules | `(tactic| com_leaf) => `(tactic| with_reducible exact com_modifyNode (set_quals_ren _))
theorem set_function_class_ren (q : FuncClass) (n : Node) : Node.set_function_class q ((renN ρ) n) = (renN ρ) (n.set_function_class q) := by
  cases n <;> rfl
macro_rules | `(tactic| com_leaf) => `(tactic| with_reducible exact com_modifyNode (set_function_class_ren _))
theorem set_template_params_ren (q : Handle) (n : Node) : Node.set_template_params q ((renN ρ) n) = (renN ρ) (n.set_template_params q) := by
  cases n <;> rfl
macro_rules | `(tactic| com_leaf) => `(tactic| with_reducible exact com_modifyNode (set_template_params_ren _))
theorem set_name_ren (q : Handle) (n : Node) : Node.set_name q ((renN ρ) n) = (renN ρ) (n.set_name q) := by cases n <;> rfl
macro_rules | `(tactic| com_leaf) => `(tactic| with_reducible exact com_modifyNode (set_name_ren _))
theorem set_class_ren (q : Handle) (n : Node) : set_class q ((renN ρ) n) = (renN ρ) (set_class q n) := by cases n <;> rfl
macro_rules | `(tactic| com_leaf) => `(tactic| with_reducible exact com_modifyNode (set_class_ren _))
theorem pointer_or_quals_ren (q : Qualifiers) (n : Node) : pointer_or_quals q ((renN ρ) n) = (renN ρ) (pointer_or_quals q n) := by
  cases n <;> rfl
macro_rules | `(tactic| com_leaf) => `(tactic| with_reducible exact com_modifyNode (pointer_or_quals_ren _))
theorem set_target_type_ren (q : Option Handle) (n : Node) : set_target_type q ((renN ρ) n) = (renN ρ) (set_target_type q n) := by
  cases n <;> rfl
macro_rules | `(tactic| com_leaf) => `(tactic| with_reducible exact com_modifyNode (set_target_type_ren _))
theorem set_scope_index_ren (q : Nat) (n : Node) : set_scope_index q ((renN ρ) n) = (renN ρ) (set_scope_index q n) := by
  cases n <;> rfl
macro_rules | `(tactic| com_leaf) => `(tactic| with_reducible exact com_modifyNode (set_scope_index_ren _))
theorem set_offset_ren (q : Nat) (n : Node) : set_offset q ((renN ρ) n) = (renN ρ) (set_offset q n) := by cases n <;> rfl
macro_rules | `(tactic| com_leaf) => `(tactic| with_reducible exact com_modifyNode (set_offset_ren _))
theorem asFuncSig_ren (n : Node) : ((renN ρ) n).asFuncSig = n.asFuncSig := by cases n <;> rfl
theorem get_name_ren (n : Node) : ((renN ρ) n).get_name = n.get_name := by
  cases n with
  | VariableSymbol m _ _ => cases m with
    | none => rfl
    | some m => cases m <;> rfl
  | _ => rfl
theorem isConversionOrStructor_ren (n : Node) : ((renN ρ) n).isConversionOrStructor = n.isConversionOrStructor := by cases n <;> rfl
theorem isUntypedConversion_ren (n : Node) : ((renN ρ) n).isUntypedConversion = n.isUntypedConversion := by
  cases n with
  | ConversionOperatorIdentifier _ t => cases t <;> rfl
  | _ => rfl

/-! ### Leaf parsers -/

theorem com_numberBody {x : Nat × Char} :
    Com (renS ρ) (Sum.map (Prod.map id ρ.f) id) (numberBody (Prod.map id ρ.f x)) (numberBody x) := by
  obtain ⟨n, c⟩ := x
  unfold numberBody
  dsimp only [Prod.map, id]
  simp only [f_beq (ρ := ρ) (show '@'.toNat < 256 by decide), hexdigit_low.f]
  refine Com.ite (Com.pure (g := Sum.map (Prod.map id ρ.f) id) (Sum.inr n)) ?_
  by_cases h : is_rebased_ascii_hexdigit c = true
  · have hc : ρ.f c = c := by
      rcases ρ.cases c with h1 | ⟨h1, _⟩
      · exact h1
      · rw [hexdigit_low c h1] at h; cases h
    rw [if_pos h, if_pos h, hc]
    exact Com.ite (Com.bind com_expectAny fun d => Com.pure (g := Sum.map (Prod.map id ρ.f) id) (Sum.inl (_, d))) (Com.crash _)
  · rw [if_neg h, if_neg h]
    exact Com.errI _
theorem com_number : Com (renS ρ) id demangle_number demangle_number := by
  unfold demangle_number
  refine Com.bindI (com_tryChar (by decide)) fun b => Com.bind com_expectAny fun c => ?_
  rw [isDigit_low.f]
  by_cases h : isDigit c = true
  · have hc : ρ.f c = c := by
      rcases ρ.cases c with h1 | ⟨h1, _⟩
      · exact h1
      · rw [isDigit_low c h1] at h; cases h
    rw [if_pos h, if_pos h, hc]
    exact Com.pureI _
  · rw [if_neg h, if_neg h]
    exact Com.bindI (com_loopG (Prod.map id ρ.f) id (fun _ => com_numberBody) (0, c)) fun _ => Com.pureI _
macro_rules | `(tactic| com_leaf) => `(tactic| with_reducible exact com_number)
theorem com_unsigned  : Com (renS ρ) id (demangle_unsigned ) (demangle_unsigned ) := by
  unfold demangle_unsigned; coms
macro_rules | `(tactic| com_leaf) => `(tactic| with_reducible exact com_unsigned)
theorem com_signed  : Com (renS ρ) id (demangle_signed ) (demangle_signed ) := by
  unfold demangle_signed; coms
macro_rules | `(tactic| com_leaf) => `(tactic| with_reducible exact com_signed)
theorem com_qualifiers  : Com (renS ρ) id (demangle_qualifiers ) (demangle_qualifiers ) := by
  unfold demangle_qualifiers; coms
macro_rules | `(tactic| com_leaf) => `(tactic| with_reducible exact com_qualifiers)
theorem com_pointer_cv_qualifiers  : Com (renS ρ) id (demangle_pointer_cv_qualifiers ) (demangle_pointer_cv_qualifiers ) := by
  unfold demangle_pointer_cv_qualifiers; coms
macro_rules | `(tactic| com_leaf) => `(tactic| with_reducible exact com_pointer_cv_qualifiers)
theorem com_pointer_ext_qualifiers  : Com (renS ρ) id (demangle_pointer_ext_qualifiers ) (demangle_pointer_ext_qualifiers ) := by
  unfold demangle_pointer_ext_qualifiers; coms
macro_rules | `(tactic| com_leaf) => `(tactic| with_reducible exact com_pointer_ext_qualifiers)
theorem com_function_ref_qualifier  : Com (renS ρ) id (demangle_function_ref_qualifier ) (demangle_function_ref_qualifier ) := by
  unfold demangle_function_ref_qualifier; coms
macro_rules | `(tactic| com_leaf) => `(tactic| with_reducible exact com_function_ref_qualifier)
theorem functionClassOf_big {c : Char} (h : 256 ≤ c.toNat) : functionClassOf c = none := by
  unfold functionClassOf
  split <;> first | rfl | exact absurd h (by decide)
theorem virtualFunctionClassOf_big {v : FuncClass} {c : Char} (h : 256 ≤ c.toNat) : virtualFunctionClassOf v c = none := by
  unfold virtualFunctionClassOf
  split <;> first | rfl | exact absurd h (by decide)
theorem callingConvOf_big {c : Char} (h : 256 ≤ c.toNat) : callingConvOf c = none := by
  unfold callingConvOf
  split <;> first | rfl | exact absurd h (by decide)
theorem primitiveOf_big {c : Char} (h : 256 ≤ c.toNat) : primitiveOf c = none := by
  unfold primitiveOf
  split <;> first | rfl | exact absurd h (by decide)
theorem primitiveUnderOf_big {c : Char} (h : 256 ≤ c.toNat) : primitiveUnderOf c = none := by
  unfold primitiveUnderOf
  split <;> first | rfl | exact absurd h (by decide)
theorem com_function_class  : Com (renS ρ) id (demangle_function_class ) (demangle_function_class ) := by
  unfold demangle_function_class
  have key : ∀ c d : Char, (∀ v, virtualFunctionClassOf v d = virtualFunctionClassOf v c) → ∀ v, Com (renS ρ) id
      (SM.okOr .InvalidFunctionClass (virtualFunctionClassOf v d)) (SM.okOr .InvalidFunctionClass (virtualFunctionClassOf v c)) := by
    intro c d h v
    rw [h]; exact Com.okOrI _ _
  refine Com.bindC com_expectAny (fun c => Com.ite (Com.bindI (com_tryChar (by decide)) fun b => Com.bindC com_expectAny (fun _ => Com.okOrI _ _)
    fun c d hc hd => key _ _ (fun v => by rw [virtualFunctionClassOf_big hc, virtualFunctionClassOf_big hd]) _) (Com.okOrI _ _)) fun c d hc hd => ?_
  rw [big_beq hc (by decide), big_beq hd (by decide), functionClassOf_big hc, functionClassOf_big hd]
  exact Com.ite (Com.bindI (com_tryChar (by decide)) fun b => Com.bindC com_expectAny (fun _ => Com.okOrI _ _)
    fun c d hc hd => key _ _ (fun v => by rw [virtualFunctionClassOf_big hc, virtualFunctionClassOf_big hd]) _) (Com.okOrI _ _)
macro_rules | `(tactic| com_leaf) => `(tactic| with_reducible exact com_function_class)
theorem com_calling_convention  : Com (renS ρ) id (demangle_calling_convention ) (demangle_calling_convention ) := by
  unfold demangle_calling_convention
  refine Com.bindC com_expectAny (fun _ => Com.pureI _) fun c d hc hd => ?_
  rw [callingConvOf_big hc, callingConvOf_big hd]; exact Com.pureI _
macro_rules | `(tactic| com_leaf) => `(tactic| with_reducible exact com_calling_convention)
theorem com_variable_storage_class  : Com (renS ρ) id (demangle_variable_storage_class ) (demangle_variable_storage_class ) := by
  unfold demangle_variable_storage_class; coms
macro_rules | `(tactic| com_leaf) => `(tactic| with_reducible exact com_variable_storage_class)
theorem com_throw_specification  : Com (renS ρ) id (demangle_throw_specification ) (demangle_throw_specification ) := by
  unfold demangle_throw_specification; coms
macro_rules | `(tactic| com_leaf) => `(tactic| with_reducible exact com_throw_specification)
theorem com_primitive_kind  : Com (renS ρ) id (primitive_kind ) (primitive_kind ) := by
  unfold primitive_kind
  have key : Com (renS ρ) id (expectAny .InvalidPrimitiveType >>= fun f => SM.okOr .InvalidPrimitiveType (primitiveUnderOf f))
      (expectAny .InvalidPrimitiveType >>= fun f => SM.okOr .InvalidPrimitiveType (primitiveUnderOf f)) := by
    refine Com.bindC com_expectAny (fun _ => Com.okOrI _ _) fun c d hc hd => ?_
    rw [primitiveUnderOf_big hc, primitiveUnderOf_big hd]; exact Com.okOrI _ _
  refine Com.bindI (com_tryStr (by decide)) fun _ => Com.ite (Com.pureI _) (Com.bindC com_expectAny (fun c => Com.ite key (Com.okOrI _ _))
    fun c d hc hd => ?_)
  rw [big_beq hc (by decide), big_beq hd (by decide), primitiveOf_big hc, primitiveOf_big hd]
  exact Com.ite key (Com.okOrI _ _)
macro_rules | `(tactic| com_leaf) => `(tactic| with_reducible exact com_primitive_kind)
theorem com_primitive_type  : Com (renS ρ) id (demangle_primitive_type ) (demangle_primitive_type ) := by
  unfold demangle_primitive_type; coms
macro_rules | `(tactic| com_leaf) => `(tactic| with_reducible exact com_primitive_type)

theorem beq_ren (a b : Text) : ((ren ρ) a == (ren ρ) b) = (a == b) := by
  rw [Bool.eq_iff_iff]
  simp only [beq_iff_eq]
  exact ⟨fun h => ren_inj h, fun h => by rw [h]⟩

theorem names_contain_ren (c : Cache) (t : Text) (l : List Handle) :
    memorize_string.names_contain ((renC ρ) c) ((ren ρ) t) l = memorize_string.names_contain c t l := by
  induction l with
  | nil => rfl
  | cons h hs ih =>
    unfold memorize_string.names_contain
    rw [resolve_ren]
    cases hr : resolve .NamedIdentifier c h with
    | error e => rfl
    | ok n => cases n <;> simp only [ih, Except.map, renN, beq_ren]


theorem com_push_name {h} : Com (renS ρ) id (memorize_string.push_name h) (memorize_string.push_name h) := by
  unfold memorize_string.push_name
  refine Com.bind Com.get fun s => ?_
  show Com (renS ρ) id (if s.names.length < 10 then _ else _) _
  exact Com.ite Com.set (Com.crash _)
macro_rules | `(tactic| com_leaf) => `(tactic| with_reducible exact com_push_name)

theorem com_memorize_string {t} : Com (renS ρ) id (memorize_string ((ren ρ) t)) (memorize_string t) := by
  unfold memorize_string
  refine Com.bind Com.get fun s => ?_
  show Com (renS ρ) id (SM.lift (memorize_string.names_contain ((renC ρ) s.cache) ((ren ρ) t) s.names) >>= fun known =>
    if s.names.length < 10 && !known then _ else _) _
  rw [names_contain_ren]
  coms
macro_rules | `(tactic| com_leaf) => `(tactic| with_reducible exact com_memorize_string)
theorem com_simple_string {m} : Com (renS ρ) (ren ρ) (demangle_simple_string m) (demangle_simple_string m) := by
  unfold demangle_simple_string
  refine Com.bindI (com_find (by decide)) fun _ => Com.bindI (Com.okOrI _ _) fun _ => Com.ite (Com.errI _) ?_
  refine Com.bind com_tryBytes fun _ => Com.bind (Com.okOrG _ _) fun _ => Com.bindI (com_expectChar (by decide)) fun _ =>
    Com.bindI (Com.whenB com_memorize_string) fun _ => Com.pure _
theorem com_simple_name {m} : Com (renS ρ) id (demangle_simple_name m) (demangle_simple_name m) :=
  Com.bind com_simple_string fun _ => com_intern rfl
macro_rules | `(tactic| com_leaf) => `(tactic| with_reducible exact com_simple_name)
theorem com_anonymous_namespace_name  : Com (renS ρ) id (demangle_anonymous_namespace_name ) (demangle_anonymous_namespace_name ) := by
  unfold demangle_anonymous_namespace_name
  refine Com.bindI (com_expectStr (by decide)) fun _ => Com.bindI (com_find (by decide)) fun _ => Com.bindI (Com.okOrI _ _) fun _ => Com.bind com_tryBytes fun _ =>
    Com.bind (Com.okOrG _ _) fun _ => Com.bindI com_memorize_string fun _ => Com.bindI (com_expectChar (by decide)) fun _ =>
    com_intern (congrArg (Node.NamedIdentifier none) (ren_low (by decide)).symm)
macro_rules | `(tactic| com_leaf) => `(tactic| with_reducible exact com_anonymous_namespace_name)
theorem com_back_ref_name  : Com (renS ρ) id (demangle_back_ref_name ) (demangle_back_ref_name ) := by
  unfold demangle_back_ref_name
  refine Com.bindI (com_tryIf isDigit_low) fun _ => Com.bindI (Com.okOrI _ _) fun _ => Com.bind Com.get fun _ => Com.okOrI _ _
macro_rules | `(tactic| com_leaf) => `(tactic| with_reducible exact com_back_ref_name)
theorem com_synthesize_from_id {i} : Com (renS ρ) id (synthesize_from_id i) (synthesize_from_id i) := by
  unfold synthesize_from_id; coms
macro_rules | `(tactic| com_leaf) => `(tactic| with_reducible exact com_synthesize_from_id)
theorem com_synthesize_from_name {i} : Com (renS ρ) id (synthesize_from_name ((ren ρ) i)) (synthesize_from_name i) :=
  Com.bindI (com_intern rfl) fun _ => com_synthesize_from_id
macro_rules | `(tactic| com_leaf) => `(tactic| with_reducible exact com_synthesize_from_name)
theorem com_md5_name  : Com (renS ρ) id (demangle_md5_name ) (demangle_md5_name ) := by
  unfold demangle_md5_name
  refine Com.bind (com_queryG (g := (ren ρ)) fun _ => rfl) fun x => Com.bindI (com_expectStr (by decide)) fun _ => Com.bindI (com_find (by decide)) fun _ => Com.bindI (Com.okOrI _ _) fun a =>
    Com.bind com_tryBytes fun _ => Com.bind (Com.okOrG _ _) fun _ => Com.bindI (com_tryStr (by decide)) fun r4 => ?_
  dsimp only
  rw [MStr.split_ren]
  cases h : splitAtBytes ((if r4 then a + 3 + 6 else a + 3) + 1) x with
  | none => exact Com.crash _
  | some p => exact Com.bindI com_synthesize_from_name fun _ => com_intern rfl
macro_rules | `(tactic| com_leaf) => `(tactic| with_reducible exact com_md5_name)
theorem com_literal_operator_identifier  : Com (renS ρ) id (demangle_literal_operator_identifier ) (demangle_literal_operator_identifier ) :=
  Com.bind com_simple_string fun _ => com_intern rfl
macro_rules | `(tactic| com_leaf) => `(tactic| with_reducible exact com_literal_operator_identifier)
theorem com_function_identifier_code_group {g} : Com (renS ρ) id (demangle_function_identifier_code_group g) (demangle_function_identifier_code_group g) := by
  unfold demangle_function_identifier_code_group
  refine Com.bindC com_expectAny (fun c => by coms) fun c d hc hd => ?_
  have ht : ∀ {x : Char}, 256 ≤ x.toNat → translate_intrinsic_function_code x g = .error (.err .InvalidIntrinsicFunctionCode) := by
    intro x hx
    unfold translate_intrinsic_function_code
    rw [isDigit_low x hx, isUpper_low x hx]; rfl
  simp only [big_beq hc (show '0'.toNat < 256 by decide), big_beq hc (show '1'.toNat < 256 by decide), big_beq hc (show 'B'.toNat < 256 by decide),
    big_beq hc (show 'K'.toNat < 256 by decide), big_beq hd (show '0'.toNat < 256 by decide), big_beq hd (show '1'.toNat < 256 by decide),
    big_beq hd (show 'B'.toNat < 256 by decide), big_beq hd (show 'K'.toNat < 256 by decide), ht hc, ht hd]
  coms
macro_rules | `(tactic| com_leaf) => `(tactic| with_reducible exact com_function_identifier_code_group)
theorem com_function_identifier_code  : Com (renS ρ) id (demangle_function_identifier_code ) (demangle_function_identifier_code ) := by
  unfold demangle_function_identifier_code; coms
macro_rules | `(tactic| com_leaf) => `(tactic| with_reducible exact com_function_identifier_code)

theorem com_tryTable {α : Type} (l : List (Text × α)) (hl : l.all (fun x => lowText x.1) = true) : Com (renS ρ) id (tryTable l) (tryTable l) := by
  induction l with
  | nil => exact Com.pureI _
  | cons x xs ih =>
    simp only [List.all_cons, Bool.and_eq_true] at hl
    have := com_tryStr (ρ := ρ) hl.1
    have := ih hl.2
    unfold tryTable; coms

theorem com_special_kind : Com (renS ρ) id consume_special_intrinsic_kind consume_special_intrinsic_kind :=
  com_tryTable _ (by decide)
macro_rules | `(tactic| com_leaf) => `(tactic| with_reducible exact com_special_kind)

theorem com_unchecked {o} : Com (renS ρ) id (demangle_char_literal.unchecked o) (demangle_char_literal.unchecked o) := by
  cases o
  · exact Com.crash _
  · exact Com.pureI _
macro_rules | `(tactic| com_leaf) => `(tactic| with_reducible exact com_unchecked)
theorem com_char_literal  : Com (renS ρ) id (demangle_char_literal ) (demangle_char_literal ) := by
  unfold demangle_char_literal
  have hx : ∀ {x : Char}, 256 ≤ x.toNat → try_convert_rebased_ascii_hexdigit_to_number x = none := by
    intro x hx
    unfold try_convert_rebased_ascii_hexdigit_to_number
    rw [hexdigit_low x hx]; rfl
  have hex : ∀ c : Char, Com (renS ρ) id (SM.okOr .InvalidCharLiteral (try_convert_rebased_ascii_hexdigit_to_number (ρ.f c)))
      (SM.okOr .InvalidCharLiteral (try_convert_rebased_ascii_hexdigit_to_number c)) := by
    intro c
    rcases ρ.cases c with h | ⟨h1, h2⟩
    · rw [h]; exact Com.okOrI _ _
    · rw [hx h1, hx h2]; exact Com.okOrI _ _
  have key : Com (renS ρ) id (onStr MStr.try_consume_2_chars >>= fun nibbles => SM.okOr .InvalidCharLiteral nibbles >>= fun nibbles =>
      SM.okOr .InvalidCharLiteral (try_convert_rebased_ascii_hexdigit_to_number nibbles.1) >>= fun c1 =>
      SM.okOr .InvalidCharLiteral (try_convert_rebased_ascii_hexdigit_to_number nibbles.2) >>= fun c2 =>
      (pure ((c1 <<< 4) % 256 ||| c2) : P Nat))
      (onStr MStr.try_consume_2_chars >>= fun nibbles => SM.okOr .InvalidCharLiteral nibbles >>= fun nibbles =>
      SM.okOr .InvalidCharLiteral (try_convert_rebased_ascii_hexdigit_to_number nibbles.1) >>= fun c1 =>
      SM.okOr .InvalidCharLiteral (try_convert_rebased_ascii_hexdigit_to_number nibbles.2) >>= fun c2 =>
      (pure ((c1 <<< 4) % 256 ||| c2) : P Nat)) :=
    Com.bind com_try2 fun _ => Com.bind (Com.okOrG _ _) fun p => Com.bindI (hex p.1) fun _ => Com.bindI (hex p.2) fun _ => Com.pureI _
  refine Com.bindC com_expectAny (fun c => Com.ite ?_ ?_) fun c d hc hd => ?_
  · refine Com.bindC com_expectAny (fun c => Com.ite key ?_) fun c d hc hd => ?_
    · coms
    · rw [big_beq hc (by decide), big_beq hd (by decide), isDigit_low c hc, isDigit_low d hd, isLower_low c hc, isLower_low d hd,
        isUpper_low c hc, isUpper_low d hd]
      exact Com.errI _
  · coms
  · rw [big_beq hc (by decide), big_beq hd (by decide)]
    simp only [Bool.false_eq_true, if_false, show ¬ c.toNat < 256 by omega, show ¬ d.toNat < 256 by omega]
    exact Com.errI _
macro_rules | `(tactic| com_leaf) => `(tactic| with_reducible exact com_char_literal)
theorem com_wchar_literal  : Com (renS ρ) id (demangle_wchar_literal ) (demangle_wchar_literal ) := by
  unfold demangle_wchar_literal; coms
macro_rules | `(tactic| com_leaf) => `(tactic| with_reducible exact com_wchar_literal)
theorem com_output_escaped_char {c} : Com (ren ρ) id (output_escaped_char c) (output_escaped_char c) := by
  obtain ⟨t, ht, hp⟩ := escapedChar_ok c
  unfold output_escaped_char
  rw [ht]
  exact com_write t (low_printable hp)
macro_rules | `(tactic| com_leaf) => `(tactic| with_reducible exact com_output_escaped_char)
theorem com_wideBody {b x} : Com (renS ρ) (Sum.map (Prod.map id (ren ρ)) (ren ρ)) (wideBody b (Prod.map id (ren ρ) x)) (wideBody b x) := by
  obtain ⟨n, t⟩ := x
  unfold wideBody
  dsimp only [Prod.map]
  refine Com.bindI (com_tryChar (by decide)) fun _ => Com.ite (Com.pure (g := Sum.map (Prod.map id (ren ρ)) (ren ρ)) (Sum.inr t)) ?_
  refine Com.bindI com_len_bytes fun _ => Com.ite (Com.errI _) ?_
  refine Com.bindI com_wchar_literal fun _ => ?_
  refine Com.ite (Com.bind (com_runW com_output_escaped_char t) fun t => ?_) ?_
  · exact Com.pure (g := Sum.map (Prod.map id (ren ρ)) (ren ρ)) (Sum.inl (_, t))
  · exact Com.pure (g := Sum.map (Prod.map id (ren ρ)) (ren ρ)) (Sum.inl (_, t))
theorem com_narrowBody {b} : Com (renS ρ) id (narrowBody b) (narrowBody b) := by
  unfold narrowBody; coms
macro_rules | `(tactic| com_leaf) => `(tactic| with_reducible exact com_narrowBody)
theorem com_decodeBody {b c n t x} : Com (renS ρ) (Prod.map id (ren ρ)) (decodeBody b c n t (Prod.map id (ren ρ) x)) (decodeBody b c n t x) := by
  obtain ⟨k, t⟩ := x
  unfold decodeBody
  dsimp only [Prod.map, id]
  refine Com.bindI (Com.okOrI _ _) fun _ => ?_
  refine Com.ite (Com.bind (com_runW com_output_escaped_char t) fun t => ?_) ?_
  · exact Com.pure (g := Prod.map id (ren ρ)) (_, t)
  · exact Com.pure (g := Prod.map id (ren ρ)) (_, t)
theorem com_string_literal  : Com (renS ρ) id (demangle_string_literal ) (demangle_string_literal ) := by
  unfold demangle_string_literal
  refine Com.bindI (com_expectStr (by decide)) fun _ => Com.bind com_expectAny fun c => ?_
  dsimp only
  rw [f_beq (by decide), f_beq (by decide)]
  refine Com.ite (Com.bindI (Com.pureI _) fun w => ?_) (Com.ite (Com.bindI (Com.pureI _) fun w => ?_)
    (Com.bindI (Com.errI _) fun w => ?_))
  all_goals
    refine Com.bindI com_number fun p => ?_
    refine Com.ite (Com.errI _) ?_
    refine Com.bindI (com_find (by decide)) fun _ => Com.bindI (Com.okOrI _ _) fun _ => Com.bind com_tryBytes fun _ => Com.bind (Com.okOrG _ _) fun _ =>
      Com.bindI com_is_empty fun _ => Com.ite (Com.errI _) (Com.ite ?_ ?_)
    · refine Com.bind (com_loopG (Prod.map id (ren ρ)) (ren ρ) (fun _ => com_wideBody) (p.1, [])) fun t => ?_
      exact com_intern rfl
    · refine Com.bindI (com_loop (fun _ => com_narrowBody) []) fun l => ?_
      refine Com.bindI (Com.okOrI _ _) fun _ => Com.bindI (Com.okOrI _ _) fun _ => ?_
      refine Com.bind (Com.forN (Prod.map id (ren ρ)) (fun _ => com_decodeBody) _ (0, [])) fun x => ?_
      obtain ⟨i, t⟩ := x
      dsimp only [Prod.map]
      exact com_intern rfl
macro_rules | `(tactic| com_leaf) => `(tactic| with_reducible exact com_string_literal)

end Undname.Ren
