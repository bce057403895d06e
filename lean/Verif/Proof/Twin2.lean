/-
  The recursive parsers of two runs with different renderers.
-/
import Verif.Proof.Twin

namespace Undname

/-- A writer fails only because of the output limit (or crashes). -/
def Oom {α : Type} (m : W α) : Prop := ∀ w e, exec m w = .error e → Wild (.error e : Except Fail Unit)

namespace Oom
variable {α β : Type}

theorem bind {m : W α} {f : α → W β} (h : Oom m) (hf : ∀ a, Oom (f a)) : Oom (m >>= f) := by
  intro w e he
  rw [run_bind_eq] at he
  cases hm : exec m w with
  | error e' => rw [hm, andThen_error] at he; cases he; exact h w _ hm
  | ok p => rw [hm, andThen_ok] at he; exact hf _ _ _ he
theorem pure (a : α) : Oom (Pure.pure a : W α) := fun _ _ h => by cases h
theorem pure' (a : α) : Oom (SM.pure a : W α) := fun _ _ h => by cases h
theorem crash (c : Crash) : Oom (SM.crash c : W α) := fun _ _ h => by cases h; trivial
theorem get : Oom (SM.get : W Text) := fun _ _ h => by cases h
theorem write (t : Text) : Oom (write t) := by
  intro w e h
  have h : (if utf8Len t + utf8Len w < OUTPUT_LIMIT then .ok ((), w ++ t) else .error (.err (.Io .OutOfMemory))) = Except.error e := h
  by_cases hl : utf8Len t + utf8Len w < OUTPUT_LIMIT
  · rw [if_pos hl] at h; cases h
  · rw [if_neg hl] at h; cases h; trivial
theorem resolve (k : Kind) (c : Cache) (h : Handle) : Oom (SM.lift (resolve k c h) : W Node) := by
  unfold Undname.resolve
  cases c[h]? with
  | none => exact crash _
  | some n =>
    dsimp only
    split
    · exact pure _
    · exact crash _
theorem ite {b : Prop} [Decidable b] {m m' : W α} (h : Oom m) (h' : Oom m') : Oom (if b then m else m') := by
  split
  · exact h
  · exact h'
theorem whenB {b : Bool} {m : W Unit} (h : Oom m) : Oom (whenB b m) := by
  cases b
  · exact pure _
  · exact h
theorem whenSome {o : Option α} {f : α → W Unit} (h : ∀ a, Oom (f a)) : Oom (whenSome o f) := by
  cases o
  · exact pure _
  · exact h _
theorem sepBy {sep : Text} {f : Handle → W Unit} (h : ∀ a, Oom (f a)) (l : List Handle) : Oom (sepBy sep f l) := by
  have hr : ∀ l, Oom (sepBy.rest sep f l) := by
    intro l
    induction l with
    | nil => exact pure' _
    | cons x l ih => exact bind (write _) fun _ => bind (h x) fun _ => ih
  cases l with
  | nil => exact pure' _
  | cons x l => exact bind (h x) fun _ => hr l

end Oom

/-- Goes through a writer. -/
macro "oom" : tactic => `(tactic| repeat' (first
  | exact Oom.pure _ | exact Oom.pure' _ | exact Oom.crash _ | exact Oom.get | exact Oom.write _ | exact Oom.resolve _ _ _
  | assumption
  | with_reducible refine Oom.bind ?_ fun _ => ?_
  | with_reducible refine Oom.ite ?_ ?_
  | with_reducible refine Oom.whenB ?_
  | with_reducible refine Oom.whenSome fun _ => ?_
  | with_reducible refine Oom.sepBy (fun _ => ?_) _
  | split))

namespace Oom
variable (E : Env) (c : Cache) (r : OutFns)

theorem space : Oom (output_space_if_necessary E) := by unfold output_space_if_necessary; oom
theorem conv (cc : CallingConv) : Oom (cc.output E) := by
  have := space E
  unfold CallingConv.output; oom
theorem quals (q : Qualifiers) (a b : Bool) : Oom (Qualifiers.output E q a b) := by
  have h1 : ∀ m, Oom (Qualifiers.output_single_qualifier E m) := fun m => by
    cases m <;> unfold Qualifiers.output_single_qualifier <;> oom
  have h2 : ∀ m b, Oom (Qualifiers.output_if_present E q m b) := fun m b => by
    have := h1 m
    unfold Qualifiers.output_if_present; oom
  unfold Qualifiers.output
  refine whenB (bind get fun _ => bind (h2 _ _) fun _ => bind (h2 _ _) fun _ => bind (h2 _ _) fun _ => ?_)
  oom

/-- All functions of a level. -/
structure Level : Prop where
  out : ∀ k h, Oom (r.out k h)
  pre : ∀ k h, Oom (r.pre k h)
  post : ∀ k h, Oom (r.post k h)

variable {r} (H : Level r)
include H

theorem funcPre (f : FuncSig) (b : Bool) : Oom (funcPre E r f b) := by
  unfold Undname.funcPre; oom
  · exact H.pre _ _
  · exact conv E _
theorem funcParams (f : FuncSig) : Oom (funcParams r f) := by
  unfold Undname.funcParams; oom <;> exact H.out _ _
theorem funcPost (f : FuncSig) (b : Bool) : Oom (funcPost E r f b) := by
  have h1 := funcParams H f
  have h2 : Oom (funcQuals E f) := by unfold funcQuals; oom
  unfold Undname.funcPost; oom
  exact H.post _ _
theorem thunkPre (f : FuncSig) (b : Bool) : Oom (thunkPre E r f b) := by
  have := funcPre E H f b
  unfold Undname.thunkPre; oom
theorem thunkPost (f : FuncSig) (a : ThisAdjustor) (b : Bool) : Oom (thunkPost E r f a b) := by
  have := funcPost E H f b
  unfold Undname.thunkPost; oom
theorem pointerPre (q : Qualifiers) (a : Option PointerAffinity) (cp : Option Handle) (p : Handle) :
    Oom (pointerPre E c r q a cp p) := by
  have hq := quals E
  have h1 : ∀ pn, Oom (pointeePre E r p pn) := fun pn => by
    unfold pointeePre
    split
    · exact funcPre E H _ _
    · exact thunkPre E H _ _
    · exact H.pre _ _
  have h2 : ∀ pn, Oom (pointeeParen E pn) := fun pn => by
    unfold pointeeParen
    oom <;> exact conv E _
  have h3 := space E
  unfold Undname.pointerPre
  cases a with
  | none =>
    exact bind (resolve _ _ _) fun pn => bind (h1 pn) fun _ => bind h3 fun _ => bind (by oom) fun _ => bind (h2 pn) fun _ =>
      bind (whenSome fun _ => bind (H.out _ _) fun _ => write _) fun _ => bind (crash _) fun _ => hq _ _ _
  | some a =>
    exact bind (resolve _ _ _) fun pn => bind (h1 pn) fun _ => bind h3 fun _ => bind (by oom) fun _ => bind (h2 pn) fun _ =>
      bind (whenSome fun _ => bind (H.out _ _) fun _ => write _) fun _ => bind (write _) fun _ => hq _ _ _
theorem preNode (n : Node) : Oom (preNode E c r n) := by
  have hq := quals E
  cases n <;> unfold Undname.preNode <;> oom <;> (
    first
    | exact hq _ _ _ | exact funcPre E H _ _ | exact thunkPre E H _ _
    | exact H.out _ _ | exact H.pre _ _ | exact pointerPre E c H _ _ _ _)
theorem pointerPost (p : Handle) : Oom (pointerPost E c r p) := by
  unfold Undname.pointerPost
  refine bind (resolve _ _ _) fun pn => bind (whenB (write _)) fun _ => ?_
  unfold pointeePost
  split
  · exact funcPost E H _ _
  · exact thunkPost E H _ _ _
  · exact H.post _ _
theorem dims (h : Handle) : Oom (output_dimensions_impl c h) := by
  unfold output_dimensions_impl
  refine bind (resolve _ _ _) fun n => ?_
  split
  · refine sepBy (fun x => ?_) _
    unfold output_one_dimension
    oom
  · exact crash _
theorem postNode (n : Node) : Oom (postNode E c r n) := by
  cases n <;> unfold Undname.postNode <;> oom <;> (
    first
    | exact funcPost E H _ _ | exact thunkPost E H _ _ _
    | exact H.post _ _ | exact pointerPost E c H _ | exact dims c H _)
theorem tparams (tp : Option Handle) : Oom (templateParams r tp) := by
  unfold templateParams; oom
  exact H.out _ _
theorem outNode (n : Node) : Oom (outNode E c r n) := by
  have hq := quals E
  have ht := tparams H
  have hv : ∀ a b d, Oom (variableOut E r a b d) := fun a b d => by
    have := space E
    unfold variableOut; oom <;> first | exact H.out _ _ | exact H.pre _ _ | exact H.post _ _
  have hs := space E
  cases n <;> unfold Undname.outNode <;> oom <;> (
    first
    | exact H.out _ _ | exact H.pre _ _ | exact H.post _ _
    | exact hq _ _ _ | exact ht _ | exact hv _ _ _ | exact preNode E c H _ | exact postNode E c H _)

end Oom

theorem oom_render (E : Env) (c : Cache) (k : Kind) (h : Handle) : Oom (render E c k h) := by
  have H : ∀ n, Oom.Level (outFns E c n) := by
    intro n
    induction n with
    | zero => exact ⟨fun _ _ => Oom.crash _, fun _ _ => Oom.crash _, fun _ _ => Oom.crash _⟩
    | succ n ih =>
      exact ⟨fun _ _ => Oom.bind (Oom.resolve _ _ _) fun _ => Oom.outNode E c ih _,
        fun _ _ => Oom.bind (Oom.resolve _ _ _) fun _ => Oom.preNode E c ih _,
        fun _ _ => Oom.bind (Oom.resolve _ _ _) fun _ => Oom.postNode E c ih _⟩
  exact (H _).out k h

/-! ### The recursive parsers -/

namespace Rel

/-- Two levels of the parser. -/
structure Level (r r' : Fns) : Prop where
  type : ∀ q, Rel (r.type q) (r'.type q)
  parse : Rel r.parse r'.parse

section
variable (E E' : Env) {r r' : Fns} (H : Level r r')
include H

theorem uname (b : Bool) : Rel (demangle_unqualified_type_name r b) (demangle_unqualified_type_name r' b) := by
  unfold demangle_unqualified_type_name
  refine bind (leafy (Leafy.firstIs _)) fun d => ite (fun _ => back_ref) fun _ => noT ?_
  exact simple_name b

theorem sname (b : NBB) : Rel (demangle_unqualified_symbol_name r b) (demangle_unqualified_symbol_name r' b) := by
  unfold demangle_unqualified_symbol_name
  refine bind (leafy (Leafy.firstIs _)) fun d => ite (fun _ => back_ref) fun _ => noT ?_
  exact bind (leafy (Leafy.query _)) fun _ => ite (fun _ => code) fun _ => simple_name _

theorem local_piece : Rel (demangle_locally_scoped_name_piece (render E) r) (demangle_locally_scoped_name_piece (render E') r') := by
  unfold demangle_locally_scoped_name_piece
  refine bind (leafy (Leafy.expectChar _ _)) fun _ => bind (leafy Leafy.number) fun n => ite (fun _ => leafy (Leafy.err _)) fun _ =>
    bind (leafy (Leafy.expectChar _ _)) fun _ => bind H.parse fun sc => ?_
  intro s s' hs
  have key : ∀ (E : Env) (s : St), Wild (exec (runW (do
        write c!"`"
        render E s.cache .ISymbolNode sc
        write (c!"'::`" ++ decNat n.1 ++ c!"'")) []) s) ∨ ∃ t, exec (runW (do
        write c!"`"
        render E s.cache .ISymbolNode sc
        write (c!"'::`" ++ decNat n.1 ++ c!"'")) []) s = .ok (t, s) := by
    intro E s
    have ho : Oom (do
        write c!"`"
        render E s.cache .ISymbolNode sc
        write (c!"'::`" ++ decNat n.1 ++ c!"'")) :=
      Oom.bind (Oom.write _) fun _ => Oom.bind (oom_render E _ _ _) fun _ => Oom.write _
    show Wild (runW _ _ s) ∨ ∃ t, runW _ _ s = _
    unfold runW
    split
    · exact .inr ⟨_, rfl⟩
    · next e he => exact .inl (wild_cast (ho _ _ he))
  have step : ∀ (E : Env) (s : St), exec (SM.get >>= fun s : St => runW (do
        write c!"`"
        render E s.cache .ISymbolNode sc
        write (c!"'::`" ++ decNat n.1 ++ c!"'")) [] >>= fun name => Undname.intern (.NamedIdentifier none name)) s =
      andThen (exec (runW (do
        write c!"`"
        render E s.cache .ISymbolNode sc
        write (c!"'::`" ++ decNat n.1 ++ c!"'")) []) s) fun x => exec (Undname.intern (.NamedIdentifier none x.1)) x.2 := by
    intro E s
    rw [run_bind_eq]
    show exec (_ >>= _) _ = _
    rw [run_bind_eq]
  rw [step, step]
  rcases key E s with h | ⟨t, h⟩
  · refine .inl ?_
    revert h
    generalize exec (runW _ _) s = x
    cases x with
    | ok p => exact fun h => h.elim
    | error e => exact fun h => wild_cast h
  · rcases key E' s' with h' | ⟨t', h'⟩
    · refine .inr (.inl ?_)
      revert h'
      generalize exec (runW _ _) s' = x
      cases x with
      | ok p => exact fun h => h.elim
      | error e => exact fun h => wild_cast h
    · rw [h, h', andThen_ok, andThen_ok]
      exact intern2 (.inr ⟨t, t', rfl, rfl⟩) s s' hs

theorem piece : Rel (demangle_name_scope_piece (render E) r) (demangle_name_scope_piece (render E') r') := by
  unfold demangle_name_scope_piece
  refine bind (leafy (Leafy.firstIs _)) fun d => ite (fun _ => back_ref) fun _ => noT ?_
  exact bind (leafy (Leafy.query _)) fun _ => ite (fun _ => anon) fun _ =>
    bind (leafy (Leafy.queryE _)) fun _ => ite (fun _ => local_piece E E' H) fun _ => simple_name _

theorem chain (h : Handle) : Rel (demangle_name_scope_chain (render E) r h) (demangle_name_scope_chain (render E') r' h) := by
  unfold demangle_name_scope_chain
  refine loopInput (fun l => ?_) _
  have := piece E E' H
  unfold scopeChainBody
  rel

theorem qtn : Rel (demangle_fully_qualified_type_name (render E) r) (demangle_fully_qualified_type_name (render E') r') :=
  bind (uname H true) fun _ => chain E E' H _

omit H in
theorem class_of (h : Handle) : Rel (class_of_structor h) (class_of_structor h) := by
  unfold class_of_structor
  refine bind (resolveP rfl _) fun q => ?_
  split
  · refine bind (resolveP rfl _) fun a => ?_
    split
    · refine ite (fun _ => leafy (Leafy.err _)) fun _ => ?_
      split
      · exact bind (downcastP _ _ _) fun _ => leafy (Leafy.okOr _ _)
      · exact leafy (Leafy.err _)
    · exact leafy (Leafy.crash _)
  · exact leafy (Leafy.crash _)

theorem qsn : Rel (demangle_fully_qualified_symbol_name (render E) r) (demangle_fully_qualified_symbol_name (render E') r') := by
  unfold demangle_fully_qualified_symbol_name
  refine bind (sname H _) fun i => bind (chain E E' H _) fun q => bind (downcastP _ _ _) fun o => ?_
  cases o with
  | none => exact leafy (Leafy.pure _)
  | some x => exact bind (class_of _) fun _ => bind (modifyNode fun _ => rfl) fun _ => leafy (Leafy.pure _)

theorem class_type : Rel (demangle_class_type (render E) r) (demangle_class_type (render E') r') := by
  unfold demangle_class_type
  refine bind (leafy (Leafy.expectAny _)) fun f => ?_
  have hj : ∀ tag : TagKind, Rel (demangle_fully_qualified_type_name (render E) r >>= fun name => Undname.intern (.TagType Qualifiers.Q_None name tag))
      (demangle_fully_qualified_type_name (render E') r' >>= fun name => Undname.intern (.TagType Qualifiers.Q_None name tag)) :=
    fun tag => bind (qtn E E' H) fun _ => intern _
  dsimp only
  split
  · exact bind (leafy (Leafy.pure _)) hj
  · exact bind (leafy (Leafy.pure _)) hj
  · exact bind (leafy (Leafy.pure _)) hj
  · exact bind (leafy (Leafy.tryChar _)) fun _ => ite (fun _ => bind (leafy (Leafy.pure _)) hj) fun _ => bind (leafy (Leafy.err _)) hj
  · exact bind (leafy (Leafy.err _)) hj

theorem custom : Rel (demangle_custom_type r) (demangle_custom_type r') := by
  have := uname H true
  unfold demangle_custom_type; rel

theorem paramBody (l : List Handle) : Rel (paramListBody r l) (paramListBody r' l) := by
  unfold paramListBody
  refine bind (leafy (Leafy.firstIs _)) fun _ => ite (fun _ => leafy (Leafy.pure _)) fun _ => bind (leafy (Leafy.query _)) fun _ =>
    ite (fun _ => leafy (Leafy.err _)) fun _ => bind (leafy (Leafy.tryIf _)) fun n => ?_
  cases n with
  | some n =>
    intro s s' hs
    have e : ∀ s : St, exec (SM.get >>= fun s : St => SM.okOr Error.InvalidFunctionParameterList s.function_params[n.toNat - '0'.toNat]? >>=
        fun param => (Pure.pure (.inl (l ++ [param])) : P (List Handle ⊕ List Handle))) s =
      exec (SM.okOr Error.InvalidFunctionParameterList s.function_params[n.toNat - '0'.toNat]? >>=
        fun param => (Pure.pure (.inl (l ++ [param])) : P (List Handle ⊕ List Handle))) s := fun _ => rfl
    show Wild (exec (SM.get >>= fun s : St => SM.okOr Error.InvalidFunctionParameterList s.function_params[n.toNat - '0'.toNat]? >>=
        fun param => (Pure.pure (.inl (l ++ [param])) : P (List Handle ⊕ List Handle))) s) ∨ _
    refine Eq.mp ?_ (bind (leafy (Leafy.okOr Error.InvalidFunctionParameterList s.function_params[n.toNat - '0'.toNat]?))
      (fun param => leafy (Leafy.pure (.inl (l ++ [param]) : List Handle ⊕ List Handle))) s s' hs)
    rw [← e s, show exec (SM.okOr Error.InvalidFunctionParameterList s.function_params[n.toNat - '0'.toNat]? >>=
        fun param => (Pure.pure (.inl (l ++ [param])) : P (List Handle ⊕ List Handle))) s' = _ from by rw [← hs.params, ← e s']]
  | none =>
    refine bind (leafy (Leafy.query _)) fun _ => bind (H.type _) fun t => bind (leafy (Leafy.query _)) fun _ =>
      ite (fun _ => leafy (Leafy.crash _)) fun _ => ite (fun _ => leafy (Leafy.err _)) fun _ =>
      bind (whenB fun _ => ?_) fun _ => leafy (Leafy.pure _)
    intro s s' hs
    refine .inr (.inr (.inr ⟨(), _, _, rfl, rfl, ?_⟩))
    dsimp only
    rw [hs.params]
    split
    · exact ⟨hs.str, hs.names, by simp [hs.params], hs.len, hs.nodes, hs.same, hs.noT⟩
    · exact hs

theorem params : Rel (demangle_function_parameter_list r) (demangle_function_parameter_list r') := by
  have := loopInput (paramBody H) []
  unfold demangle_function_parameter_list; rel

theorem fty (b : Bool) : Rel (demangle_function_type r b) (demangle_function_type r' b) := by
  have h1 := params H
  unfold demangle_function_type
  refine bind (leafy (Leafy.thisQuals _)) fun q => bind (leafy Leafy.callconv) fun _ => bind (leafy (Leafy.tryChar _)) fun _ =>
    ite (fun _ => bind (leafy (Leafy.pure _)) fun _ => bind h1 fun p => bind (leafy Leafy.throwSpec) fun _ => intern _)
      fun _ => bind (H.type _) fun _ => bind (leafy (Leafy.pure _)) fun _ =>
        bind h1 fun p => bind (leafy Leafy.throwSpec) fun _ => intern _

theorem pointer : Rel (demangle_pointer_type r) (demangle_pointer_type r') := by
  unfold demangle_pointer_type
  exact bind (leafy Leafy.ptrQuals) fun q => bind (leafy (Leafy.tryChar _)) fun _ => ite
    (fun _ => bind (fty H _) fun _ => intern _)
    fun _ => bind (leafy Leafy.extQuals) fun _ => bind (H.type _) fun _ => intern _

omit H in
theorem setq (q : Qualifiers) (h : Handle) : Rel (Undname.modifyNode .ITypeNode h (Node.set_quals q)) (Undname.modifyNode .ITypeNode h (Node.set_quals q)) :=
  modifyNode fun _ => rfl
omit H in
theorem addq (q : Qualifiers) (h : Handle) : Rel (Undname.modifyNode .ITypeNode h (Node.append_quals q)) (Undname.modifyNode .ITypeNode h (Node.append_quals q)) :=
  modifyNode fun _ => rfl

theorem memberPtr : Rel (demangle_member_pointer_type (render E) r) (demangle_member_pointer_type (render E') r') := by
  have h1 := qtn E E' H
  unfold demangle_member_pointer_type
  exact bind (leafy Leafy.ptrQuals) fun q => ite (fun _ => leafy (Leafy.err _)) fun _ => bind (leafy Leafy.extQuals) fun _ =>
    bind (leafy (Leafy.tryChar _)) fun _ => ite
      (fun _ => bind h1 fun _ => bind (fty H _) fun _ => intern _)
      fun _ => bind (leafy Leafy.qualifiers) fun _ => ite (fun _ => leafy (Leafy.err _)) fun _ => bind h1 fun _ =>
        bind (H.type _) fun _ => bind (setq _ _) fun _ => intern _

theorem array : Rel (demangle_array_type r) (demangle_array_type r') := by
  have hd : ∀ l, Rel (arrayDim l) (arrayDim l) := fun l => by
    have := Leafy.number
    unfold arrayDim; rel
  have hq := Leafy.qualifiers
  unfold demangle_array_type
  exact bind (leafy (Leafy.expectChar _ _)) fun _ => bind (leafy Leafy.number) fun _ => ite (fun _ => leafy (Leafy.err _)) fun _ =>
    bind (forN hd _ _) fun _ => bind (intern _) fun _ => bind (leafy (Leafy.tryStr _)) fun _ =>
    ite (fun _ => bind (leafy Leafy.qualifiers) fun _ =>
        ite (fun _ => bind (leafy (Leafy.err _)) fun _ => bind (H.type _) fun _ => intern _)
          fun _ => bind (leafy (Leafy.pure _)) fun _ => bind (H.type _) fun _ => intern _)
      fun _ => bind (leafy (Leafy.pure _)) fun _ => bind (H.type _) fun _ => intern _

theorem typeBody : Rel (demangle_type_body (render E) r) (demangle_type_body (render E') r') := by
  unfold demangle_type_body
  refine bind (leafy (Leafy.query _)) fun m => ite (fun _ => class_type E E' H) fun _ => ite (fun _ => ?_) fun _ =>
    ite (fun _ => array H) fun _ => ite (fun _ => ?_) fun _ => ite (fun _ => custom H) fun _ => primitive
  · refine bind (leafy (Leafy.queryE _)) fun k => ?_
    rcases k with _ | (_ | _)
    · exact leafy (Leafy.err _)
    · exact pointer H
    · exact memberPtr E E' H
  · have := fty H
    rel <;> exact this _

theorem type (q : QMM) : Rel (demangle_type (render E) r q) (demangle_type (render E') r' q) := by
  unfold demangle_type
  exact bind (leafy (Leafy.typeQuals _)) fun _ => bind (leafy (Leafy.query _)) fun _ => ite (fun _ => leafy (Leafy.err _)) fun _ =>
    bind (typeBody E E' H) fun _ => bind (addq _ _) fun _ => leafy (Leafy.pure _)

/-! ### Symbols -/

theorem varQuals (h : Handle) : Rel (variable_quals (render E) r h) (variable_quals (render E') r' h) := by
  unfold variable_quals
  refine bind (downcastP _ _ _) fun o => ?_
  cases o with
  | none => exact bind (leafy Leafy.qualifiers) fun _ => setq _ _
  | some p =>
    refine bind (leafy Leafy.extQuals) fun _ => bind (resolveP rfl _) fun n => ?_
    cases n
    case PointerType =>
      exact bind (modifyNode fun _ => rfl) fun _ => bind (leafy Leafy.qualifiers) fun _ =>
        bind (whenB fun _ => bind (qtn E E' H) fun _ => leafy (Leafy.pure _)) fun _ => addq _ _
    all_goals exact leafy (Leafy.crash _)

theorem vari (sc : StorageClass) : Rel (demangle_variable_encoding (render E) r sc) (demangle_variable_encoding (render E') r' sc) :=
  bind (H.type _) fun _ => bind (varQuals E E' H _) fun _ => intern _

theorem function : Rel (demangle_function_encoding r) (demangle_function_encoding r') := by
  unfold demangle_function_encoding
  refine bind (leafy (Leafy.tryStr _)) fun _ => bind (leafy (Leafy.query _)) fun _ => ite (fun _ => leafy (Leafy.err _)) fun _ =>
    bind (leafy Leafy.fclass) fun _ => bind (leafy (Leafy.thunkAdjust _)) fun o => ?_
  have hj : ∀ fc signature, Rel (Undname.modifyNode .ISignatureNode signature (Node.set_function_class fc) >>= fun _ =>
      Undname.intern (.FunctionSymbol none signature)) (Undname.modifyNode .ISignatureNode signature (Node.set_function_class fc) >>= fun _ =>
      Undname.intern (.FunctionSymbol none signature)) := fun fc sg => bind (modifyNode fun _ => rfl) fun _ => intern _
  cases o with
  | none =>
    exact ite (fun _ => bind (intern _) fun _ => bind (leafy (Leafy.pure _)) (hj _))
      fun _ => bind (fty H _) fun _ => bind (leafy (Leafy.pure _)) (hj _)
  | some a =>
    exact ite (fun _ => bind (intern _) fun _ => bind (resolveP rfl _) fun _ => bind (intern _) (hj _))
      fun _ => bind (fty H _) fun _ => bind (resolveP rfl _) fun _ => bind (intern _) (hj _)

omit H in
theorem retType (h : Handle) : Rel (function_return_type h) (function_return_type h) := by
  unfold function_return_type
  refine bind (resolveP rfl _) fun n => ?_
  cases n
  case FunctionSymbol => exact bind (resolveP rfl _) fun _ => leafy (Leafy.pure _)
  all_goals exact leafy (Leafy.crash _)

theorem encoded (h : Handle) : Rel (demangle_encoded_symbol (render E) r h) (demangle_encoded_symbol (render E') r' h) := by
  unfold demangle_encoded_symbol
  exact bind (leafy (Leafy.query _)) fun _ => bind (leafy (Leafy.okOr _ _)) fun _ => ite
    (fun _ => bind (leafy Leafy.storage) fun _ => vari E E' H _)
    fun _ => bind (function H) fun _ => bind (retType _) fun _ => unqualified _ fun _ => bind (leafy (Leafy.okOr _ _)) fun _ =>
      bind (modifyNode fun _ => rfl) fun _ => leafy (Leafy.pure _)

theorem declarator : Rel (demangle_declarator (render E) r) (demangle_declarator (render E') r') := by
  unfold demangle_declarator
  refine bind (qsn E E' H) fun q => bind (encoded E E' H _) fun x => bind (modifyNode fun _ => rfl) fun _ => unqualified _ fun _ =>
    bind (leafy (Leafy.okOr _ _)) fun i => ?_
  intro s s' hs
  have e : ∀ s : St, exec (Undname.resolveP .IIdentifierNode i >>= fun n => if n.isUntypedConversion then SM.err .InvalidDeclarator
      else (Pure.pure x : P Handle)) s = exec (SM.lift (resolve .IIdentifierNode s.cache i) >>= fun n =>
        if n.isUntypedConversion then SM.err .InvalidDeclarator else (Pure.pure x : P Handle)) s := fun _ => rfl
  rw [e, e]
  rcases resolve_cases hs.nodes .IIdentifierNode i with hr | ⟨a, b, h1, h2⟩
  · rw [hr]
    exact bind (leafy (Leafy.lift _)) (fun n => ite (fun _ => leafy (Leafy.err _)) fun _ => leafy (Leafy.pure _)) s s' hs
  · rw [h1, h2]
    exact .inr (.inr (.inr ⟨x, s, s', rfl, rfl, hs⟩))

theorem typeinfo : Rel (demangle_typeinfo_name r) (demangle_typeinfo_name r') := by
  have := H.type .Result
  unfold demangle_typeinfo_name; rel

theorem table (k : SpecialIntrinsicKind) : Rel (demangle_special_table_symbol_node (render E) r k) (demangle_special_table_symbol_node (render E') r' k) := by
  unfold demangle_special_table_symbol_node
  exact bind (leafy (Leafy.okOr _ _)) fun _ => bind (intern _) fun _ => bind (chain E E' H _) fun _ => bind (leafy (Leafy.tryIf _)) fun _ =>
    bind (leafy (Leafy.okOr _ _)) fun _ => bind (leafy Leafy.qualifiers) fun _ => bind (leafy (Leafy.tryChar _)) fun _ =>
    ite (fun _ => bind (leafy (Leafy.pure _)) fun _ => intern _)
      fun _ => bind (qtn E E' H) fun _ => bind (leafy (Leafy.pure _)) fun _ => intern _

theorem guard (b : Bool) : Rel (demangle_local_static_guard (render E) r b) (demangle_local_static_guard (render E') r' b) := by
  unfold demangle_local_static_guard
  have hj : ∀ (l n : Handle) (v : Bool), Rel (Undname.query MStr.is_empty >>= fun e => Undname.whenB (!e) (demangle_unsigned >>= fun i =>
        if i < 2 ^ 32 then Undname.modifyNode .LocalStaticGuardIdentifier l (set_scope_index i)
        else SM.err .InvalidLocalStaticGuard) >>= fun _ => Undname.intern (.LocalStaticGuardVariable n v))
      (Undname.query MStr.is_empty >>= fun e => Undname.whenB (!e) (demangle_unsigned >>= fun i =>
        if i < 2 ^ 32 then Undname.modifyNode .LocalStaticGuardIdentifier l (set_scope_index i)
        else SM.err .InvalidLocalStaticGuard) >>= fun _ => Undname.intern (.LocalStaticGuardVariable n v)) := fun _ _ _ =>
    bind (leafy (Leafy.query _)) fun _ => bind (whenB fun _ => bind (leafy Leafy.unsigned) fun _ => ite
      (fun _ => modifyNode fun _ => rfl) fun _ => leafy (Leafy.err _)) fun _ => intern _
  exact bind (intern _) fun _ => bind (chain E E' H _) fun _ => bind (leafy (Leafy.tryStr _)) fun _ =>
    ite (fun _ => bind (leafy (Leafy.pure _)) (hj _ _)) fun _ => bind (leafy (Leafy.tryChar _)) fun _ =>
      ite (fun _ => bind (leafy (Leafy.pure _)) (hj _ _)) fun _ => bind (leafy (Leafy.err _)) (hj _ _)

theorem untyped (t : Text) : Rel (demangle_untyped_variable (render E) r t) (demangle_untyped_variable (render E') r' t) := by
  unfold demangle_untyped_variable
  exact bind (intern _) fun _ => bind (chain E E' H _) fun _ => bind (leafy (Leafy.tryChar _)) fun _ =>
    ite (fun _ => intern _) fun _ => leafy (Leafy.err _)

theorem baseDescr : Rel (demangle_rtti_base_class_descriptor_node (render E) r) (demangle_rtti_base_class_descriptor_node (render E') r') := by
  have hu : Leafy demangle_rtti_base_class_descriptor_node.u32 := by
    have := Leafy.unsigned
    unfold demangle_rtti_base_class_descriptor_node.u32; leafy
  unfold demangle_rtti_base_class_descriptor_node
  exact bind (leafy hu) fun _ => bind (leafy Leafy.signed) fun _ => ite (fun _ => leafy (Leafy.err _)) fun _ =>
    bind (leafy hu) fun _ => bind (leafy hu) fun _ => bind (intern _) fun _ => bind (chain E E' H _) fun _ =>
    bind (leafy (Leafy.expectChar _ _)) fun _ => intern _

theorem stub (b : Bool) : Rel (demangle_init_fini_stub (render E) r b) (demangle_init_fini_stub (render E') r' b) := by
  unfold demangle_init_fini_stub
  refine bind (leafy (Leafy.tryChar _)) fun known => bind (declarator E E' H) fun sy => bind (downcastP _ _ _) fun o => ?_
  cases o with
  | some v =>
    cases known
    · exact bind (leafy (Leafy.expectChar _ _)) fun _ => bind (function H) fun _ => bind (intern _) fun _ => bind (from_id _) fun _ =>
        bind (modifyNode fun _ => rfl) fun _ => leafy (Leafy.pure _)
    · exact bind (leafy (Leafy.expectStr _ _)) fun _ => bind (function H) fun _ => bind (intern _) fun _ => bind (from_id _) fun _ =>
        bind (modifyNode fun _ => rfl) fun _ => leafy (Leafy.pure _)
  | none =>
    refine bind (downcastP _ _ _) fun o => ?_
    cases o with
    | none => exact leafy (Leafy.err _)
    | some f =>
      exact ite (fun _ => leafy (Leafy.err _)) fun _ => bind (resolveP rfl _) fun _ => bind (leafy (Leafy.okOr _ _)) fun _ =>
        bind (intern _) fun _ => bind (from_id _) fun _ => bind (modifyNode fun _ => rfl) fun _ => leafy (Leafy.pure _)

theorem vcall : Rel (demangle_vcall_thunk_node (render E) r) (demangle_vcall_thunk_node (render E') r') := by
  unfold demangle_vcall_thunk_node
  exact bind (intern _) fun _ => bind (chain E E' H _) fun _ => bind (leafy (Leafy.expectStr _ _)) fun _ => bind (leafy Leafy.unsigned) fun _ =>
    bind (modifyNode fun _ => rfl) fun _ => bind (leafy (Leafy.expectChar _ _)) fun _ => bind (leafy Leafy.callconv) fun _ =>
    bind (intern _) fun _ => intern _

theorem rttiType : Rel (demangle_rtti_type_descriptor r) (demangle_rtti_type_descriptor r') := by
  unfold demangle_rtti_type_descriptor
  exact bind (H.type _) fun _ => bind (leafy (Leafy.expectStr _ _)) fun _ => bind (leafy (Leafy.query _)) fun _ =>
    ite (fun _ => bind (from_name _) fun _ => intern _) fun _ => leafy (Leafy.err _)

theorem special (k : SpecialIntrinsicKind) : Rel (special_intrinsic (render E) r k) (special_intrinsic (render E') r' k) := by
  cases k <;> unfold special_intrinsic
  all_goals first
    | exact literal | exact table E E' H _ | exact vcall E E' H | exact guard E E' H _ | exact rttiType H
    | exact untyped E E' H _ | exact baseDescr E E' H | exact stub E E' H _ | exact leafy (Leafy.err _)

theorem do_parse : Rel (do_parse (render E) r) (do_parse (render E') r') := by
  unfold Undname.do_parse
  refine bind (leafy (Leafy.query _)) fun _ => ite (fun _ => typeinfo H) fun _ => bind (leafy (Leafy.query _)) fun _ =>
    ite (fun _ => md5) fun _ => bind (leafy (Leafy.expectChar _ _)) fun _ => bind (leafy Leafy.specialKind) fun o => ?_
  cases o with
  | some k => exact special E E' H k
  | none => exact declarator E E' H

end

theorem level (E E' : Env) (n : Nat) : Level (fns (render E) n) (fns (render E') n) := by
  induction n with
  | zero => exact ⟨fun _ => leafy (Leafy.crash _), leafy (Leafy.crash _)⟩
  | succ n ih => exact ⟨fun q => type E E' ih q, do_parse E E' ih⟩

end Rel

/-- The two runs on a name without template instantiations. -/
theorem parse_twins (E E' : Env) {m : Text} (h : NoT m) :
    Wild (parse (render E) m) ∨ Wild (parse (render E') m) ∨
    (∃ e, parse (render E) m = .error e ∧ parse (render E') m = .error e) ∨
    (∃ a t t', parse (render E) m = .ok (a, t) ∧ parse (render E') m = .ok (a, t') ∧ Eqv t t') := by
  refine (Rel.level E E' (m.length + 1)).parse (initSt m) (initSt m) ⟨rfl, rfl, rfl, rfl, fun _ => .inl rfl, ?_, h⟩
  intro h hh
  cases hh

end Undname
