/-
  Cost analysis: every node the parser creates is paid for by the input it consumes, two nodes per
  character. Used to show that short names never hit the limit on the number of nodes.
-/
import Verif.Proof.Run

namespace Undname

/-- Nodes created so far, plus what the remaining input can pay for. -/
def pot (s : St) : Nat := s.cache.length + 2 * s.str.string.length

/-- A result that is not the node limit error, and satisfies `p` if it is a success. -/
def Post {α : Type} (r : Except Fail α) (p : α → Prop) : Prop :=
  match r with
  | .ok a => p a
  | .error y => y ≠ .err .MaliciousInput

/-- `m` never reports the node limit when started with `e` nodes of credit, and returns `d a` nodes of
credit. -/
def Cr {α : Type} (e : Nat) (m : P α) (d : α → Nat) : Prop :=
  ∀ k s, k ≤ NODE_LIMIT → pot s + e ≤ k → Post (exec m s) fun x => pot x.2 + d x.1 ≤ k

/-- A computation that never reports the node limit. -/
def NM {σ α : Type} (m : SM σ α) : Prop := ∀ s, exec m s ≠ .error (.err .MaliciousInput)

namespace NM
variable {σ α β : Type}

theorem bind {m : SM σ α} {f : α → SM σ β} (h : NM m) (hf : ∀ a, NM (f a)) : NM (m >>= f) := by
  intro s
  rw [run_bind_eq]
  have := h s
  cases hm : exec m s with
  | error e => rw [hm] at this; simpa [andThen] using this
  | ok x => exact hf x.1 x.2

theorem pure (a : α) : NM (Pure.pure a : SM σ α) := by intro s; simp [run]
theorem pure' (a : α) : NM (SM.pure a : SM σ α) := by intro s; simp [run]
theorem err {e : Error} (h : e ≠ .MaliciousInput) : NM (SM.err e : SM σ α) := by
  intro s; simpa [run] using h
theorem crash {e : Crash} : NM (SM.crash e : SM σ α) := by intro s; simp [run]
theorem get : NM (SM.get : SM σ σ) := by intro s; simp [run]
theorem lift {x : Except Fail α} (h : x ≠ .error (.err .MaliciousInput)) : NM (SM.lift x : SM σ α) := by
  intro s
  cases x with
  | ok a => simp [run]
  | error e => rw [run_lift_err]; intro he; cases he; exact h rfl
theorem whenB {b : Bool} {m : SM σ Unit} (h : NM m) : NM (whenB b m) := by
  cases b
  · exact pure' ()
  · exact h
theorem whenSome {o : Option α} {f : α → SM σ Unit} (h : ∀ a, NM (f a)) : NM (whenSome o f) := by
  cases o
  · exact pure' ()
  · exact h _
theorem ite {b : Prop} [Decidable b] {m m' : SM σ α} (h1 : NM m) (h0 : NM m') :
    NM (if b then m else m') := by split <;> assumption
end NM

theorem resolve_ne {k : Kind} {c : Cache} {h : Handle} : resolve k c h ≠ .error (.err .MaliciousInput) := by
  unfold resolve; split
  · split <;> simp
  · simp

theorem downcast_ne {k k' : Kind} {c : Cache} {h : Handle} :
    downcast k k' c h ≠ .error (.err .MaliciousInput) := by
  unfold downcast; split
  · split <;> simp
  · intro he; cases he; exact resolve_ne ‹_›

theorem nm_write {t : Text} : NM (write t) := by
  intro s; unfold exec write; split <;> simp

theorem nm_resolve {σ : Type} {k : Kind} {c : Cache} {h : Handle} : NM (SM.lift (resolve k c h) : SM σ Node) :=
  NM.lift resolve_ne

/-- The rules for computations that do not report the node limit. -/
macro "nm" : tactic => `(tactic| repeat' (first
  | assumption
  | exact NM.pure _ | exact NM.pure' _ | exact NM.crash | exact NM.get | exact nm_write | exact nm_resolve
  | exact NM.err (by simp)
  | (refine NM.whenB ?_) | (refine NM.whenSome fun _ => ?_)
  | (refine NM.bind ?_ fun _ => ?_) | (refine NM.ite ?_ ?_)
  | (split)))

theorem nm_space {E : Env} : NM (output_space_if_necessary E) := by unfold output_space_if_necessary; nm
theorem nm_cc {E : Env} {cc : CallingConv} : NM (cc.output E) := by
  unfold CallingConv.output; exact NM.bind nm_space fun _ => nm_write
theorem nm_if_present {E : Env} {q : Qualifiers} {m} {b : Bool} :
    NM (Qualifiers.output_if_present E q m b) := by
  unfold Qualifiers.output_if_present Qualifiers.output_single_qualifier; nm
theorem nm_quals {E : Env} {q : Qualifiers} {b b' : Bool} : NM (Qualifiers.output E q b b') := by
  unfold Qualifiers.output
  refine NM.whenB (NM.bind NM.get fun _ => NM.bind nm_if_present fun _ => NM.bind nm_if_present fun _ =>
    NM.bind nm_if_present fun _ => NM.bind NM.get fun _ => NM.whenB nm_write)

/-- Rendering at the next level down never reports the node limit. -/
structure NMFns (r : OutFns) : Prop where
  out : ∀ k h, NM (r.out k h)
  pre : ∀ k h, NM (r.pre k h)
  post : ∀ k h, NM (r.post k h)

section
variable {E : Env} {c : Cache} {r : OutFns} (hr : NMFns r)
include hr

theorem nm_funcPre {f b} : NM (funcPre E r f b) := by
  have := hr.pre; have := @nm_cc
  unfold funcPre
  nm
  all_goals first | exact hr.pre _ _ | exact nm_cc

theorem nm_funcPost {f b} : NM (funcPost E r f b) := by
  unfold funcPost funcParams funcQuals
  nm
  all_goals first | exact hr.post _ _ | exact hr.out _ _

omit hr in
theorem nm_sepBy {sep f} (hf : ∀ h, NM (f h)) : ∀ l, NM (sepBy sep f l) := by
  have hrest : ∀ l, NM (sepBy.rest sep f l) := by
    intro l
    induction l with
    | nil => exact NM.pure' _
    | cons h hs ih => exact NM.bind nm_write fun _ => NM.bind (hf h) fun _ => ih
  intro l
  cases l with
  | nil => exact NM.pure' _
  | cons h hs => exact NM.bind (hf h) fun _ => hrest hs

theorem nm_thunkPre {f b} : NM (thunkPre E r f b) := by
  unfold thunkPre
  exact NM.bind (NM.whenB nm_write) fun _ => nm_funcPre hr

theorem nm_pointeePre {p} (n : Node) : NM (pointeePre E r p n) := by
  unfold pointeePre
  split
  · exact nm_funcPre hr
  · exact nm_thunkPre hr
  · exact hr.pre _ _

omit hr in
theorem nm_pointeeParen (n : Node) : NM (pointeeParen E n) := by
  have hcc : ∀ o : Option CallingConv, NM (whenSome o fun cc => (do cc.output E; write c!" " : W Unit)) :=
    fun o => NM.whenSome fun _ => NM.bind nm_cc fun _ => nm_write
  cases n <;> first
    | exact nm_write
    | exact NM.bind nm_write fun _ => NM.whenB (hcc _)
    | exact NM.pure _

theorem nm_pointerPre {q a cp p} : NM (pointerPre E c r q a cp p) := by
  unfold pointerPre
  refine NM.bind nm_resolve fun n => NM.bind (nm_pointeePre hr n) fun _ => NM.bind nm_space fun _ =>
    NM.bind (NM.whenB (NM.ite nm_write nm_write)) fun _ => NM.bind (nm_pointeeParen n) fun _ =>
    NM.bind (NM.whenSome fun _ => NM.bind (hr.out _ _) fun _ => nm_write) fun _ => ?_
  cases a
  · exact NM.bind NM.crash fun _ => nm_quals
  · exact NM.bind nm_write fun _ => nm_quals

theorem nm_pre (n : Node) : NM (preNode E c r n) := by
  cases n <;> first
    | exact NM.crash
    | exact hr.out _ _
    | exact nm_funcPre hr
    | exact nm_thunkPre hr
    | exact nm_pointerPre hr
    | exact NM.bind nm_write fun _ => nm_quals
    | exact NM.bind (hr.pre _ _) fun _ => nm_quals
    | exact NM.bind (NM.whenB nm_write) fun _ => NM.bind (hr.out _ _) fun _ => nm_quals

theorem nm_thunkPost {f a b} : NM (thunkPost E r f a b) := by
  unfold thunkPost
  exact NM.bind nm_write fun _ => nm_funcPost hr

theorem nm_pointeePost {p} (n : Node) : NM (pointeePost E r p n) := by
  unfold pointeePost
  split
  · exact nm_funcPost hr
  · exact nm_thunkPost hr
  · exact hr.post _ _

omit hr in
theorem nm_one_dimension {h} : NM (output_one_dimension c h) := by
  unfold output_one_dimension
  refine NM.bind nm_resolve fun n => ?_
  cases n <;> first | exact NM.crash | exact NM.whenB nm_write

omit hr in
theorem nm_dimensions {h} : NM (output_dimensions_impl c h) := by
  unfold output_dimensions_impl
  refine NM.bind nm_resolve fun n => ?_
  cases n <;> first | exact NM.crash | exact nm_sepBy (fun _ => nm_one_dimension) _

theorem nm_post (n : Node) : NM (postNode E c r n) := by
  cases n <;> first
    | exact NM.crash
    | exact NM.pure _
    | exact nm_funcPost hr
    | exact nm_thunkPost hr
    | exact NM.bind nm_resolve fun n => NM.bind (NM.whenB nm_write) fun _ => nm_pointeePost hr n
    | exact NM.bind nm_write fun _ => NM.bind nm_dimensions fun _ => NM.bind nm_write fun _ => hr.post _ _

theorem nm_templateParams {tp} : NM (templateParams r tp) :=
  NM.whenSome fun _ => NM.bind nm_write fun _ => NM.bind (hr.out _ _) fun _ => nm_write

theorem nm_variable {name sc type} : NM (variableOut E r name sc type) := by
  unfold variableOut
  refine NM.bind (NM.whenB nm_write) fun _ => NM.bind (NM.whenB nm_write) fun _ => ?_
  split
  · exact NM.crash
  · exact NM.bind (NM.whenSome fun _ => NM.bind (hr.pre _ _) fun _ => nm_space) fun _ =>
      NM.bind (hr.out _ _) fun _ => NM.whenSome fun _ => hr.post _ _
  · exact NM.bind (NM.whenSome fun _ => hr.out _ _) fun _ =>
      NM.whenB (NM.bind nm_space fun _ => nm_write)

theorem nm_out (n : Node) : NM (outNode E c r n) := by
  have htp := @nm_templateParams r hr
  cases n
  case NodeArray => exact nm_sepBy (fun _ => hr.out _ _) _
  case QualifiedName =>
    refine NM.bind nm_resolve fun n => ?_
    cases n <;> first | exact NM.crash | exact nm_sepBy (fun _ => hr.out _ _) _
  case VariableSymbol => exact nm_variable hr
  case FunctionSymbol =>
    exact NM.bind (hr.pre _ _) fun _ => NM.bind nm_space fun _ => NM.bind (NM.whenSome fun _ => hr.out _ _)
      fun _ => hr.post _ _
  case DynamicStructorIdentifier id _ =>
    refine NM.bind nm_write fun _ => ?_
    cases id <;> exact NM.bind nm_write fun _ => NM.bind (hr.out _ _) fun _ => nm_write
  case VcallThunkIdentifier => exact NM.ite nm_write nm_write
  case NamedIdentifier => exact NM.bind nm_write fun _ => htp
  case IntrinsicFunctionIdentifier => exact NM.bind (NM.whenSome fun _ => nm_write) fun _ => htp
  case LiteralOperatorIdentifier => exact NM.bind nm_write fun _ => htp
  case LocalStaticGuardIdentifier => exact NM.bind nm_write fun _ => NM.whenB nm_write
  case ConversionOperatorIdentifier =>
    exact NM.bind nm_write fun _ => NM.bind htp fun _ => NM.bind nm_write fun _ =>
      NM.whenSome fun _ => hr.out _ _
  case StructorIdentifier =>
    exact NM.bind (NM.whenB nm_write) fun _ => NM.bind (NM.whenSome fun _ => hr.out _ _) fun _ => htp
  case RttiBaseClassDescriptor => exact nm_write
  case TemplateParameterReference =>
    have h2 : ∀ (o : Option Handle) (b : Bool) (t : Text),
        NM (do whenSome o fun s => do { r.out .ISymbolNode s; whenB b (write c!", ") }; write t : W Unit) :=
      fun o b t => NM.bind (NM.whenSome fun _ => NM.bind (hr.out _ _) fun _ => NM.whenB nm_write) fun _ => nm_write
    unfold outNode
    refine NM.ite (NM.bind nm_write fun _ => h2 _ _ _) (NM.bind (NM.whenB nm_write) fun _ => h2 _ _ _)
  case IntegerLiteral => exact nm_write
  case Md5Symbol => exact hr.out _ _
  case SpecialTableSymbol =>
    exact NM.bind (NM.whenB nm_quals) fun _ => NM.bind (hr.out _ _) fun _ => NM.whenSome fun _ =>
      NM.bind nm_write fun _ => NM.bind (hr.out _ _) fun _ => nm_write
  case LocalStaticGuardVariable => exact hr.out _ _
  case EncodedStringLiteral => exact nm_write
  all_goals exact NM.bind (nm_pre hr _) fun _ => nm_post hr _

end

theorem nm_outFns {E : Env} {c : Cache} (n : Nat) : NMFns (outFns E c n) := by
  induction n with
  | zero => exact ⟨fun _ _ => NM.crash, fun _ _ => NM.crash, fun _ _ => NM.crash⟩
  | succ n ih =>
    exact ⟨fun _ _ => NM.bind nm_resolve fun _ => nm_out ih _, fun _ _ => NM.bind nm_resolve fun _ => nm_pre ih _,
      fun _ _ => NM.bind nm_resolve fun _ => nm_post ih _⟩

theorem nm_render {E : Env} {c : Cache} {k : Kind} {h : Handle} : NM (render E c k h) :=
  (nm_outFns _).out k h

end Undname
