/-
  Rendering into bytes writes the bytes of what rendering into characters writes.
-/
import Verif.Raw.Com

namespace Undname.Raw
open Undname (Fail Error Crash Text SM)

theorem com_write (t : Text) : Com enc id (write (enc t)) (Undname.write t) := by
  intro w
  unfold write Undname.write Image
  rw [enc_length, enc_length]
  by_cases h : utf8Len t + utf8Len w < OUTPUT_LIMIT
  · simp only [h, if_true, enc_append, id]
  · simp only [h, if_false]

theorem com_writeT (t : Text) : Com enc id (writeT t) (Undname.write t) := com_write t

theorem com_last {α α' : Type} {h : α → α'} {k' : Option Char → W α'} {k : Text → Undname.W α}
    (hk : ∀ w, Com enc h (k' w.getLast?) (k w)) : Com enc h (last_char >>= k') (SM.get >>= k) := by
  intro w
  have h1 : last_char (enc w) = .ok (w.getLast?, enc w) := by
    unfold last_char
    rw [from_utf8_enc, next_back_enc]; rfl
  show Image enc h (SM.bind SM.get k w) (SM.bind last_char k' (enc w))
  unfold SM.bind SM.get
  rw [h1]
  exact hk w w

/-- The rules. -/
macro "com" : tactic => `(tactic| repeat' (first
  | assumption
  | with_reducible exact Com.pureI _ | with_reducible exact Com.pureI' _
  | with_reducible exact Com.crash _ | with_reducible exact Com.errI _
  | with_reducible exact Com.okOrI _ _
  | with_reducible exact com_writeT _
  | with_reducible refine Com.whenB ?_ | with_reducible refine Com.whenSome fun _ => ?_
  | with_reducible refine Com.bindI ?_ fun _ => ?_ | with_reducible refine Com.ite ?_ ?_))

theorem com_space {E : Env} : Com enc id (output_space_if_necessary E) (Undname.output_space_if_necessary E) := by
  unfold output_space_if_necessary Undname.output_space_if_necessary
  refine com_last fun w => ?_
  cases w.getLast? <;> dsimp only <;> com

theorem com_single {E : Env} {q} : Com enc id (Qualifiers.output_single_qualifier E q) (Undname.Qualifiers.output_single_qualifier E q) := by
  cases q <;> unfold Qualifiers.output_single_qualifier Undname.Qualifiers.output_single_qualifier <;> com

theorem com_if_present {E : Env} {q m b} : Com enc id (Qualifiers.output_if_present E q m b) (Undname.Qualifiers.output_if_present E q m b) := by
  have := @com_single E m
  unfold Qualifiers.output_if_present Undname.Qualifiers.output_if_present; com

theorem com_quals {E : Env} {q b b'} : Com enc id (Qualifiers.output E q b b') (Undname.Qualifiers.output E q b b') := by
  unfold Qualifiers.output Undname.Qualifiers.output
  refine Com.whenB (Com.bind Com.get fun w => Com.bindI com_if_present fun _ => Com.bindI com_if_present fun _ =>
    Com.bindI com_if_present fun _ => Com.bind Com.get fun w' => ?_)
  rw [enc_length, enc_length]
  com

theorem com_cc {E : Env} {cc} : Com enc id (CallingConv.output E cc) (Undname.CallingConv.output E cc) := by
  have := @com_space E
  unfold CallingConv.output Undname.CallingConv.output; com

structure ComOut (r : OutFns) (o : Undname.OutFns) : Prop where
  out : ∀ k h, Com enc id (r.out k h) (o.out k h)
  pre : ∀ k h, Com enc id (r.pre k h) (o.pre k h)
  post : ∀ k h, Com enc id (r.post k h) (o.post k h)

section
variable {E : Env} {c : Undname.Cache} {r : OutFns} {o : Undname.OutFns} (hr : ComOut r o)
include hr

theorem com_funcPre {f b} : Com enc id (funcPre E r f b) (Undname.funcPre E o f b) := by
  unfold funcPre Undname.funcPre; com
  all_goals first | exact hr.pre _ _ | exact com_cc

theorem com_funcParams {f} : Com enc id (funcParams r f) (Undname.funcParams o f) := by
  unfold funcParams Undname.funcParams
  refine Com.bindI (com_writeT _) fun _ => ?_
  cases f.params <;> dsimp only <;> com
  all_goals first
    | exact hr.out _ _
    | (refine com_last fun w => ?_
       cases w.getLast? <;> dsimp only <;> com)

omit hr in
theorem com_funcQuals {f} : Com enc id (funcQuals E f) (Undname.funcQuals E f) := by
  unfold funcQuals Undname.funcQuals; com

theorem com_funcPost {f b} : Com enc id (funcPost E r f b) (Undname.funcPost E o f b) := by
  have h1 := @com_funcParams r o hr f
  have h2 := @com_funcQuals E f
  unfold funcPost Undname.funcPost; com
  all_goals exact hr.post _ _

theorem com_thunkPre {f b} : Com enc id (thunkPre E r f b) (Undname.thunkPre E o f b) := by
  have h1 := @com_funcPre E r o hr f b
  unfold thunkPre Undname.thunkPre; com

theorem com_thunkPost {f a b} : Com enc id (thunkPost E r f a b) (Undname.thunkPost E o f a b) := by
  have h1 := @com_funcPost E r o hr f b
  unfold thunkPost Undname.thunkPost; com

theorem com_pointeePre {p n} : Com enc id (pointeePre E r p (node n)) (Undname.pointeePre E o p n) := by
  cases n <;> unfold node pointeePre Undname.pointeePre <;> dsimp only <;>
    first | exact com_funcPre hr | exact com_thunkPre hr | exact hr.pre _ _

theorem com_pointeePost {p n} : Com enc id (pointeePost E r p (node n)) (Undname.pointeePost E o p n) := by
  cases n <;> unfold node pointeePost Undname.pointeePost <;> dsimp only <;>
    first | exact com_funcPost hr | exact com_thunkPost hr | exact hr.post _ _

omit hr in
theorem com_pointeeParen {n} : Com enc id (pointeeParen E (node n)) (Undname.pointeeParen E n) := by
  have := @com_cc
  cases n <;> unfold node pointeeParen Undname.pointeeParen <;> dsimp only <;> com <;> exact com_cc

omit hr in
theorem com_resolve {k h} : Com enc node (SM.lift (resolve k (nodes c) h)) (SM.lift (Undname.resolve k c h)) :=
  Com.liftG (resolve_enc k c h)

omit hr in
theorem isArrayOrSig_enc (n : Undname.Node) : (node n).isArrayOrSig = n.isArrayOrSig := by cases n <;> rfl

theorem com_pointerPre {q a cp p} : Com enc id (pointerPre E (nodes c) r q a cp p) (Undname.pointerPre E c o q a cp p) := by
  have h1 := @com_pointeePre E r o hr p
  have h2 := @com_pointeeParen E
  have h3 := @com_space E
  unfold pointerPre Undname.pointerPre
  refine Com.bind com_resolve fun pn => Com.bindI h1 fun _ => Com.bindI h3 fun _ => Com.bindI (by com) fun _ => Com.bindI h2 fun _ =>
    Com.bindI (Com.whenSome fun _ => Com.bindI (hr.out _ _) fun _ => com_writeT _) fun _ => ?_
  cases a <;> dsimp only <;> com <;> exact com_quals

theorem com_pointerPost {p} : Com enc id (pointerPost E (nodes c) r p) (Undname.pointerPost E c o p) := by
  unfold pointerPost Undname.pointerPost
  refine Com.bind com_resolve fun pn => ?_
  rw [isArrayOrSig_enc]
  exact Com.bindI (by com) fun _ => com_pointeePost hr

omit hr in
theorem com_one_dim {h} : Com enc id (output_one_dimension (nodes c) h) (Undname.output_one_dimension c h) := by
  unfold output_one_dimension Undname.output_one_dimension
  refine Com.bind com_resolve fun n => ?_
  cases n <;> dsimp only [node] <;> com

omit hr in
theorem com_sepBy {sep : Text} {f : Handle → W Unit} {g : Handle → Undname.W Unit} (h : ∀ x, Com enc id (f x) (g x)) (l : List Handle) :
    Com enc id (sepBy sep f l) (Undname.sepBy sep g l) := by
  have hrest : ∀ l, Com enc id (sepBy.rest sep f l) (Undname.sepBy.rest sep g l) := by
    intro l
    induction l with
    | nil => exact Com.pureI' _
    | cons x xs ih => exact Com.bindI (com_writeT _) fun _ => Com.bindI (h _) fun _ => ih
  cases l with
  | nil => exact Com.pureI' _
  | cons x xs => exact Com.bindI (h _) fun _ => hrest xs

omit hr in
theorem com_dims {h} : Com enc id (output_dimensions_impl (nodes c) h) (Undname.output_dimensions_impl c h) := by
  unfold output_dimensions_impl Undname.output_dimensions_impl
  refine Com.bind com_resolve fun n => ?_
  cases n <;> dsimp only [node] <;> first | exact com_sepBy (fun _ => com_one_dim) _ | com

theorem com_preNode {n} : Com enc id (preNode E (nodes c) r (node n)) (Undname.preNode E c o n) := by
  have h1 := @com_quals E
  cases n <;> unfold node preNode Undname.preNode <;> dsimp only <;>
    first | exact com_funcPre hr | exact com_thunkPre hr | exact com_pointerPre hr | exact hr.out _ _ |
      (com; all_goals first | exact h1 | exact hr.out _ _ | exact hr.pre _ _)

theorem com_postNode {n} : Com enc id (postNode E (nodes c) r (node n)) (Undname.postNode E c o n) := by
  cases n <;> unfold node postNode Undname.postNode <;> dsimp only <;>
    first | exact com_funcPost hr | exact com_thunkPost hr | exact com_pointerPost hr |
      (com; all_goals first | exact com_dims | exact hr.post _ _)

theorem com_tparams {tp} : Com enc id (templateParams r tp) (Undname.templateParams o tp) := by
  unfold templateParams Undname.templateParams; com; exact hr.out _ _

theorem com_variable {n sc t} : Com enc id (variableOut E r n sc t) (Undname.variableOut E o n sc t) := by
  have h1 := @com_space E
  unfold variableOut Undname.variableOut
  refine Com.bindI (by com) fun _ => Com.bindI (by com) fun _ => ?_
  cases n with
  | none => com
  | some v => cases v <;> dsimp only <;> com <;> first | exact hr.out _ _ | exact hr.pre _ _ | exact hr.post _ _

theorem com_outNode {n} : Com enc id (outNode E (nodes c) r (node n)) (Undname.outNode E c o n) := by
  have h1 := @com_quals E
  have h2 := @com_space E
  have h3 := @com_tparams r o hr
  have h4 := @com_variable E r o hr
  have h5 := @com_preNode E c r o hr
  have h6 := @com_postNode E c r o hr
  cases n with
  | DynamicStructorIdentifier tp i d =>
    cases i <;> unfold node outNode Undname.outNode <;> dsimp only <;> com <;> exact hr.out _ _
  | NamedIdentifier tp n =>
    unfold node outNode Undname.outNode
    exact Com.bindI (com_write n) fun _ => h3
  | LiteralOperatorIdentifier tp n =>
    unfold node outNode Undname.outNode; dsimp only
    rw [← enc_append]
    exact Com.bindI (com_write _) fun _ => h3
  | EncodedStringLiteral n s t ch =>
    unfold node outNode Undname.outNode; dsimp only
    have : (enc ch.prefixText ++ enc s ++ enc c!"\"" ++ (if t = true then enc c!"..." else [])) =
        enc (ch.prefixText ++ s ++ c!"\"" ++ (if t then c!"..." else [])) := by
      cases t <;> simp [enc_append, enc]
    rw [this]
    exact com_write _
  | QualifiedName comps =>
    unfold node outNode Undname.outNode
    refine Com.bind com_resolve fun n => ?_
    cases n <;> dsimp only [node] <;> first | exact com_sepBy (fun _ => hr.out _ _) _ | com
  | NodeArray l =>
    unfold node outNode Undname.outNode
    exact com_sepBy (fun _ => hr.out _ _) _
  | PrimitiveType _ _ | FunctionSignature _ | ThunkSignature _ _ | PointerType _ _ _ _ | TagType _ _ _ | ArrayType _ _ _ | CustomType _ _ =>
    exact Com.bindI h5 fun _ => h6
  | _ =>
    unfold node outNode Undname.outNode; dsimp only
    first
      | (com; done)
      | (com; all_goals first | exact h1 | exact h2 | exact h3 | exact h4 | exact hr.out _ _ | exact hr.pre _ _ | exact hr.post _ _)

end

theorem com_outFns (E : Env) (c : Undname.Cache) (n : Nat) : ComOut (outFns E (nodes c) n) (Undname.outFns E c n) := by
  induction n with
  | zero => exact ⟨fun _ _ => Com.crash _, fun _ _ => Com.crash _, fun _ _ => Com.crash _⟩
  | succ n ih =>
    exact ⟨fun _ _ => Com.bind com_resolve fun _ => com_outNode ih, fun _ _ => Com.bind com_resolve fun _ => com_preNode ih,
      fun _ _ => Com.bind com_resolve fun _ => com_postNode ih⟩

theorem com_render (E : Env) (c : Undname.Cache) (k : Kind) (h : Handle) : Com enc id (render E (nodes c) k h) (Undname.render E c k h) := by
  unfold render Undname.render
  have : (nodes c).length = c.length := by unfold nodes; exact List.length_map _
  rw [this]
  exact (com_outFns E c _).out k h

end Undname.Raw
