/-
  Rendering renamed nodes writes the renamed text of what rendering the nodes writes.
-/
import Verif.Ren.Com
import Verif.Proof.Strings

namespace Undname.Ren
variable {ρ : Renaming}

/-- What `char::is_alphanumeric` says beyond ASCII does not change. -/
class Keeps (ρ : Renaming) (E : Env) : Prop where
  uni : ∀ c, E.uni (ρ.f c) = E.uni c


theorem com_writeR (t : Text) : Com (ren ρ) id (write (ren ρ t)) (write t) := by
  intro w
  unfold write Image
  rw [utf8Len_ren, utf8Len_ren]
  by_cases h : utf8Len t + utf8Len w < OUTPUT_LIMIT
  · simp only [h, if_true, ren_append, id]
  · simp only [h, if_false]

/-- A text the library writes of its own: no character beyond Latin-1. -/
def lowText (t : Text) : Bool := t.all (fun c => c.toNat < 256)

theorem com_write (t : Text) (ht : lowText t = true := by decide) : Com (ren ρ) id (write t) (write t) := by
  have := com_writeR (ρ := ρ) t
  rw [ren_low ht] at this
  exact this

theorem low_append {a b : Text} (ha : lowText a = true) (hb : lowText b = true) : lowText (a ++ b) = true := by
  unfold lowText at *
  rw [List.all_append, ha, hb]; rfl

theorem low_printable {t : Text} (h : ∀ c ∈ t, isPrintable c = true) : lowText t = true := by
  unfold lowText
  rw [List.all_eq_true]
  intro c hc
  have := h c hc
  simp only [isPrintable, Bool.and_eq_true, decide_eq_true_eq] at this
  rw [decide_eq_true_eq]; omega

theorem low_plain {t : Text} (h : ∀ c ∈ t, isPlain c = true) : lowText t = true :=
  low_printable fun c hc => isPlain_printable (h c hc)

theorem low_ite {b : Prop} [Decidable b] {x y : Text} (h1 : lowText x = true) (h2 : lowText y = true) : lowText (if b then x else y) = true := by
  split <;> assumption

theorem low_decNat (n : Nat) : lowText (decNat n) = true := low_plain (decNat_plain n)
theorem low_decInt (n : Int) : lowText (decInt n) = true := low_plain (decInt_plain n)
theorem low_cc (b : Bool) (cc : CallingConv) : lowText (cc.text b) = true := by cases b <;> cases cc <;> decide
theorem low_prim (k : PrimitiveKind) : lowText k.text = true := by cases k <;> decide
theorem low_tag (k : TagKind) : lowText k.text = true := by cases k <;> decide
theorem low_ifk (k : IFK) : lowText k.text = true := by cases k <;> decide
theorem low_aff (k : PointerAffinity) : lowText k.text = true := by cases k <;> decide
theorem low_char (k : CharKind) : lowText k.prefixText = true := by cases k <;> decide
theorem low_access (k : Option StorageClass) : lowText (StorageClass.accessText k) = true := by
  cases k with
  | none => decide
  | some k => cases k <;> decide
theorem low_ref (k : Option FunctionRefQualifier) : lowText (FunctionRefQualifier.text k) = true := by
  cases k with
  | none => decide
  | some k => cases k <;> decide

/-- The text has no character beyond Latin-1. -/
macro "low" : tactic => `(tactic| repeat' (first
  | exact low_decNat _ | exact low_decInt _ | exact low_cc _ _ | exact low_prim _ | exact low_tag _ | exact low_ifk _ | exact low_aff _
  | exact low_char _ | exact low_access _ | exact low_ref _
  | with_reducible refine low_append ?_ ?_ | with_reducible refine low_ite ?_ ?_ | decide))

theorem low_thunk (fc : FuncClass) (a : ThisAdjustor) : lowText (thunkText fc a) = true := by
  unfold thunkText
  split
  · exact low_append (low_append (by decide) (low_decNat _)) (by decide)
  · split
    · split
      · exact low_append (low_append (low_append (low_append (low_append (low_append (low_append (low_append (by decide) (low_decInt _)) (by decide))
          (low_decInt _)) (by decide)) (low_decInt _)) (by decide)) (low_decNat _)) (by decide)
      · exact low_append (low_append (low_append (low_append (by decide) (low_decInt _)) (by decide)) (low_decNat _)) (by decide)
    · decide
theorem low_integer (v : Nat) (b : Bool) : lowText (integerText v b) = true := by unfold integerText; low
theorem low_offs (l : List Int) : lowText (l.map fun o => c!", " ++ decInt o).flatten = true := by
  induction l with
  | nil => decide
  | cons x xs ih => exact low_append (low_append (by decide) (low_decInt _)) ih
theorem low_offsets (l : List Int) : lowText (offsetsText l) = true := by
  cases l with
  | nil => decide
  | cons x xs => exact low_append (low_append (low_decInt _) (low_offs xs)) (by decide)

macro "low_text" : tactic => `(tactic| first | exact low_thunk _ _ | exact low_integer _ _ | exact low_offsets _ | (low; done))

theorem com_last {α α' : Type} {h : α → α'} {k' : Text → W α'} {k : Text → W α}
    (hk : ∀ w, Com (ren ρ) h (k' (ren ρ w)) (k w)) : Com (ren ρ) h (SM.get >>= k') (SM.get >>= k) := fun w => hk w w

theorem last_ren (w : Text) : (ren ρ w).getLast? = w.getLast?.map ρ.f := List.getLast?_map ..

/-- The rules. -/
macro "com" : tactic => `(tactic| repeat' (first
  | assumption
  | with_reducible exact Com.pureI _ | with_reducible exact Com.pureI' _
  | with_reducible exact Com.crash _ | with_reducible exact Com.errI _
  | with_reducible exact Com.okOrI _ _
  | with_reducible exact com_write _ (by low_text)
  | with_reducible refine Com.whenB ?_ | with_reducible refine Com.whenSome fun _ => ?_
  | with_reducible refine com_last fun _ => ?_
  | with_reducible refine Com.bindI ?_ fun _ => ?_ | with_reducible refine Com.ite ?_ ?_))

theorem com_space {E : Env} [Keeps ρ E] : Com (ren ρ) id (output_space_if_necessary E) (output_space_if_necessary E) := by
  unfold output_space_if_necessary
  refine com_last fun w => ?_
  rw [last_ren]
  cases w.getLast? with
  | none => exact Com.pureI _
  | some c =>
    dsimp only [Option.map]
    have : isAlphanumeric E.uni (ρ.f c) = isAlphanumeric E.uni c := by
      unfold isAlphanumeric
      rcases ρ.cases c with h | ⟨h1, h2⟩
      · rw [h]
      · rw [if_neg (by omega), if_neg (by omega), Keeps.uni]
    rw [this, f_beq (by decide)]
    com

theorem com_single {E : Env} {q} : Com (ren ρ) id (Qualifiers.output_single_qualifier E q) (Qualifiers.output_single_qualifier E q) := by
  cases q <;> unfold Qualifiers.output_single_qualifier <;> com

theorem com_if_present {E : Env} {q m b} : Com (ren ρ) id (Qualifiers.output_if_present E q m b) (Qualifiers.output_if_present E q m b) := by
  have := @com_single ρ E m
  unfold Qualifiers.output_if_present; com

theorem com_quals {E : Env} {q b b'} : Com (ren ρ) id (Qualifiers.output E q b b') (Qualifiers.output E q b b') := by
  unfold Qualifiers.output
  refine Com.whenB (Com.bind Com.get fun w => Com.bindI com_if_present fun _ => Com.bindI com_if_present fun _ =>
    Com.bindI com_if_present fun _ => Com.bind Com.get fun w' => ?_)
  rw [utf8Len_ren, utf8Len_ren]
  com

theorem com_cc {E : Env} [Keeps ρ E] {cc} : Com (ren ρ) id (CallingConv.output E cc) (CallingConv.output E cc) := by
  have := @com_space ρ E _
  unfold CallingConv.output; com

structure ComOut (ρ : Renaming) (r : OutFns) (o : OutFns) : Prop where
  out : ∀ k h, Com (ren ρ) id (r.out k h) (o.out k h)
  pre : ∀ k h, Com (ren ρ) id (r.pre k h) (o.pre k h)
  post : ∀ k h, Com (ren ρ) id (r.post k h) (o.post k h)

section
variable {E : Env} [Keeps ρ E] {c : Cache} {r : OutFns} {o : OutFns} (hr : ComOut ρ r o)
include hr

theorem com_funcPre {f b} : Com (ren ρ) id (funcPre E r f b) (funcPre E o f b) := by
  unfold funcPre; com
  all_goals first | exact hr.pre _ _ | exact com_cc

theorem com_funcParams {f} : Com (ren ρ) id (funcParams r f) (funcParams o f) := by
  unfold funcParams
  refine Com.bindI (com_write _) fun _ => ?_
  cases f.params <;> dsimp only <;> com
  all_goals first
    | exact hr.out _ _
    | (rename_i w
       rw [last_ren]
       cases w.getLast? with
       | none => dsimp only [Option.map]; com
       | some c =>
         simp (disch := decide) only [Option.map, bne, f_beq]
         com)

omit hr in
theorem com_funcQuals {f} : Com (ren ρ) id (funcQuals E f) (funcQuals E f) := by
  unfold funcQuals; com

theorem com_funcPost {f b} : Com (ren ρ) id (funcPost E r f b) (funcPost E o f b) := by
  have h1 := @com_funcParams ρ r o hr f
  have h2 := @com_funcQuals ρ E _ f
  unfold funcPost; com
  all_goals exact hr.post _ _

theorem com_thunkPre {f b} : Com (ren ρ) id (thunkPre E r f b) (thunkPre E o f b) := by
  have h1 := @com_funcPre ρ E _ r o hr f b
  unfold thunkPre; com

theorem com_thunkPost {f a b} : Com (ren ρ) id (thunkPost E r f a b) (thunkPost E o f a b) := by
  have h1 := @com_funcPost ρ E _ r o hr f b
  unfold thunkPost; com

theorem com_pointeePre {p n} : Com (ren ρ) id (pointeePre E r p ((renN ρ) n)) (pointeePre E o p n) := by
  cases n <;> unfold renN pointeePre <;> dsimp only <;>
    first | exact com_funcPre hr | exact com_thunkPre hr | exact hr.pre _ _

theorem com_pointeePost {p n} : Com (ren ρ) id (pointeePost E r p ((renN ρ) n)) (pointeePost E o p n) := by
  cases n <;> unfold renN pointeePost <;> dsimp only <;>
    first | exact com_funcPost hr | exact com_thunkPost hr | exact hr.post _ _

omit hr in
theorem com_pointeeParen {n} : Com (ren ρ) id (pointeeParen E ((renN ρ) n)) (pointeeParen E n) := by
  have := @com_cc ρ
  cases n <;> unfold renN pointeeParen <;> dsimp only <;> com <;> exact com_cc

omit hr in
theorem com_resolve {k h} : Com (ren ρ) (renN ρ) (SM.lift (resolve k ((renC ρ) c) h)) (SM.lift (resolve k c h)) :=
  Com.liftG (resolve_ren k c h)

omit hr in
theorem isArrayOrSig_ren (n : Node) : ((renN ρ) n).isArrayOrSig = n.isArrayOrSig := by cases n <;> rfl

theorem com_pointerPre {q a cp p} : Com (ren ρ) id (pointerPre E ((renC ρ) c) r q a cp p) (pointerPre E c o q a cp p) := by
  have h1 := @com_pointeePre ρ E _ r o hr p
  have h2 := @com_pointeeParen ρ E _
  have h3 := @com_space ρ E _
  unfold pointerPre
  refine Com.bind com_resolve fun pn => Com.bindI h1 fun _ => Com.bindI h3 fun _ => Com.bindI (by com) fun _ => Com.bindI h2 fun _ =>
    Com.bindI (Com.whenSome fun _ => Com.bindI (hr.out _ _) fun _ => com_write _) fun _ => ?_
  cases a <;> dsimp only <;> com <;> exact com_quals

theorem com_pointerPost {p} : Com (ren ρ) id (pointerPost E ((renC ρ) c) r p) (pointerPost E c o p) := by
  unfold pointerPost
  refine Com.bind com_resolve fun pn => ?_
  rw [isArrayOrSig_ren]
  exact Com.bindI (by com) fun _ => com_pointeePost hr

omit hr in
theorem com_one_dim {h} : Com (ren ρ) id (output_one_dimension ((renC ρ) c) h) (output_one_dimension c h) := by
  unfold output_one_dimension
  refine Com.bind com_resolve fun n => ?_
  cases n <;> dsimp only [renN] <;> com

omit hr in
theorem com_sepBy {sep : Text} (hsep : lowText sep = true) {f : Handle → W Unit} {g : Handle → W Unit} (h : ∀ x, Com (ren ρ) id (f x) (g x)) (l : List Handle) :
    Com (ren ρ) id (sepBy sep f l) (sepBy sep g l) := by
  have hrest : ∀ l, Com (ren ρ) id (sepBy.rest sep f l) (sepBy.rest sep g l) := by
    intro l
    induction l with
    | nil => exact Com.pureI' _
    | cons x xs ih => exact Com.bindI (com_write _ hsep) fun _ => Com.bindI (h _) fun _ => ih
  cases l with
  | nil => exact Com.pureI' _
  | cons x xs => exact Com.bindI (h _) fun _ => hrest xs

omit hr in
theorem com_dims {h} : Com (ren ρ) id (output_dimensions_impl ((renC ρ) c) h) (output_dimensions_impl c h) := by
  unfold output_dimensions_impl
  refine Com.bind com_resolve fun n => ?_
  cases n <;> dsimp only [renN] <;> first | exact com_sepBy (by decide) (fun _ => com_one_dim) _ | com

theorem com_preNode {n} : Com (ren ρ) id (preNode E ((renC ρ) c) r ((renN ρ) n)) (preNode E c o n) := by
  have h1 := @com_quals ρ E
  cases n <;> unfold renN preNode <;> dsimp only <;>
    first | exact com_funcPre hr | exact com_thunkPre hr | exact com_pointerPre hr | exact hr.out _ _ |
      (com; all_goals first | exact h1 | exact hr.out _ _ | exact hr.pre _ _)

theorem com_postNode {n} : Com (ren ρ) id (postNode E ((renC ρ) c) r ((renN ρ) n)) (postNode E c o n) := by
  cases n <;> unfold renN postNode <;> dsimp only <;>
    first | exact com_funcPost hr | exact com_thunkPost hr | exact com_pointerPost hr |
      (com; all_goals first | exact com_dims | exact hr.post _ _)

theorem com_tparams {tp} : Com (ren ρ) id (templateParams r tp) (templateParams o tp) := by
  unfold templateParams; com; exact hr.out _ _

theorem com_variable {n sc t} : Com (ren ρ) id (variableOut E r n sc t) (variableOut E o n sc t) := by
  have h1 := @com_space ρ E _
  unfold variableOut
  refine Com.bindI (by com) fun _ => Com.bindI (by com) fun _ => ?_
  cases n with
  | none => com
  | some v => cases v <;> dsimp only <;> com <;> first | exact hr.out _ _ | exact hr.pre _ _ | exact hr.post _ _

theorem com_outNode {n} : Com (ren ρ) id (outNode E ((renC ρ) c) r ((renN ρ) n)) (outNode E c o n) := by
  have h1 := @com_quals ρ E
  have h2 := @com_space ρ E _
  have h3 := @com_tparams ρ r o hr
  have h4 := @com_variable ρ E _ r o hr
  have h5 := @com_preNode ρ E _ c r o hr
  have h6 := @com_postNode ρ E _ c r o hr
  cases n with
  | DynamicStructorIdentifier tp i d =>
    cases i <;> unfold renN outNode <;> dsimp only <;> com <;> exact hr.out _ _
  | NamedIdentifier tp n =>
    unfold renN outNode
    exact Com.bindI (com_writeR n) fun _ => h3
  | LiteralOperatorIdentifier tp n =>
    unfold renN outNode; dsimp only
    have : c!"operator \"\"" ++ ren ρ n = ren ρ (c!"operator \"\"" ++ n) := by
      rw [ren_append, ren_low (a := c!"operator \"\"") (by decide)]
    rw [this]
    exact Com.bindI (com_writeR _) fun _ => h3
  | EncodedStringLiteral n s t ch =>
    unfold renN outNode; dsimp only
    have : ch.prefixText ++ ren ρ s ++ c!"\"" ++ (if t = true then c!"..." else []) =
        ren ρ (ch.prefixText ++ s ++ c!"\"" ++ (if t = true then c!"..." else [])) := by
      rw [ren_append, ren_append, ren_append, ren_low (low_char ch), ren_low (a := c!"\"") (by decide),
        ren_low (a := if t = true then _ else _) (by cases t <;> decide)]
    rw [this]
    exact com_writeR _
  | QualifiedName comps =>
    unfold renN outNode
    refine Com.bind com_resolve fun n => ?_
    cases n <;> dsimp only [renN] <;> first | exact com_sepBy (by decide) (fun _ => hr.out _ _) _ | com
  | NodeArray l =>
    unfold renN outNode
    exact com_sepBy (by decide) (fun _ => hr.out _ _) _
  | PrimitiveType _ _ | FunctionSignature _ | ThunkSignature _ _ | PointerType _ _ _ _ | TagType _ _ _ | ArrayType _ _ _ | CustomType _ _ =>
    exact Com.bindI h5 fun _ => h6
  | _ =>
    unfold renN outNode; dsimp only
    first
      | (com; done)
      | (com; all_goals first | exact h1 | exact h2 | exact h3 | exact h4 | exact hr.out _ _ | exact hr.pre _ _ | exact hr.post _ _)

end

theorem com_outFns (E : Env) [Keeps ρ E] (c : Cache) (n : Nat) : ComOut ρ (outFns E ((renC ρ) c) n) (outFns E c n) := by
  induction n with
  | zero => exact ⟨fun _ _ => Com.crash _, fun _ _ => Com.crash _, fun _ _ => Com.crash _⟩
  | succ n ih =>
    exact ⟨fun _ _ => Com.bind com_resolve fun _ => com_outNode ih, fun _ _ => Com.bind com_resolve fun _ => com_preNode ih,
      fun _ _ => Com.bind com_resolve fun _ => com_postNode ih⟩

theorem com_render (E : Env) [Keeps ρ E] (c : Cache) (k : Kind) (h : Handle) : Com (ren ρ) id (render E ((renC ρ) c) k h) (render E c k h) := by
  unfold render
  have : ((renC ρ) c).length = c.length := by unfold renC; exact List.length_map _
  rw [this]
  exact (com_outFns E c _).out k h

end Undname.Ren
