/-
  The counting program computes what the model computes (erasure), and a version of it whose renderer gives up
  computes the same until it gives up.
-/
import Verif.Timed.Api

namespace Undname.Timed
open Undname (Fail Error Crash Text)

/-- `m` computes what `o` computes, and `m'` does exactly what `m` does, steps included, unless it crashes. -/
def Ref {σ α : Type} (m' m : SM σ α) (o : Undname.SM σ α) : Prop :=
  ∀ s, (m s).1 = o s ∧ (m' s = m s ∨ ∃ c n, m' s = (.error (.crash c), n))

namespace Ref
variable {σ α β γ : Type}

theorem prim (o : Undname.SM σ α) : Ref (SM.prim o) (SM.prim o) o := fun _ => ⟨rfl, .inl rfl⟩

theorem same {m : SM σ α} {o : Undname.SM σ α} (h : ∀ s, (m s).1 = o s) : Ref m m o := fun s => ⟨h s, .inl rfl⟩

theorem pure (a : α) : Ref (Pure.pure a : SM σ α) (Pure.pure a) (Pure.pure a) := fun _ => ⟨rfl, .inl rfl⟩
theorem pure' (a : α) : Ref (SM.pure a : SM σ α) (SM.pure a) (Undname.SM.pure a) := fun _ => ⟨rfl, .inl rfl⟩
theorem err (e : Error) : Ref (SM.err e : SM σ α) (SM.err e) (Undname.SM.err e) := prim _
theorem crash (e : Crash) : Ref (SM.crash e : SM σ α) (SM.crash e) (Undname.SM.crash e) := prim _
theorem get : Ref (SM.get : SM σ σ) SM.get Undname.SM.get := prim _
theorem set (s : σ) : Ref (SM.set s) (SM.set s) (Undname.SM.set s) := prim _
theorem modify (f : σ → σ) : Ref (SM.modify f) (SM.modify f) (Undname.SM.modify f) := prim _
theorem lift (e : Except Fail α) : Ref (SM.lift e : SM σ α) (SM.lift e) (Undname.SM.lift e) := prim _
theorem okOr (e : Error) (o : Option α) : Ref (SM.okOr e o : SM σ α) (SM.okOr e o) (Undname.SM.okOr e o) := by
  cases o
  · exact err e
  · exact pure' _

theorem bind' {m' m : SM σ α} {o : Undname.SM σ α} {f' f : α → SM σ β} {g : α → Undname.SM σ β}
    (h : Ref m' m o) (hf : ∀ a, Ref (f' a) (f a) (g a)) : Ref (SM.bind m' f') (SM.bind m f) (Undname.SM.bind o g) := by
  intro s
  obtain ⟨h1, h2⟩ := h s
  unfold SM.bind Undname.SM.bind
  rw [← h1]
  rcases hm : m s with ⟨r, n⟩
  rw [hm] at h2
  cases r with
  | error e =>
    refine ⟨rfl, ?_⟩
    rcases h2 with h2 | ⟨c, k, h2⟩ <;> rw [h2]
    · exact .inl rfl
    · exact .inr ⟨c, _, rfl⟩
  | ok x =>
    obtain ⟨h3, h4⟩ := hf x.1 x.2
    refine ⟨h3, ?_⟩
    rcases h2 with h2 | ⟨c, k, h2⟩ <;> rw [h2]
    · rcases h4 with h4 | ⟨c, k, h4⟩
      · exact .inl (by simp only [h4])
      · exact .inr ⟨c, n + k + 1, by simp only [h4]⟩
    · exact .inr ⟨c, _, rfl⟩

theorem bind {m' m : SM σ α} {o : Undname.SM σ α} {f' f : α → SM σ β} {g : α → Undname.SM σ β}
    (h : Ref m' m o) (hf : ∀ a, Ref (f' a) (f a) (g a)) : Ref (m' >>= f') (m >>= f) (o >>= g) := bind' h hf

theorem ite {b : Prop} [Decidable b] {m1' m1 m2' m2 : SM σ α} {o1 o2 : Undname.SM σ α} (h1 : Ref m1' m1 o1) (h2 : Ref m2' m2 o2) :
    Ref (if b then m1' else m2') (if b then m1 else m2) (if b then o1 else o2) := by split <;> assumption

theorem whenB {b : Bool} {m' m : SM σ Unit} {o : Undname.SM σ Unit} (h : Ref m' m o) :
    Ref (whenB b m') (whenB b m) (Undname.whenB b o) := by
  cases b
  · exact pure' _
  · exact h

theorem whenSome {x : Option α} {f' f : α → SM σ Unit} {g : α → Undname.SM σ Unit} (h : ∀ a, Ref (f' a) (f a) (g a)) :
    Ref (whenSome x f') (whenSome x f) (Undname.whenSome x g) := by
  cases x
  · exact pure' _
  · exact h _

theorem iterate {b' b : β → SM σ (β ⊕ γ)} {o : β → Undname.SM σ (β ⊕ γ)} (h : ∀ x, Ref (b' x) (b x) (o x)) (n : Nat) (x : β) :
    Ref (SM.iterate n b' x) (SM.iterate n b x) (Undname.SM.iterate n o x) := by
  induction n generalizing x with
  | zero => exact crash _
  | succ n ih =>
    refine bind' (h x) fun a => ?_
    cases a with
    | inl y => exact ih y
    | inr y => exact pure' _

theorem forN {b' b : β → SM σ β} {o : β → Undname.SM σ β} (h : ∀ x, Ref (b' x) (b x) (o x)) (n : Nat) (x : β) :
    Ref (SM.forN n b' x) (SM.forN n b x) (Undname.SM.forN n o x) := by
  induction n generalizing x with
  | zero => exact pure' _
  | succ n ih => exact bind' (h x) fun a => ih a

theorem write (t : Text) : Ref (write t) (Timed.write t) (Undname.write t) := fun _ => ⟨rfl, .inl rfl⟩
theorem onStr (m : Undname.SM MStr α) : Ref (onStr m) (Timed.onStr m) (Undname.onStr m) := prim _
theorem intern (n : Node) : Ref (intern n) (Timed.intern n) (Undname.intern n) := fun _ => ⟨rfl, .inl rfl⟩
theorem look : Ref look look Undname.SM.get := fun _ => ⟨rfl, .inl rfl⟩

theorem runW {m' m : W Unit} {o : Undname.W Unit} (h : Ref m' m o) (t : Text) :
    Ref (runW m' t) (runW m t) (Undname.runW o t) := by
  intro s
  obtain ⟨h1, h2⟩ := h t
  unfold Timed.runW Undname.runW
  rw [← h1]
  rcases hm : m t with ⟨r, n⟩
  rw [hm] at h2
  cases r with
  | error e =>
    refine ⟨rfl, ?_⟩
    rcases h2 with h2 | ⟨c, k, h2⟩ <;> rw [h2]
    · exact .inl rfl
    · exact .inr ⟨c, _, rfl⟩
  | ok x =>
    refine ⟨rfl, ?_⟩
    rcases h2 with h2 | ⟨c, k, h2⟩ <;> rw [h2]
    · exact .inl rfl
    · exact .inr ⟨c, _, rfl⟩

theorem runFresh {m' m : W Unit} {o : Undname.W Unit} (h : Ref m' m o) (t : Text) :
    Ref (runFresh m' t) (runFresh m t) (Undname.runW o t) := by
  intro s
  obtain ⟨h1, h2⟩ := h t
  unfold Timed.runFresh Undname.runW
  rw [← h1]
  rcases hm : m t with ⟨r, n⟩
  rw [hm] at h2
  cases r with
  | error e =>
    refine ⟨rfl, ?_⟩
    rcases h2 with h2 | ⟨c, k, h2⟩ <;> rw [h2]
    · exact .inl rfl
    · exact .inr ⟨c, _, rfl⟩
  | ok x =>
    refine ⟨rfl, ?_⟩
    rcases h2 with h2 | ⟨c, k, h2⟩ <;> rw [h2]
    · exact .inl rfl
    · exact .inr ⟨c, _, rfl⟩

theorem loopInput {b' b : β → P (β ⊕ γ)} {o : β → Undname.P (β ⊕ γ)} (h : ∀ x, Ref (b' x) (b x) (o x)) (x : β) :
    Ref (loopInput b' x) (loopInput b x) (Undname.loopInput o x) := fun s => iterate h _ x s

end Ref

/-- Splits matches on both sides. -/
macro "ref_split" : tactic => `(tactic| (split <;> first | contradiction | skip) )

/-- The rules. -/
macro "ref" : tactic => `(tactic| repeat' (first
  | assumption
  | with_reducible exact Ref.pure _ | with_reducible exact Ref.pure' _
  | with_reducible exact Ref.crash _ | with_reducible exact Ref.err _
  | with_reducible exact Ref.get | with_reducible exact Ref.set _ | with_reducible exact Ref.modify _ | with_reducible exact Ref.lift _
  | with_reducible exact Ref.okOr _ _
  | with_reducible exact Ref.write _ | with_reducible exact Ref.onStr _ | with_reducible exact Ref.intern _
  | with_reducible refine Ref.whenB ?_ | with_reducible refine Ref.whenSome fun _ => ?_
  | with_reducible refine Ref.bind ?_ fun _ => ?_ | with_reducible refine Ref.ite ?_ ?_
  | with_reducible refine Ref.loopInput (fun _ => ?_) _ | with_reducible refine Ref.forN (fun _ => ?_) _ _
  | with_reducible exact Ref.look | with_reducible refine Ref.runW ?_ _ | with_reducible refine Ref.runFresh ?_ _))

/-! ### Rendering -/

theorem ref_space {E : Env} : Ref (output_space_if_necessary E) (output_space_if_necessary E) (Undname.output_space_if_necessary E) := by
  unfold output_space_if_necessary Undname.output_space_if_necessary
  refine Ref.bind Ref.look fun w => ?_
  cases w.getLast? <;> dsimp only <;> ref

theorem ref_single {E : Env} {q} : Ref (Qualifiers.output_single_qualifier E q) (Qualifiers.output_single_qualifier E q)
    (Undname.Qualifiers.output_single_qualifier E q) := by
  cases q <;> unfold Qualifiers.output_single_qualifier Undname.Qualifiers.output_single_qualifier <;> ref

theorem ref_if_present {E : Env} {q m b} : Ref (Qualifiers.output_if_present E q m b) (Qualifiers.output_if_present E q m b)
    (Undname.Qualifiers.output_if_present E q m b) := by
  have := @ref_single E m
  unfold Qualifiers.output_if_present Undname.Qualifiers.output_if_present; ref

theorem ref_quals {E : Env} {q b b'} : Ref (Qualifiers.output E q b b') (Qualifiers.output E q b b')
    (Undname.Qualifiers.output E q b b') := by
  unfold Qualifiers.output Undname.Qualifiers.output
  refine Ref.whenB (Ref.bind Ref.get fun _ => Ref.bind ref_if_present fun _ => Ref.bind ref_if_present fun _ =>
    Ref.bind ref_if_present fun _ => ?_)
  ref

theorem ref_cc {E : Env} {cc} : Ref (CallingConv.output E cc) (CallingConv.output E cc) (Undname.CallingConv.output E cc) := by
  have := @ref_space E
  unfold CallingConv.output Undname.CallingConv.output; ref

structure RefOut (r' r : OutFns) (o : Undname.OutFns) : Prop where
  out : ∀ k h, Ref (r'.out k h) (r.out k h) (o.out k h)
  pre : ∀ k h, Ref (r'.pre k h) (r.pre k h) (o.pre k h)
  post : ∀ k h, Ref (r'.post k h) (r.post k h) (o.post k h)

section
variable {E : Env} {c : Cache} {r' r : OutFns} {o : Undname.OutFns} (hr : RefOut r' r o)
include hr

theorem ref_funcPre {f b} : Ref (funcPre E r' f b) (funcPre E r f b) (Undname.funcPre E o f b) := by
  unfold funcPre Undname.funcPre; ref
  all_goals first | exact hr.pre _ _ | exact ref_cc

theorem ref_funcParams {f} : Ref (funcParams r' f) (funcParams r f) (Undname.funcParams o f) := by
  unfold funcParams Undname.funcParams
  refine Ref.bind (Ref.write _) fun _ => ?_
  cases f.params <;> dsimp only <;> ref
  all_goals first
    | exact hr.out _ _
    | (rename_i w; cases w.getLast? <;> dsimp only <;> ref)

omit hr in
theorem ref_funcQuals {f} : Ref (funcQuals E f) (funcQuals E f) (Undname.funcQuals E f) := by
  unfold funcQuals Undname.funcQuals; ref

theorem ref_funcPost {f b} : Ref (funcPost E r' f b) (funcPost E r f b) (Undname.funcPost E o f b) := by
  have h1 := @ref_funcParams r' r o hr f
  have h2 := @ref_funcQuals E f
  unfold funcPost Undname.funcPost; ref
  all_goals exact hr.post _ _

theorem ref_thunkPre {f b} : Ref (thunkPre E r' f b) (thunkPre E r f b) (Undname.thunkPre E o f b) := by
  have h1 := @ref_funcPre E r' r o hr f b
  unfold thunkPre Undname.thunkPre; ref

theorem ref_thunkPost {f a b} : Ref (thunkPost E r' f a b) (thunkPost E r f a b) (Undname.thunkPost E o f a b) := by
  have h1 := @ref_funcPost E r' r o hr f b
  unfold thunkPost Undname.thunkPost; ref

theorem ref_pointeePre {p n} : Ref (pointeePre E r' p n) (pointeePre E r p n) (Undname.pointeePre E o p n) := by
  cases n <;> unfold pointeePre Undname.pointeePre <;> dsimp only <;>
    first | exact ref_funcPre hr | exact ref_thunkPre hr | exact hr.pre _ _

theorem ref_pointeePost {p n} : Ref (pointeePost E r' p n) (pointeePost E r p n) (Undname.pointeePost E o p n) := by
  cases n <;> unfold pointeePost Undname.pointeePost <;> dsimp only <;>
    first | exact ref_funcPost hr | exact ref_thunkPost hr | exact hr.post _ _

omit hr in
theorem ref_pointeeParen {n} : Ref (pointeeParen E n) (pointeeParen E n) (Undname.pointeeParen E n) := by
  have := @ref_cc
  cases n <;> unfold pointeeParen Undname.pointeeParen <;> dsimp only <;> ref <;> exact ref_cc

theorem ref_pointerPre {q a cp p} : Ref (pointerPre E c r' q a cp p) (pointerPre E c r q a cp p) (Undname.pointerPre E c o q a cp p) := by
  have h1 := @ref_pointeePre E r' r o hr p
  have h2 := @ref_pointeeParen E
  have h3 := @ref_space E
  unfold pointerPre Undname.pointerPre
  refine Ref.bind (Ref.lift _) fun pn => Ref.bind h1 fun _ => Ref.bind h3 fun _ => Ref.bind (by ref) fun _ => Ref.bind h2 fun _ =>
    Ref.bind (Ref.whenSome fun _ => Ref.bind (hr.out _ _) fun _ => Ref.write _) fun _ => ?_
  cases a <;> dsimp only <;> ref <;> exact ref_quals

theorem ref_pointerPost {p} : Ref (pointerPost E c r' p) (pointerPost E c r p) (Undname.pointerPost E c o p) := by
  unfold pointerPost Undname.pointerPost
  exact Ref.bind (Ref.lift _) fun pn => Ref.bind (by ref) fun _ => ref_pointeePost hr

omit hr in
theorem ref_one_dim {h} : Ref (output_one_dimension c h) (output_one_dimension c h) (Undname.output_one_dimension c h) := by
  unfold output_one_dimension Undname.output_one_dimension
  refine Ref.bind (Ref.lift _) fun n => ?_
  cases n <;> dsimp only <;> ref

omit hr in
theorem ref_sepBy {sep : Text} {f' f : Handle → W Unit} {g : Handle → Undname.W Unit} (h : ∀ x, Ref (f' x) (f x) (g x)) (l : List Handle) :
    Ref (sepBy sep f' l) (sepBy sep f l) (Undname.sepBy sep g l) := by
  have hrest : ∀ l, Ref (sepBy.rest sep f' l) (sepBy.rest sep f l) (Undname.sepBy.rest sep g l) := by
    intro l
    induction l with
    | nil => exact Ref.pure' _
    | cons x xs ih => exact Ref.bind (Ref.write _) fun _ => Ref.bind (h _) fun _ => ih
  cases l with
  | nil => exact Ref.pure' _
  | cons x xs => exact Ref.bind (h _) fun _ => hrest xs

omit hr in
theorem ref_dims {h} : Ref (output_dimensions_impl c h) (output_dimensions_impl c h) (Undname.output_dimensions_impl c h) := by
  unfold output_dimensions_impl Undname.output_dimensions_impl
  refine Ref.bind (Ref.lift _) fun n => ?_
  cases n <;> dsimp only <;> first | exact ref_sepBy (fun _ => ref_one_dim) _ | ref

theorem ref_preNode {n} : Ref (preNode E c r' n) (preNode E c r n) (Undname.preNode E c o n) := by
  have h1 := @ref_quals E
  cases n <;> unfold preNode Undname.preNode <;> dsimp only <;>
    first | exact ref_funcPre hr | exact ref_thunkPre hr | exact ref_pointerPre hr | exact hr.out _ _ |
      (ref; all_goals first | exact h1 | exact hr.out _ _ | exact hr.pre _ _)

theorem ref_postNode {n} : Ref (postNode E c r' n) (postNode E c r n) (Undname.postNode E c o n) := by
  cases n <;> unfold postNode Undname.postNode <;> dsimp only <;>
    first | exact ref_funcPost hr | exact ref_thunkPost hr | exact ref_pointerPost hr |
      (ref; all_goals first | exact ref_dims | exact hr.post _ _)

theorem ref_tparams {tp} : Ref (templateParams r' tp) (templateParams r tp) (Undname.templateParams o tp) := by
  unfold templateParams Undname.templateParams; ref; exact hr.out _ _

theorem ref_variable {n sc t} : Ref (variableOut E r' n sc t) (variableOut E r n sc t) (Undname.variableOut E o n sc t) := by
  have h1 := @ref_space E
  unfold variableOut Undname.variableOut
  refine Ref.bind (by ref) fun _ => Ref.bind (by ref) fun _ => ?_
  cases n with
  | none => ref
  | some v => cases v <;> dsimp only <;> ref <;> first | exact hr.out _ _ | exact hr.pre _ _ | exact hr.post _ _

theorem ref_outNode {n} : Ref (outNode E c r' n) (outNode E c r n) (Undname.outNode E c o n) := by
  have h1 := @ref_quals E
  have h2 := @ref_space E
  have h3 := @ref_tparams r' r o hr
  have h4 := @ref_variable E r' r o hr
  have h5 := @ref_preNode E c r' r o hr
  have h6 := @ref_postNode E c r' r o hr
  cases n with
  | DynamicStructorIdentifier tp i d =>
    cases i <;> unfold outNode Undname.outNode <;> dsimp only <;> ref <;> exact hr.out _ _
  | QualifiedName comps =>
    unfold outNode Undname.outNode
    refine Ref.bind (Ref.lift _) fun n => ?_
    cases n <;> dsimp only <;> first | exact ref_sepBy (fun _ => hr.out _ _) _ | ref
  | NodeArray l =>
    unfold outNode Undname.outNode
    exact ref_sepBy (fun _ => hr.out _ _) _
  | _ =>
    unfold outNode Undname.outNode; dsimp only
    first
      | (ref; done)
      | (ref; all_goals first | exact h1 | exact h2 | exact h3 | exact h4 | exact h5 | exact h6 | exact hr.out _ _ | exact hr.pre _ _ | exact hr.post _ _)

end

theorem ref_outFns (E : Env) (c : Cache) (n : Nat) : RefOut (outFns E c n) (outFns E c n) (Undname.outFns E c n) := by
  induction n with
  | zero => exact ⟨fun _ _ => Ref.crash _, fun _ _ => Ref.crash _, fun _ _ => Ref.crash _⟩
  | succ n ih =>
    exact ⟨fun _ _ => Ref.bind (Ref.lift _) fun _ => ref_outNode ih, fun _ _ => Ref.bind (Ref.lift _) fun _ => ref_preNode ih,
      fun _ _ => Ref.bind (Ref.lift _) fun _ => ref_postNode ih⟩

theorem ref_render (E : Env) (c : Cache) (k : Kind) (h : Handle) : Ref (render E c k h) (render E c k h) (Undname.render E c k h) :=
  (ref_outFns E c _).out k h

end Undname.Timed
