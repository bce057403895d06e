/-
  A program on renamed data does, renamed, what the program does, unless the latter crashes (which it never does,
  `Props.no_crash`).
-/
import Verif.Ren.Str

namespace Undname.Ren
variable {ρ : Renaming}

/-- The renamed outcome. -/
def Image {σ σ' α α' : Type} (f : σ → σ') (g : α → α') : Except Fail (α × σ) → Except Fail (α' × σ') → Prop
  | .error (.crash _), _ => True
  | .error (.err e), r => r = .error (.err e)
  | .ok (a, t), r => r = .ok (g a, f t)

/-- `m'` does on renamed data what `m` does, renamed. -/
def Com {σ σ' α α' : Type} (f : σ → σ') (g : α → α') (m' : SM σ' α') (m : SM σ α) : Prop :=
  ∀ s, Image f g (m s) (m' (f s))

namespace Com
variable {σ σ' α α' β β' γ γ' : Type} {f : σ → σ'} {g : α → α'}

theorem pure (a : α) : Com f g (Pure.pure (g a)) (Pure.pure a) := fun _ => rfl
theorem pure' (a : α) : Com f g (SM.pure (g a)) (SM.pure a) := fun _ => rfl
theorem pureI (a : α) : Com f id (Pure.pure a) (Pure.pure a) := fun _ => rfl
theorem pureI' (a : α) : Com f id (SM.pure a) (SM.pure a) := fun _ => rfl
theorem err (e : Error) {m' : SM σ' α'} (h : m' = SM.err e) : Com f g m' (SM.err e) := fun _ => by subst h; rfl
theorem errI (e : Error) : Com f g (SM.err e) (SM.err e) := fun _ => rfl
theorem crash (c : Crash) {m' : SM σ' α'} : Com f g m' (SM.crash c) := fun _ => trivial
theorem get : Com f f SM.get SM.get := fun _ => rfl
theorem set {s : σ} : Com f id (SM.set (f s)) (SM.set s) := fun _ => rfl
theorem modify {u : σ → σ} {u' : σ' → σ'} (h : ∀ s, u' (f s) = f (u s)) : Com f id (SM.modify u') (SM.modify u) := fun s => by
  show _ = _
  unfold SM.modify; rw [h]

theorem liftI (e : Except Fail α) : Com f id (SM.lift e) (SM.lift e) := fun s => by
  unfold SM.lift Image
  cases e with
  | ok a => rfl
  | error e => cases e <;> trivial

theorem liftG {e : Except Fail α} {e' : Except Fail α'} (h : e' = e.map g) : Com f g (SM.lift e') (SM.lift e) := fun s => by
  subst h
  unfold SM.lift Image
  cases e with
  | ok a => rfl
  | error e => cases e <;> trivial

theorem okOrI (e : Error) (o : Option α) : Com f id (SM.okOr e o) (SM.okOr e o) := by
  cases o
  · exact errI e
  · exact pureI' _

theorem okOrG (e : Error) (o : Option α) : Com f g (SM.okOr e (o.map g)) (SM.okOr e o) := by
  cases o
  · exact errI e
  · exact pure' _

theorem bind' {h : β → β'} {m' : SM σ' α'} {m : SM σ α} {k' : α' → SM σ' β'} {k : α → SM σ β}
    (hm : Com f g m' m) (hk : ∀ a, Com f h (k' (g a)) (k a)) : Com f h (SM.bind m' k') (SM.bind m k) := by
  intro s
  have h1 := hm s
  unfold SM.bind
  cases hr : m s with
  | error e =>
    rw [hr] at h1
    cases e with
    | crash c => trivial
    | err e =>
      have h1 : m' (f s) = _ := h1
      rw [h1]; rfl
  | ok x =>
    rw [hr] at h1
    have h1 : m' (f s) = .ok (g x.1, f x.2) := h1
    rw [h1]
    exact hk x.1 x.2

theorem bind {h : β → β'} {m' : SM σ' α'} {m : SM σ α} {k' : α' → SM σ' β'} {k : α → SM σ β}
    (hm : Com f g m' m) (hk : ∀ a, Com f h (k' (g a)) (k a)) : Com f h (m' >>= k') (m >>= k) := bind' hm hk

theorem bindI {h : β → β'} {m' : SM σ' α} {m : SM σ α} {k' : α → SM σ' β'} {k : α → SM σ β}
    (hm : Com f id m' m) (hk : ∀ a, Com f h (k' a) (k a)) : Com f h (m' >>= k') (m >>= k) := bind' hm hk

theorem ite {b : Prop} [Decidable b] {m1' m2' : SM σ' α'} {m1 m2 : SM σ α} (h1 : Com f g m1' m1) (h2 : Com f g m2' m2) :
    Com f g (if b then m1' else m2') (if b then m1 else m2) := by split <;> assumption

theorem whenB {b : Bool} {m' : SM σ' Unit} {m : SM σ Unit} (h : Com f id m' m) : Com f id (whenB b m') (whenB b m) := by
  cases b
  · exact pureI' _
  · exact h

theorem whenSome {x : Option α} {k' : α → SM σ' Unit} {k : α → SM σ Unit} (h : ∀ a, Com f id (k' a) (k a)) :
    Com f id (whenSome x k') (whenSome x k) := by
  cases x
  · exact pureI' _
  · exact h _

theorem iterate (gb : β → β') (gc : γ → γ') {b' : β' → SM σ' (β' ⊕ γ')} {b : β → SM σ (β ⊕ γ)}
    (h : ∀ x, Com f (Sum.map gb gc) (b' (gb x)) (b x)) {n n' : Nat} (hn : n ≤ n') (x : β) :
    Com f gc (SM.iterate n' b' (gb x)) (SM.iterate n b x) := by
  induction n generalizing x n' with
  | zero => exact crash _
  | succ n ih =>
    cases n' with
    | zero => omega
    | succ n' =>
      refine bind' (h x) fun a => ?_
      cases a with
      | inl y => exact ih (by omega) y
      | inr y => exact pure' _

theorem forN (gb : β → β') {b' : β' → SM σ' β'} {b : β → SM σ β} (h : ∀ x, Com f gb (b' (gb x)) (b x)) (n : Nat) (x : β) :
    Com f gb (SM.forN n b' (gb x)) (SM.forN n b x) := by
  induction n generalizing x with
  | zero => exact pure' _
  | succ n ih => exact bind' (h x) fun a => ih a

theorem forNI {b' : β → SM σ' β} {b : β → SM σ β} (h : ∀ x, Com f id (b' x) (b x)) (n : Nat) (x : β) :
    Com f id (SM.forN n b' x) (SM.forN n b x) := forN id h n x

theorem retype {g2 : α → α'} {m' : SM σ' α'} {m : SM σ α} (h : Com f g m' m) (hg : ∀ a, g a = g2 a) : Com f g2 m' m := by
  have : g = g2 := funext hg
  subst this; exact h

end Com

/-! ### Nodes -/

/-- A node with its names renamed. -/
def renN (ρ : Renaming) : Node → Node
  | .PrimitiveType q k => .PrimitiveType q k
  | .FunctionSignature f => .FunctionSignature f
  | .ThunkSignature f a => .ThunkSignature f a
  | .PointerType q a c p => .PointerType q a c p
  | .TagType q n t => .TagType q n t
  | .ArrayType q d e => .ArrayType q d e
  | .CustomType q i => .CustomType q i
  | .VcallThunkIdentifier tp o => .VcallThunkIdentifier tp o
  | .DynamicStructorIdentifier tp i d => .DynamicStructorIdentifier tp i d
  | .NamedIdentifier tp n => .NamedIdentifier tp ((ren ρ) n)
  | .IntrinsicFunctionIdentifier tp o => .IntrinsicFunctionIdentifier tp o
  | .LiteralOperatorIdentifier tp n => .LiteralOperatorIdentifier tp ((ren ρ) n)
  | .LocalStaticGuardIdentifier tp t i => .LocalStaticGuardIdentifier tp t i
  | .ConversionOperatorIdentifier tp t => .ConversionOperatorIdentifier tp t
  | .StructorIdentifier tp c d => .StructorIdentifier tp c d
  | .RttiBaseClassDescriptor tp a b c d => .RttiBaseClassDescriptor tp a b c d
  | .NodeArray l => .NodeArray l
  | .QualifiedName c => .QualifiedName c
  | .TemplateParameterReference s o a m => .TemplateParameterReference s o a m
  | .IntegerLiteral v n => .IntegerLiteral v n
  | .Md5Symbol n => .Md5Symbol n
  | .SpecialTableSymbol n t q => .SpecialTableSymbol n t q
  | .LocalStaticGuardVariable n v => .LocalStaticGuardVariable n v
  | .EncodedStringLiteral n d t c => .EncodedStringLiteral n ((ren ρ) d) t c
  | .VariableSymbol n sc t => .VariableSymbol n sc t
  | .FunctionSymbol n s => .FunctionSymbol n s

theorem node_is (k : Kind) (n : Node) : ((renN ρ) n).is k = n.is k := by cases k <;> cases n <;> rfl

/-- The nodes with their names renamed. -/
def renC (ρ : Renaming) (c : Cache) : Cache := c.map (renN ρ)

theorem resolve_ren (k : Kind) (c : Cache) (h : Handle) : resolve k ((renC ρ) c) h = (resolve k c h).map (renN ρ) := by
  unfold resolve renC
  rw [List.getElem?_map]
  cases c[h]? with
  | none => rfl
  | some n =>
    simp only [Option.map, node_is]
    split <;> rfl

theorem downcast_ren (k k' : Kind) (c : Cache) (h : Handle) : downcast k k' ((renC ρ) c) h = downcast k k' c h := by
  unfold downcast
  rw [resolve_ren]
  cases resolve k c h with
  | error e => rfl
  | ok n => simp only [Except.map, node_is]

theorem unqualified_ren (c : Cache) (h : Handle) :
    get_unqualified_identifier ((renC ρ) c) h = get_unqualified_identifier c h := by
  unfold get_unqualified_identifier
  rw [resolve_ren]
  cases resolve .QualifiedName c h with
  | error e => rfl
  | ok n =>
    cases n <;> try rfl
    simp only [Except.map, renN, resolve_ren]
    rename_i comps
    cases resolve .NodeArray c comps with
    | error e => rfl
    | ok n =>
      cases n <;> try rfl
      simp only [downcast_ren]

end Undname.Ren
