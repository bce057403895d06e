/-
  Well-formedness of the declarations of `Spec/Mangler.lean` is decidable (used by examples only).
-/
import Verif.Spec.Mangler

namespace Undname.Spec.Cxx

instance (s : Text) : Decidable (Fits s) := inferInstanceAs (Decidable (_ < _))

instance Ty.decUnq : (t : Ty) → Decidable t.unqualified
  | .prim .. | .tag .. => inferInstanceAs (Decidable (_ ∧ _))
  | .ptr .. | .fptr .. | .aptr .. | .mptr .. | .mfptr .. => .isTrue trivial

instance Ty.decNoExt : (t : Ty) → Decidable t.noExt
  | .ptr .. | .mptr .. => inferInstanceAs (Decidable (_ ∧ _))
  | .aptr .. => inferInstanceAs (Decidable (_ = _))
  | .prim .. | .tag .. | .fptr .. | .mfptr .. => .isTrue trivial

instance PK.decStar : (k : PK) → Decidable k.isStar
  | .star .. => .isTrue trivial
  | .ref | .rref => .isFalse id

instance Seg.decName : (s : Seg) → Decidable s.isName
  | .id _ | .tm _ _ => .isTrue trivial
  | .anon _ | .loc _ _ => .isFalse fun h => h

instance (dims : List Nat) : Decidable (dimsOk dims) := inferInstanceAs (Decidable (_ ∧ _))
instance (i : Int) : Decidable (Int32 i) := inferInstanceAs (Decidable (_ ∧ _))
instance (offs : List Int) : Decidable (offsOk offs) := inferInstanceAs (Decidable (∀ i ∈ offs, i.natAbs < 2 ^ 63))
instance (ps : List Text) (v : Bool) : Decidable (variadicOk ps v) := inferInstanceAs (Decidable (_ → _))

instance Adj.decOk : (a : Adj) → Decidable a.Ok
  | .static n => inferInstanceAs (Decidable (n < _))
  | .disp d n => inferInstanceAs (Decidable (Int32 d ∧ n < _))
  | .dispex a b d n => inferInstanceAs (Decidable (Int32 a ∧ Int32 b ∧ Int32 d ∧ n < _))

instance Kind.decOk : (k : Kind) → Decidable k.Ok
  | .thunk _ adj _ => inferInstanceAs (Decidable adj.Ok)
  | .free _ | .static _ | .member .. => .isTrue trivial

instance identDec (d : Decl) : Decidable (∃ s, d.ident = some s ∧ Fits s) :=
  match h : d.ident with
  | none => .isFalse (by rintro ⟨s, hs, -⟩; cases hs)
  | some s => if hf : Fits s then .isTrue ⟨s, rfl, hf⟩ else .isFalse (by rintro ⟨s', hs, h'⟩; cases hs; exact hf h')

/-- Decidability is transported along an equation. -/
def decBy {p q : Prop} (i : Decidable p) (e : q = p) : Decidable q :=
  match i with
  | .isTrue h => .isTrue (e.mpr h)
  | .isFalse h => .isFalse fun g => h (e.mp g)

variable (E : Env)

mutual
def Ty.decOk : (t : Ty) → Decidable (t.Ok E)
  | .prim .. => .isTrue (by rw [Ty.Ok]; trivial)
  | .tag _ p _ _ => decBy (p := p.IsType E) (i := Path.decType p) (by rw [Ty.Ok])
  | .ptr _ _ to => decBy (i := Ty.decOk to) (by rw [Ty.Ok])
  | .fptr k s => decBy (p := k.restrict = false ∧ s.Ok E) (i := have := Sig.decOk s; inferInstance) (by rw [Ty.Ok])
  | .aptr _ _ _ dims el => decBy (p := dimsOk dims ∧ el.unqualified ∧ el.Ok E) (i := have := Ty.decOk el; inferInstance) (by rw [Ty.Ok])
  | .mptr k _ cls to => decBy (p := k.isStar ∧ cls.IsType E ∧ to.noExt ∧ to.Ok E)
      (i := have := Ty.decOk to; have := Path.decType cls; inferInstance) (by rw [Ty.Ok])
  | .mfptr k cls _ s => decBy (p := (k.isStar ∧ k.restrict = false) ∧ cls.IsType E ∧ s.Ok E)
      (i := have := Sig.decOk s; have := Path.decType cls; inferInstance) (by rw [Ty.Ok])
def Sig.decOk : (s : Sig) → Decidable (s.Ok E)
  | .mk cc ret ps variadic _ => decBy (p := (convWord cc).isSome = true ∧ ret.Ok E ∧ ps.Ok E ∧ variadicOk (ps.list E) variadic)
      (i := have := Ty.decOk ret; have := Tys.decOk ps; inferInstance) (by rw [Sig.Ok])
def Tys.decOk : (ts : Tys) → Decidable (ts.Ok E)
  | .nil => .isTrue (by rw [Tys.Ok]; trivial)
  | .cons t ts => decBy (p := t ≠ .prim .Void false false ∧ t.unqualified ∧ t.Ok E ∧ ts.Ok E)
      (i := have := Ty.decOk t; have := Tys.decOk ts; inferInstance) (by rw [Tys.Ok])
def Path.decOk : (p : Path) → Decidable (p.Ok E)
  | .nil => .isTrue (by rw [Path.Ok]; trivial)
  | .cons s p => decBy (p := s.Ok E ∧ p.Ok E)
      (i := have := Seg.decOk s; have := Path.decOk p; inferInstance) (by rw [Path.Ok])
def Path.decType : (p : Path) → Decidable (p.IsType E)
  | .nil => .isFalse (by rw [Path.IsType]; exact id)
  | .cons s p => decBy (p := s.isName ∧ s.Ok E ∧ p.Ok E)
      (i := have := Seg.decOk s; have := Path.decOk p; inferInstance) (by rw [Path.IsType])
def Seg.decOk : (s : Seg) → Decidable (s.Ok E)
  | .id s => decBy (p := Name s) inferInstance (by rw [Seg.Ok])
  | .tm s as => decBy (p := Name s ∧ Fits ((Seg.tm s as).cpp E) ∧ as.Ok E)
      (i := have := Args.decOk as; inferInstance) (by rw [Seg.Ok])
  | .anon key => decBy (p := '@' ∉ key) inferInstance (by rw [Seg.Ok])
  | .loc n d => decBy (p := (1 ≤ n ∧ n < 2 ^ 64) ∧ Fits ((Seg.loc n d).cpp E) ∧ d.Ok E)
      (i := have := Decl.decOk d; inferInstance) (by rw [Seg.Ok])
def Args.decOk : (as : Args) → Decidable (as.Ok E)
  | .nil => .isTrue (by rw [Args.Ok]; trivial)
  | .ty t as => decBy (p := t.Ok E ∧ as.Ok E) (i := have := Ty.decOk t; have := Args.decOk as; inferInstance) (by rw [Args.Ok])
  | .int _ n as => decBy (p := n < 2 ^ 64 ∧ as.Ok E) (i := have := Args.decOk as; inferInstance) (by rw [Args.Ok])
  | .pack as => decBy (p := as.Ok E) (i := Args.decOk as) (by rw [Args.Ok])
  | .fn s as => decBy (p := s.Ok E ∧ as.Ok E) (i := have := Sig.decOk s; have := Args.decOk as; inferInstance) (by rw [Args.Ok])
  | .mfn _ s as => decBy (p := s.Ok E ∧ as.Ok E) (i := have := Sig.decOk s; have := Args.decOk as; inferInstance) (by rw [Args.Ok])
  | .arr _ _ dims el as => decBy (p := dimsOk dims ∧ el.unqualified ∧ el.Ok E ∧ as.Ok E)
      (i := have := Ty.decOk el; have := Args.decOk as; inferInstance) (by rw [Args.Ok])
  | .tmpl p as => decBy (p := p.IsType E ∧ as.Ok E) (i := have := Path.decType p; have := Args.decOk as; inferInstance) (by rw [Args.Ok])
  | .addr d as => decBy (p := (∃ s, d.ident = some s ∧ Fits s) ∧ d.Ok E ∧ as.Ok E)
      (i := have := Decl.decOk d; have := Args.decOk as; inferInstance) (by rw [Args.Ok])
  | .ref d as => decBy (p := d.Ok E ∧ as.Ok E) (i := have := Decl.decOk d; have := Args.decOk as; inferInstance) (by rw [Args.Ok])
  | .memFn d offs as => decBy (p := ((∃ s, d.ident = some s ∧ Fits s) ∧ offs.length ∈ [1, 2, 3] ∧ offsOk offs) ∧ d.Ok E ∧ as.Ok E)
      (i := have := Decl.decOk d; have := Args.decOk as; inferInstance) (by rw [Args.Ok])
  | .memData offs as => decBy (p := (offs.length ∈ [2, 3] ∧ offsOk offs) ∧ as.Ok E)
      (i := have := Args.decOk as; inferInstance) (by rw [Args.Ok])
def Targs.decOk : (ta : Targs) → Decidable (ta.Ok E)
  | .none => .isTrue (by rw [Targs.Ok]; trivial)
  | .some as => decBy (p := as.Ok E) (i := Args.decOk as) (by rw [Targs.Ok])
def Head.decOk : (n : Head) → Decidable (n.Ok E)
  | .id s => decBy (p := Name s) inferInstance (by rw [Head.Ok])
  | .tm s as => decBy (p := Name s ∧ as.Ok E) (i := have := Args.decOk as; inferInstance) (by rw [Head.Ok])
  | .op _ ta => decBy (p := ta.Ok E) (i := Targs.decOk ta) (by rw [Head.Ok])
  | .lit s => decBy (p := s ≠ [] ∧ '@' ∉ s) inferInstance (by rw [Head.Ok])
def Decl.decOk : (d : Decl) → Decidable (d.Ok E)
  | .var _ name scope ty => decBy (p := name.Ok E ∧ scope.Ok E ∧ ty.Ok E)
      (i := have := Head.decOk name; have := Path.decOk scope; have := Ty.decOk ty; inferInstance) (by rw [Decl.Ok])
  | .fn k name scope s => decBy (p := k.Ok ∧ name.Ok E ∧ scope.Ok E ∧ s.Ok E)
      (i := have := Head.decOk name; have := Path.decOk scope; have := Sig.decOk s; inferInstance) (by rw [Decl.Ok])
  | .structor _ targs k s scope cc params variadic _ => decBy
      (p := (k.Ok ∧ (convWord cc).isSome = true ∧ variadicOk (params.list E) variadic) ∧ targs.Ok E ∧ s.isName ∧ s.Ok E ∧ scope.Ok E ∧ params.Ok E)
      (i := have := Targs.decOk targs; have := Seg.decOk s; have := Path.decOk scope; have := Tys.decOk params; inferInstance) (by rw [Decl.Ok])
  | .conv targs k cls s => decBy (p := k.Ok ∧ targs.Ok E ∧ cls.Ok E ∧ s.Ok E)
      (i := have := Targs.decOk targs; have := Path.decOk cls; have := Sig.decOk s; inferInstance) (by rw [Decl.Ok])
end

instance (t : Ty) : Decidable (t.Ok E) := t.decOk E
instance (s : Sig) : Decidable (s.Ok E) := s.decOk E
instance (ts : Tys) : Decidable (ts.Ok E) := ts.decOk E
instance (p : Path) : Decidable (p.Ok E) := p.decOk E
instance (p : Path) : Decidable (p.IsType E) := p.decType E
instance (s : Seg) : Decidable (s.Ok E) := s.decOk E
instance (as : Args) : Decidable (as.Ok E) := as.decOk E
instance (d : Decl) : Decidable (d.Ok E) := d.decOk E

instance (l : List Seg) : Decidable (Distinct E l) :=
  inferInstanceAs (Decidable (∀ a ∈ l, ∀ b ∈ l, a.known E = b.known E → a = b))

end Undname.Spec.Cxx
