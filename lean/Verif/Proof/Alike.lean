/-
  Trees that print alike: a back-reference to a template instantiation is read as a name whose text is that
  of the instantiation.
-/
import Verif.Spec.Grammar

namespace Undname
open Spec
namespace Spec

/-- The same tree, except that template instantiations may be replaced by names with the same text. -/
inductive Alike (E : Env) : T → T → Prop where
  | refl (t) : Alike E t t
  | cons {a a' b b'} : Alike E a a' → Alike E b b' → Alike E (.cons a b) (.cons a' b')
  | tag {n n'} (q k) : Alike E n n' → Alike E (.tag q k n) (.tag q k n')
  | ptr {c c' t t'} (q a) : Alike E c c' → Alike E t t' → Alike E (.ptr q a c t) (.ptr q a c' t')
  | array {t t'} (q d) : Alike E t t' → Alike E (.array q d t) (.array q d t')
  | sig {r r' p p'} (f) : Alike E r r' → Alike E p p' → Alike E (.sig f r p) (.sig f r' p')
  | thunk {r r' p p'} (f ad) : Alike E r r' → Alike E p p' → Alike E (.thunk f ad r p) (.thunk f ad r' p')
  | arr {t t'} : Alike E t t' → Alike E (.arr t) (.arr t')
  | qname {t t'} : Alike E t t' → Alike E (.qname t) (.qname t')
  | named {t t'} (s) : Alike E t t' → Alike E (.named s t) (.named s t')
  | text {s ta s'} : (∀ w, ((T.named s ta).pr E).out w = w ++ s') → Alike E (.named s' .nil) (.named s ta)
  | structor {c c' t t'} (d) : Alike E c c' → Alike E t t' → Alike E (.structor d c t) (.structor d c' t')
  | conv {c c' t t'} : Alike E c c' → Alike E t t' → Alike E (.conv c t) (.conv c' t')
  | op {t t'} (o) : Alike E t t' → Alike E (.op o t) (.op o t')
  | fn {n n' s s'} : Alike E n n' → Alike E s s' → Alike E (.fn n s) (.fn n' s')
  | var {n n' t t'} (sc) : Alike E n n' → Alike E t t' → Alike E (.var sc n t) (.var sc n' t')
  | table {n n' t t'} (q) : Alike E n n' → Alike E t t' → Alike E (.table q n t) (.table q n' t')
  | same {t t'} : Alike E t t' → Alike E (.same t) (.same t')
  | typeDescr {t t'} : Alike E t t' → Alike E (.typeDescr t) (.typeDescr t')
  | dynVar {t t'} (d) : Alike E t t' → Alike E (.dynVar d t) (.dynVar d t')
  | dynFn {t t'} (d) : Alike E t t' → Alike E (.dynFn d t) (.dynFn d t')
  | addr {t t'} (b o) : Alike E t t' → Alike E (.addr b t o) (.addr b t' o)

variable {E : Env}

theorem Alike.parens {t t' : T} (h : Alike E t t') : needsParens t = needsParens t' ∧ openParen E t = openParen E t' := by
  cases h <;> exact ⟨rfl, rfl⟩

theorem Alike.pr {t t' : T} (h : Alike E t t') : t.pr E = t'.pr E := by
  induction h with
  | refl t => rfl
  | @text s ta s' h =>
    have e1 : ∀ (s : Text) (ta : T), (T.named s ta).pr E = Pr.ofText ((T.named s ta).pr E).out := fun _ _ => rfl
    have e2 : ((T.named s' .nil).pr E).out = ((T.named s ta).pr E).out := by
      funext w
      rw [h w]
      simp [T.pr, Pr.ofText, targsOut, Pr.nil]
    rw [e1 s' .nil, e1 s ta, e2]
  | ptr q a h1 h2 ih1 ih2 => simp only [T.pr, ih1, ih2, h2.parens.1, h2.parens.2]
  | _ => simp only [T.pr, *]

theorem Alike.text_eq {t t' : T} (h : Alike E t t') : t.text E = t'.text E := by unfold T.text; rw [h.pr]

theorem Alike.one {t t' : T} (h : Alike E t t') : Alike E t.one t'.one := .cons h (.refl _)

theorem Alike.addQ {t t' : T} (h : Alike E t t') (q : CV) : Alike E (t.addQ q) (t'.addQ q) := by
  cases h with
  | tag _ _ h => exact .tag _ _ h
  | ptr _ _ h1 h2 => exact .ptr _ _ h1 h2
  | array _ _ h => exact .array _ _ h
  | sig _ h1 h2 => exact .sig _ h1 h2
  | thunk _ _ h1 h2 => exact .thunk _ _ h1 h2
  | refl => exact .refl _
  | cons h1 h2 => exact .cons h1 h2
  | arr h => exact .arr h
  | qname h => exact .qname h
  | named _ h => exact .named _ h
  | text h => exact .text h
  | structor _ h1 h2 => exact .structor _ h1 h2
  | conv h1 h2 => exact .conv h1 h2
  | op _ h => exact .op _ h
  | fn h1 h2 => exact .fn h1 h2
  | var _ h1 h2 => exact .var _ h1 h2
  | table _ h1 h2 => exact .table _ h1 h2
  | same h => exact .same h
  | typeDescr h => exact .typeDescr h
  | dynVar _ h => exact .dynVar _ h
  | dynFn _ h => exact .dynFn _ h
  | addr _ _ h => exact .addr _ _ h

theorem Alike.setQ {t t' : T} (h : Alike E t t') (q : CV) : Alike E (t.setQ q) (t'.setQ q) := by
  cases h with
  | tag _ _ h => exact .tag _ _ h
  | ptr _ _ h1 h2 => exact .ptr _ _ h1 h2
  | array _ _ h => exact .array _ _ h
  | sig _ h1 h2 => exact .sig _ h1 h2
  | thunk _ _ h1 h2 => exact .thunk _ _ h1 h2
  | refl => exact .refl _
  | cons h1 h2 => exact .cons h1 h2
  | arr h => exact .arr h
  | qname h => exact .qname h
  | named _ h => exact .named _ h
  | text h => exact .text h
  | structor _ h1 h2 => exact .structor _ h1 h2
  | conv h1 h2 => exact .conv h1 h2
  | op _ h => exact .op _ h
  | fn h1 h2 => exact .fn h1 h2
  | var _ h1 h2 => exact .var _ h1 h2
  | table _ h1 h2 => exact .table _ h1 h2
  | same h => exact .same h
  | typeDescr h => exact .typeDescr h
  | dynVar _ h => exact .dynVar _ h
  | dynFn _ h => exact .dynFn _ h
  | addr _ _ h => exact .addr _ _ h

theorem Alike.snoc {t t' : T} (h : Alike E t t') : ∀ {a a' : T}, Alike E a a' → Alike E (t.snoc a) (t'.snoc a') := by
  induction h with
  | refl t =>
    intro a a' ha
    induction t with
    | cons b bs _ ih => exact .cons (.refl _) ih
    | _ => exact .cons ha (.refl _)
  | cons h1 h2 _ ih => exact fun ha => .cons h1 (ih ha)
  | _ => exact fun ha => .cons ha (.refl _)

theorem Alike.plain {t t' : T} (h : Alike E t t') : t.isPlain = t'.isPlain := by
  cases h <;> rfl

theorem Alike.isPtr {t t' : T} (h : Alike E t t') : t.isPtr = t'.isPtr := by
  cases h <;> rfl

end Spec
end Undname
