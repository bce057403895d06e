/-
  The small language of `Spec/Decl.lean` inside the grammar.
-/
import Verif.Proof.Paths
import Verif.Spec.Decl

namespace Undname
open Spec

/-- The default flags suppress nothing. -/
structure Plain (E : Env) : Prop where
  n1 : E.flags.no_calling_convention = false
  n2 : E.flags.no_tag_specifier = false
  n3 : E.flags.no_access_specifier = false
  n4 : E.flags.no_member_type = false
  n5 : E.flags.no_return_type = false
  n6 : E.flags.no_variable_type = false
  n7 : E.flags.no_this_type = false
  n8 : E.flags.no_leading_underscores = false
  n9 : E.flags.no_ms_keywords = false
  n10 : E.flags.name_only = false

theorem plain_default {E : Env} (h : E.flags = Flags.default) : Plain E := by
  constructor <;> rw [h] <;> decide

theorem sp_append (E : Env) (w a : Text) (h : a ≠ []) : sp E (w ++ a) = w ++ sp E a := by
  unfold sp
  rw [List.getLast?_append, List.getLast?_eq_some_getLast h]
  simp only [Option.some_or]
  split <;> simp

theorem sp_ne (E : Env) {a : Text} (h : a ≠ []) : sp E a ≠ [] := by
  unfold sp
  rw [List.getLast?_eq_some_getLast h]
  dsimp only
  split <;> simp [h]

/-- The blank is not added twice. -/
theorem sp_blank (E : Env) (a : Text) : sp E (a ++ c!" ") = a ++ c!" " := by
  unfold sp; simp [isWordEnd]

namespace Spec.Ty

/-- The type as a tree. -/
def tree : Ty → T
  | .prim k c v => .prim { c, v } k
  | .tag k p c v => .tag { c, v } k (.qname (pathT p))
  | .ptr c v to => .ptr { c, v } .Pointer .nil to.tree
  | .ref to => .ptr {} .Reference .nil to.tree
  | .rref to => .ptr {} .RValueReference .nil to.tree

/-- Without the qualifiers written by the context. -/
def core : Ty → T
  | .prim k _ _ => .prim {} k
  | .tag k p _ _ => .tag {} k (.qname (pathT p))
  | t => t.tree

/-- The qualifiers written by the context. -/
def ctxCV : Ty → CV
  | .prim _ c v | .tag _ _ c v => { c, v }
  | _ => {}

theorem or_nil (q : CV) : q.or {} = q := by simp [CV.or]
theorem nil_or (q : CV) : CV.or {} q = q := by simp [CV.or]

theorem core_addQ (t : Ty) : t.core.addQ t.ctxCV = t.tree := by
  cases t <;> simp [core, ctxCV, T.addQ, tree, or_nil, nil_or]

theorem tree_addQ (t : Ty) : t.tree.addQ t.ctxCV = t.tree := by
  cases t <;> simp [ctxCV, T.addQ, tree, CV.or]

theorem core_setQ (t : Ty) (h : t.core.isPtr = false) : t.core.setQ t.ctxCV = t.tree := by
  cases t <;> first | rfl | cases h

theorem letter_mem (t : Ty) : (t.letter, t.ctxCV) ∈ cvCodes := by
  cases t <;> simp only [letter, ctxCV]
  case prim k c v => cases c <;> cases v <;> decide
  case tag k p c v => cases c <;> cases v <;> decide
  all_goals decide

theorem wide_code (w : Bool) : (⟨w, false, false⟩ : Ext).code = wide w := by cases w <;> rfl
theorem wide_cv (w : Bool) : (⟨w, false, false⟩ : Ext).cv = {} := rfl

theorem core_gram {E : Env} (w : Bool) : {t : Ty} → t.Ok → (tb : Tbl) →
    ∃ tb', Gram E .ty tb t.core (t.mangle w) tb'
  | .prim k _ _, _, tb => ⟨tb, .prim k⟩
  | .tag k p _ _, h, tb => by
    obtain ⟨tb', h⟩ := qtn_gram (E := E) (p := p) h tb
    exact ⟨tb', .tag k h⟩
  | .ptr c v to, h, tb => by
    obtain ⟨tb', g⟩ := core_gram (E := E) w (t := to) h tb
    refine ⟨tb', ?_⟩
    have hm : ([ptrLetter c v], ({ c, v } : CV), PointerAffinity.Pointer) ∈ refCodes := by
      cases c <;> cases v <;> decide
    have := Gram.ptr ⟨w, false, false⟩ hm to.letter_mem g
    rw [core_addQ, wide_code, wide_cv, or_nil] at this
    exact this
  | .ref to, h, tb => by
    obtain ⟨tb', g⟩ := core_gram (E := E) w (t := to) h tb
    refine ⟨tb', ?_⟩
    have hm : (c!"A", ({} : CV), PointerAffinity.Reference) ∈ refCodes := by decide
    have := Gram.ptr ⟨w, false, false⟩ hm to.letter_mem g
    rw [core_addQ, wide_code, wide_cv, or_nil] at this
    exact this
  | .rref to, h, tb => by
    obtain ⟨tb', g⟩ := core_gram (E := E) w (t := to) h tb
    refine ⟨tb', ?_⟩
    have hm : (c!"$$Q", ({} : CV), PointerAffinity.RValueReference) ∈ refCodes := by decide
    have := Gram.ptr ⟨w, false, false⟩ hm to.letter_mem g
    rw [core_addQ, wide_code, wide_cv, or_nil] at this
    exact this

theorem after_eq (E : Env) (c v : Bool) : CV.after E { c, v } = cvAfter c v := by
  cases c <;> cases v <;> rfl
theorem sep_eq (E : Env) (c v : Bool) : CV.sep E { c, v } = cvWords c v := by
  cases c <;> cases v <;> rfl

theorem primName_ne (k : PrimitiveKind) : primName k ≠ [] := by cases k <;> decide

theorem cpp_ne (E : Env) : (t : Ty) → t.cpp E ≠ []
  | .prim k c v => by simp [cpp, primName_ne]
  | .tag k p c v => by simp [cpp]
  | .ptr c v to => by simp [cpp]
  | .ref to => by simp [cpp]
  | .rref to => by simp [cpp]

theorem tree_pr {E : Env} (hE : Plain E) : (t : Ty) → (t.tree.pr E).some = true ∧
    (∀ fp w, (t.tree.pr E).pre fp w = w ++ t.cpp E) ∧ (∀ fp w, (t.tree.pr E).post fp w = w) ∧
    (∀ w, (t.tree.pr E).out w = w ++ t.cpp E)
  | .prim k c v => by simp [tree, T.pr, Pr.ofType, cpp, after_eq]
  | .tag k p c v => by
    simp only [tree, T.pr, Pr.ofType, cpp, after_eq, hE.n2, hE.n10]
    have := path_out E p
    simp only [T.pr] at this
    simp [this]
  | .ptr c v to => by
    obtain ⟨_, h1, h2, _⟩ := tree_pr hE to
    have hn : needsParens to.tree = false := by cases to <;> rfl
    have ho : ∀ w, openParen E to.tree w = w := by intro w; cases to <;> rfl
    simp [tree, T.pr, Pr.ofType, cpp, sep_eq, hE.n9, hn, ho, h1, h2, sp_append, cpp_ne, Pr.nil, affName]
  | .ref to => by
    obtain ⟨_, h1, h2, _⟩ := tree_pr hE to
    have hn : needsParens to.tree = false := by cases to <;> rfl
    have ho : ∀ w, openParen E to.tree w = w := by intro w; cases to <;> rfl
    have hs : CV.sep E {} = [] := rfl
    simp [tree, T.pr, Pr.ofType, cpp, hs, hE.n9, hn, ho, h1, h2, sp_append, cpp_ne, Pr.nil, affName]
  | .rref to => by
    obtain ⟨_, h1, h2, _⟩ := tree_pr hE to
    have hn : needsParens to.tree = false := by cases to <;> rfl
    have ho : ∀ w, openParen E to.tree w = w := by intro w; cases to <;> rfl
    have hs : CV.sep E {} = [] := rfl
    simp [tree, T.pr, Pr.ofType, cpp, hs, hE.n9, hn, ho, h1, h2, sp_append, cpp_ne, Pr.nil, affName]

end Spec.Ty

/-! ### Variables -/

theorem sname_gram {E : Env} {s : Text} (h : Name s) (tb : Tbl) :
    Gram E .sname tb (leaf s) (s ++ c!"@") (tb.note s) := .sFull (.fName h)

/-- A global variable as a phrase. -/
theorem var_gram {E : Env} (w : Bool) {name : List Text} (hn : IsPath name) {t : Ty} (ht : t.Ok) :
    ∃ tb', Gram E .sym {} (.var (some .Global) (.qname (pathT name)) t.tree.one) (mangleVar w name t) tb' := by
  obtain ⟨hne, hp⟩ := hn
  cases name with
  | nil => exact absurd rfl hne
  | cons s p =>
    obtain ⟨tb1, h1⟩ := scopes_gram (E := E) (p := p) (fun s hs => hp s (by simp [hs])) (({} : Tbl).note s)
    obtain ⟨tb2, h2⟩ := Ty.core_gram (E := E) w ht tb1
    refine ⟨tb2, ?_⟩
    have hs := sname_gram (E := E) (hp s (by simp)) {}
    have hst : ('3', StorageClass.Global) ∈ storageCodes := by decide
    have hl : ∀ t : Ty, (t.letter, t.ctxCV) ∈ cvCodes ++ memberCvCodes := fun t => List.mem_append_left _ t.letter_mem
    unfold mangleVar
    rw [pathT_cons, manglePath_cons]
    refine cast ?_ (sym_of (?_ : Gram E .decl {} (.var (some .Global) (.qname ((pathT p).snoc (leaf s))) t.tree.one)
      (s ++ c!"@" ++ manglePath p ++ '3' :: t.mangle w ++ t.suffix w) tb2) hs rfl)
    · simp
    cases t with
    | prim k c v => exact cast (by rw [Ty.core_setQ _ rfl]; rfl) (Gram.var hs rfl h1 hst h2 rfl (hl _))
    | tag k q c v => exact cast (by rw [Ty.core_setQ _ rfl]; rfl) (Gram.var hs rfl h1 hst h2 rfl (hl _))
    | ptr c v to =>
      exact cast (by rw [Ty.tree_addQ, Ty.wide_code, Ty.wide_cv, Ty.or_nil]; simp [Ty.suffix, Ty.tree])
        (Gram.varPtr ⟨w, false, false⟩ hs rfl h1 hst h2 (hl to))
    | ref to =>
      exact cast (by rw [Ty.tree_addQ, Ty.wide_code, Ty.wide_cv, Ty.or_nil]; simp [Ty.suffix, Ty.tree])
        (Gram.varPtr ⟨w, false, false⟩ hs rfl h1 hst h2 (hl to))
    | rref to =>
      exact cast (by rw [Ty.tree_addQ, Ty.wide_code, Ty.wide_cv, Ty.or_nil]; simp [Ty.suffix, Ty.tree])
        (Gram.varPtr ⟨w, false, false⟩ hs rfl h1 hst h2 (hl to))

theorem var_text {E : Env} (hE : Plain E) (name : List Text) (t : Ty) :
    (T.var (some .Global) (.qname (pathT name)) t.tree.one).text E = declareVar E name t := by
  obtain ⟨h1, h2, h3, _⟩ := Ty.tree_pr hE t
  have hp := path_out E name
  simp only [T.text, T.pr, Pr.ofText, T.one, Pr.cons, hE.n6, hE.n10, h1, h2, h3] at *
  simp [storageText, storageAccess, hp, declareVar]

end Undname
