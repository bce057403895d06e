/-
  Functions with any name of the grammar, and template instantiations.
-/
import Verif.Proof.DeclFn
import Verif.Spec.Templates

namespace Undname
open Spec

/-- A global function whose name is any phrase. -/
theorem shows_global {E : Env} (hP : Plain E) (w : Bool) {f : Fn} (hf : f.Ok) {conv : Text}
    (hc : convWord f.cc = some conv) (hv : f.variadic = true → '(' ∉ (f.params.map (Ty.cpp E)).flatten)
    {i ps : T} {x y : Text} {tb1 tb2 : Tbl} (h : Gram E .sname {} i x tb1) (hp : i.isPlain = true) (hk : T.known i = true)
    (hs : Gram E .scopes tb1 ps y tb2) {nt : Text} (hn : ∀ w, ((T.qname (ps.snoc i)).pr E).out w = w ++ nt) (rest : Text) :
    Shows E (c!"?" ++ x ++ y ++ c!"Y" ++ f.mangle w ++ rest)
      (f.cppRet E ++ conv ++ c!" " ++ nt ++ f.cppParams E ++ (if f.noexc then c!" noexcept" else [])) := by
  obtain ⟨tb', g⟩ := global_fenc (E := E) w hf tb2
  have ht := fn_text hP hc hv {} rfl false false rfl _ nt hn
  have := shows_sym (sym_of (.func h hp hs g) h hk) rest
  rw [ht] at this
  have e1 : kindText {} = [] := rfl
  have e2 : Ty.cvAfter false false = [] := rfl
  simpa [e1, e2] using this

/-- A list of trees that print like the given texts. -/
theorem tl_prints {α : Type} {E : Env} {tree : α → T} {txt : α → Text} (h : ∀ a w, ((tree a).pr E).out w = w ++ txt a)
    (l : List α) (sep w : Text) : ((tl (l.map tree)).pr E).seq sep w = w ++ join sep (l.map txt) := by
  have tail : ∀ (l : List α) w, ((tl (l.map tree)).pr E).tail sep w = w ++ (l.map txt).flatMap (sep ++ ·) := by
    intro l
    induction l with
    | nil => intro w; simp [tl, T.pr, Pr.nil]
    | cons a l ih => intro w; simp only [List.map_cons, tl, T.pr, Pr.cons, ih, h]; simp
  cases l with
  | nil => simp [tl, T.pr, Pr.nil, join]
  | cons a l => simp only [List.map_cons, tl, T.pr, Pr.cons, tail, h, join_cons]; simp

/-- A scope chain whose last element is an arbitrary identifier. -/
theorem name_out {E : Env} {i : T} {s : Text} (hi : ∀ w, (i.pr E).out w = w ++ s) (outer : List Text) (w : Text) :
    ((T.qname ((pathT outer).snoc i)).pr E).out w = w ++ showPath (s :: outer) := by
  show (T.pr E _).seq _ w = _
  unfold pathT
  rw [tl_snoc]
  by_cases ho : outer = []
  · subst ho
    simp [tl, T.pr, Pr.cons, Pr.nil, hi, showPath, join]
  · rw [seq_snoc _ _ _ _ (by simpa using ho), tl_seq, hi]
    have : ∀ (l : List Text), l ≠ [] → join c!"::" (l ++ [s]) = join c!"::" l ++ c!"::" ++ s := by
      intro l hl
      cases l with
      | nil => exact absurd rfl hl
      | cons a l => rw [List.cons_append, join_cons, join_cons]; simp
    simp only [showPath, List.reverse_cons]
    rw [this _ (by simpa using ho)]
    simp

namespace Spec.Arg

/-- The argument as a tree. -/
def tree : Arg → T
  | .int neg n => .int n neg
  | .ty t => t.tree

theorem tree_out {E : Env} (hP : Plain E) (a : Arg) (w : Text) : ((tree a).pr E).out w = w ++ a.cpp E := by
  cases a with
  | int neg n => simp [tree, T.pr, Pr.ofText, cpp]
  | ty t => exact (Ty.tree_pr hP t).2.2.2 w

theorem gram {E : Env} (w : Bool) {a : Arg} (h : a.Ok) (tb : Tbl) :
    ∃ tb', Gram E (.targ false) tb a.tree (a.mangle w) tb' := by
  cases a with
  | int neg n =>
    have e := encode_spec n h
    refine ⟨tb, ?_⟩
    cases neg with
    | true => exact cast (by simp [mangle]; rfl) (Gram.aInt (E := E) (tb := tb) (m := false) (EncInt.neg e))
    | false => exact cast (by simp [mangle]; rfl) (Gram.aInt (E := E) (tb := tb) (m := false) (EncInt.pos e))
  | ty t =>
    rcases h with h | rfl
    · obtain ⟨ht, hc⟩ := Fn.param_ok h
      obtain ⟨tb', g⟩ := Ty.core_gram (E := E) w ht tb
      rw [hc] at g
      exact ⟨tb', .aType g⟩
    · exact ⟨tb, .aType (.prim .Void)⟩

theorem list_gram {E : Env} (w : Bool) {as : List Arg} (h : ∀ a ∈ as, a.Ok) (tb : Tbl) :
    ∃ tb', Gram E .targs tb (tl (as.map tree)) (as.flatMap (mangle w) ++ c!"@") tb' := by
  induction as generalizing tb with
  | nil => exact ⟨tb, .taNil⟩
  | cons a as ih =>
    obtain ⟨tb1, g⟩ := gram (E := E) w (h a (by simp)) tb
    obtain ⟨tb2, g'⟩ := ih (fun a ha => h a (by simp [ha])) tb1
    exact ⟨tb2, cast (by simp [tl]) (Gram.taCons g g')⟩

end Spec.Arg

/-- A template instantiation with arguments given by a phrase. -/
theorem tmpl_gram {E : Env} {s : Text} (hs : Name s) {as : T} {y : Text} {tb2 : Tbl}
    (h : Gram E .targs (({} : Tbl).note s) as y tb2) (tb : Tbl) :
    Gram E .tmpl tb (.named s (T.one (.arr as))) (c!"?$" ++ s ++ c!"@" ++ y) tb :=
  cast (by simp [T.withArgs]) (Gram.tmpl (tb := tb) (.fName hs) h)

end Undname

namespace Undname
open Spec

/-- A member function whose name is any phrase. -/
theorem shows_member {E : Env} (hP : Plain E) (w : Bool) {f : Fn} (hf : f.Ok) {conv : Text}
    (hc : convWord f.cc = some conv) (hv : f.variadic = true → '(' ∉ (f.params.map (Ty.cpp E)).flatten)
    {i ps : T} {x y : Text} {tb1 tb2 : Tbl} (h : Gram E .sname {} i x tb1) (hp : i.isPlain = true) (hk : T.known i = true)
    (hs : Gram E .scopes tb1 ps y tb2) {nt : Text} (hn : ∀ w, ((T.qname (ps.snoc i)).pr E).out w = w ++ nt)
    {code : Char} {what : Text} {this : Bool} (hm : (code, what, this) ∈ memberCodes) (c v : Bool) (rest : Text) :
    Shows E (c!"?" ++ x ++ y ++ [code] ++ (if this then Ty.wide w ++ [Ty.cvLetter c v] else []) ++ f.mangle w ++ rest)
      (what ++ f.cppRet E ++ conv ++ c!" " ++ nt ++ f.cppParams E ++
        (if this then Ty.cvAfter c v else []) ++ (if f.noexc then c!" noexcept" else [])) := by
  obtain ⟨k, hkc, rfl, hb, hx, rfl, hsp⟩ := member_code hm
  obtain ⟨tb', g⟩ := member_fenc (E := E) w hf c v hkc hx tb2
  have ht := fn_text hP hc hv k hb (k.hasThis && c) (k.hasThis && v) (hsp E) _ nt hn
  have := shows_sym (sym_of (.func h hp hs g) h hk) rest
  rw [ht] at this
  have e2 : Ty.cvAfter (k.hasThis && c) (k.hasThis && v) = if k.hasThis then Ty.cvAfter c v else [] := by
    cases k.hasThis <;> rfl
  rw [e2] at this
  simpa using this

end Undname
