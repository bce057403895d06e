/-
  Property theorems C40: the recursion of the parser is as deep as the type is nested.
-/
import Verif.Proof.Named
import Verif.Proof.Eval

namespace Undname
namespace Props
open Spec

variable {E : Env}

/-- `PAPA...PAH`: a pointer to a pointer to ... to `int`. -/
def nested : Nat → Text
  | 0 => c!"H"
  | n + 1 => 'P' :: 'A' :: nested n

/-- `int **...*`. -/
def nestedText : Nat → Text
  | 0 => c!"int"
  | 1 => c!"int *"
  | n + 2 => nestedText (n + 1) ++ c!"*"

theorem nested_deep (rend : Renderer) : ∀ (n k : Nat), n ≤ k → ∀ (q : QMM) (pre : Text),
    (q = .Mangle ∧ pre = c!"A" ∨ q = .Result ∧ pre = []) → ∀ (w : World) ns ps,
    exec ((fns rend n).type q) (mk (pre ++ nested k) w.c ns ps) = .error (.crash .fuel)
  | 0, _, _, _, _, _, _, _, _ => rfl
  | n + 1, k + 1, h, q, pre, hq, w, ns, ps => by
    have ih := nested_deep rend n k (by omega) .Mangle c!"A" (.inl ⟨rfl, rfl⟩) w ns ps
    have hb : exec (demangle_type_body rend (fns rend n)) (mk (nested (k + 1)) w.c ns ps) = .error (.crash .fuel) := by
      have e : nested (k + 1) = c!"P" ++ 'A' :: nested k := rfl
      rw [e, body_pointer (cv := {}) (a := .Pointer) (by decide) (probe_ext (c := 'P') (ch := 'A') {} _ rfl rfl rfl rfl rfl rfl)]
      unfold demangle_pointer_type demangle_pointer_cv_qualifiers demangle_pointer_ext_qualifiers
      simp only [List.cons_append, List.nil_append] at ih ⊢
      simp [run, ih]
    have hq' : exec (type_quals q) (mk (pre ++ nested (k + 1)) w.c ns ps) = .ok (Qualifiers.Q_None, mk (nested (k + 1)) w.c ns ps) := by
      rcases hq with ⟨rfl, rfl⟩ | ⟨rfl, rfl⟩
      · simp [type_quals, demangle_qualifiers, run]
      · simp [type_quals, nested, run]
    show exec (demangle_type rend (fns rend n) q) _ = _
    unfold demangle_type
    rw [run_bind_eq, hq', andThen_ok, run_bind_eq, query_mk]
    show exec (if (MStr.new (nested (k + 1))).is_empty = true then _ else _) _ = _
    rw [show (MStr.new (nested (k + 1))).is_empty = false from rfl]
    simp only [Bool.false_eq_true, if_false, run_bind_eq, hb]
    rfl

/-- **C40**: no constant bounds the recursion depth of the parser: whatever the number `N` of levels allowed, the recursion
does not end on the type descriptor name of an `N`-fold pointer, a name of `2 N + 2` characters. (C03 gives the upper bound.) -/
theorem C40_depth_unbounded (N : Nat) :
    exec (fns (render E) (N + 1)).parse (mk ('.' :: nested N) [] [] []) = .error (.crash .fuel) := by
  show exec (do_parse (render E) (fns (render E) N)) _ = _
  unfold do_parse
  rw [run_bind_eq, query_mk]
  show exec (if (MStr.new ('.' :: nested N)).starts_with c!"." = true then _ else _) _ = _
  rw [show (MStr.new ('.' :: nested N)).starts_with c!"." = true from rfl, if_pos rfl]
  unfold demangle_typeinfo_name
  rw [run_bind_eq, expectChar_cons, if_pos (by decide), andThen_ok, run_bind_eq]
  have := nested_deep (render E) N N (Nat.le_refl _) .Result [] (.inr ⟨rfl, rfl⟩) [] [] []
  simp only [List.nil_append] at this
  have e : World.c [] = [] := rfl
  rw [e] at this
  rw [this]
  rfl

def nestedT : Nat → T
  | 0 => .prim {} .Int
  | n + 1 => .ptr {} .Pointer .nil (nestedT n)

theorem nestedT_addQ : ∀ n, (nestedT n).addQ {} = nestedT n
  | 0 => rfl
  | _ + 1 => rfl

theorem nested_gram : ∀ n tb, Gram E .ty tb (nestedT n) (nested n) tb
  | 0, _ => .prim .Int
  | n + 1, tb => by
    have := Gram.ptr (E := E) (code := c!"P") (cv := {}) (a := .Pointer) (ch := 'A') (q := {}) {} (by decide) (by decide) (nested_gram n tb)
    rw [nestedT_addQ] at this
    exact this

theorem nested_pre : ∀ n b, ((nestedT n).pr E).pre b [] = nestedText n
  | 0, b => rfl
  | 1, b => by
    show sp E ((T.pr E (nestedT 0)).pre true []) ++ _ ++ _ ++ _ = _
    rw [nested_pre 0 true]
    simp [nestedText, CV.sep, CV.after, CV.words, affName, sp, isWordEnd]
  | n + 2, b => by
    have ih := nested_pre (n + 1) true
    have hs : sp E (nestedText (n + 1)) = nestedText (n + 1) := by
      cases n <;> simp [nestedText, sp, isWordEnd]
    show sp E ((T.pr E (nestedT (n + 1))).pre true []) ++ _ ++ _ ++ _ = _
    rw [ih, hs]
    simp [nestedText, CV.sep, CV.after, CV.words, affName]

theorem nested_post : ∀ n b w, ((nestedT n).pr E).post b w = w
  | 0, _, _ => rfl
  | n + 1, _, w => by
    show ((nestedT n).pr E).post true (w ++ if needsParens (nestedT n) then c!")" else []) = w
    rw [nested_post n]
    cases n <;> simp [nestedT, needsParens]

/-- **C40**: these names are valid: they demangle to the type followed by the name of its descriptor. -/
theorem C40_deep_names_valid (hE : E.flags.name_only = false) (N : Nat) :
    Shows E ('.' :: nested N) (sp E (nestedText N) ++ c!"`RTTI Type Descriptor Name'") := by
  have := shows_symEnd (.typeinfo (.resPlain (nested_gram (E := E) N {}) (by cases N <;> simp [nested])))
  have e : (T.typeDescr (nestedT N)).text E = sp E (nestedText N) ++ c!"`RTTI Type Descriptor Name'" := by
    have h : ((nestedT N).pr E).out [] = nestedText N := by
      cases N with
      | zero => rfl
      | succ n =>
        show ((nestedT (n + 1)).pr E).post false (((nestedT (n + 1)).pr E).pre false []) = _
        rw [nested_post, nested_pre]
    simp only [T.text, T.pr, Pr.ofText, hE]
    rw [h]; rfl
  rwa [e] at this

/-- Three levels: accepted, but two levels of recursion (and one for the name) are not enough. -/
example : demangle E0 c!".PAPAPAH" = .ok (.ok c!"int ***`RTTI Type Descriptor Name'") ∧
    exec (fns (render E0) 4).parse (mk c!".PAPAPAH" [] [] []) = .error (.crash .fuel) :=
  ⟨(C40_deep_names_valid (E := E0) rfl 3).short (by decide) (by decide +kernel), C40_depth_unbounded 3⟩

end Props
end Undname
