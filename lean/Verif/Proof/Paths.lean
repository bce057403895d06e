/-
  Phrases for paths, and the outcomes of calls from phrases.
-/
import Verif.Spec.Shows
import Verif.Proof.Refine
import Verif.Proof.CostParse
import Verif.Props.Safety
import Verif.Proof.Eval

namespace Undname
open Spec

theorem shows_of {E : Env} {m out : Text}
    (h : demangle E m = .ok (bounded out) ∨ demangle E m = .ok (.error .MaliciousInput)) : Shows E m out := by
  rcases h with h | h
  · exact .inl h
  · refine .inr ⟨?_, h⟩
    by_cases hm : m.length ≤ 1024
    · exact absurd h (demangle_not_malicious E m (by unfold NODE_LIMIT; omega))
    · omega

theorem shows_sym {E : Env} {t : T} {x : Text} {tb' : Tbl} (h : Gram E .sym {} t x tb') (rest : Text) :
    Shows E (x ++ rest) (t.text E) :=
  shows_of (gram_sym h rest fun c => (Props.no_crash E _ [] c).2)

theorem shows_symEnd {E : Env} {t : T} {x : Text} {tb' : Tbl} (h : Gram E .symEnd {} t x tb') :
    Shows E x (t.text E) :=
  shows_of (gram_symEnd h fun c => (Props.no_crash E _ [] c).2)

/-! ### Lists of trees -/

/-- A list of trees. -/
def tl : List T → T
  | [] => .nil
  | a :: as => .cons a (tl as)

theorem tl_snoc (l : List T) (t : T) : (tl l).snoc t = tl (l ++ [t]) := by
  induction l with
  | nil => rfl
  | cons a l ih => simp [tl, T.snoc, ih]

/-- A name without template arguments. -/
def leaf (s : Text) : T := .named s .nil

theorem leaf_out (E : Env) (s w : Text) : ((leaf s).pr E).out w = w ++ s := by
  simp [leaf, T.pr, Pr.ofText, targsOut, Pr.nil]

theorem tl_tail (E : Env) (l : List Text) (sep w : Text) :
    ((tl (l.map leaf)).pr E).tail sep w = w ++ l.flatMap (sep ++ ·) := by
  induction l generalizing w with
  | nil => simp [tl, T.pr, Pr.nil]
  | cons a l ih => simp [tl, T.pr, Pr.cons, ih, leaf_out]

theorem join_cons (sep a : Text) (l : List Text) : join sep (a :: l) = a ++ l.flatMap (sep ++ ·) := by
  induction l generalizing a with
  | nil => simp [join]
  | cons b l ih =>
    rw [join, ih b]
    · simp
    · simp

theorem tl_seq (E : Env) (l : List Text) (sep w : Text) :
    ((tl (l.map leaf)).pr E).seq sep w = w ++ join sep l := by
  cases l with
  | nil => simp [tl, T.pr, Pr.nil, join]
  | cons a l => simp [tl, T.pr, Pr.cons, tl_tail, leaf_out, join_cons]

theorem seq_snoc (E : Env) (l : List T) (t : T) (w : Text) (hl : l ≠ []) : ((tl (l ++ [t])).pr E).seq c!"::" w =
    (t.pr E).out (((tl l).pr E).seq c!"::" w ++ c!"::") := by
  have tail : ∀ (l : List T) w, ((tl (l ++ [t])).pr E).tail c!"::" w =
      (t.pr E).out (((tl l).pr E).tail c!"::" w ++ c!"::") := by
    intro l
    induction l with
    | nil => intro w; simp [tl, T.pr, Pr.cons, Pr.nil]
    | cons a l ih => intro w; simp only [List.cons_append, tl, T.pr, Pr.cons, ih]
  cases l with
  | nil => exact absurd rfl hl
  | cons a l => simp only [List.cons_append, tl, T.pr, Pr.cons, tail]

/-- The tree of a path. -/
def pathT (p : List Text) : T := tl (p.reverse.map leaf)

theorem pathT_cons (s : Text) (p : List Text) : pathT (s :: p) = (pathT p).snoc (leaf s) := by
  simp [pathT, tl_snoc]

theorem path_out (E : Env) (p : List Text) (w : Text) : ((T.qname (pathT p)).pr E).out w = w ++ showPath p := by
  show ((pathT p).pr E).seq _ w = _
  unfold pathT showPath
  rw [tl_seq]

theorem manglePath_cons (s : Text) (p : List Text) : manglePath (s :: p) = s ++ c!"@" ++ manglePath p := by
  simp [manglePath]

theorem scopes_gram {E : Env} {p : List Text} (hp : ∀ s ∈ p, Name s) (tb : Tbl) :
    ∃ tb', Gram E .scopes tb (pathT p) (manglePath p) tb' := by
  induction p generalizing tb with
  | nil => exact ⟨tb, .scNil⟩
  | cons s p ih =>
    obtain ⟨tb', h⟩ := ih (fun s hs => hp s (by simp [hs])) (tb.note s)
    refine ⟨tb', ?_⟩
    rw [pathT_cons, manglePath_cons]
    exact .scCons (.scName (.uName (hp s (by simp)))) h

theorem qtn_gram {E : Env} {p : List Text} (hp : IsPath p) (tb : Tbl) :
    ∃ tb', Gram E .qtn tb (.qname (pathT p)) (manglePath p) tb' := by
  obtain ⟨hne, hp⟩ := hp
  cases p with
  | nil => exact absurd rfl hne
  | cons s p =>
    obtain ⟨tb', h⟩ := scopes_gram (E := E) (p := p) (fun s hs => hp s (by simp [hs])) (tb.note s)
    refine ⟨tb', ?_⟩
    rw [pathT_cons, manglePath_cons]
    exact .qtn (.uName (hp s (by simp))) h

end Undname
