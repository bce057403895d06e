/-
  The two names of a type descriptor: what is accepted as one of them, and what they are shown as.
-/
import Verif.Proof.Local
import Verif.Proof.Accept

namespace Undname
open Spec

section
variable {E : Env} {w : World} {ns ps : List Handle}

/-- A type, written with a part before and a part after the name. -/
def typeLike : T → Bool
  | .prim .. | .tag .. | .ptr .. | .array .. | .sig .. | .thunk .. | .custom .. => true
  | _ => false

theorem typeLike_addQ {q : CV} {t : T} (h : typeLike t = true) : typeLike (t.addQ q) = true := by
  cases t <;> first | rfl | cases h

def TypeAt : Cat → T → Prop
  | .ty, t | .tyR, t | .fty _, t => typeLike t = true
  | _, _ => True

theorem gram_typeLike {cat : Cat} {tb tb' : Tbl} {t : T} {x : Text} (h : Gram E cat tb t x tb') : TypeAt cat t := by
  induction h <;> first | trivial | rfl | exact typeLike_addQ (by assumption) | assumption

theorem typeLike_pr {t : T} (h : typeLike t = true) :
    (T.pr E t).some = true ∧ ∀ v, (T.pr E t).out v = (T.pr E t).post false ((T.pr E t).pre false v) := by
  cases t <;> first | exact ⟨rfl, fun _ => rfl⟩ | cases h

/-- The parser accepts `.`T only if T is a type. -/
theorem dot_inv {n : Nat} {tb : Tbl} {s : Text} (hn : AccN E n) (ht : Tab w tb ns ps) :
    Wh (do_parse (render E) (fns (render E) n)) (mk ('.' :: s) w.c ns ps) (∃ t tb', Gram E .tyR tb t s tb') := by
  unfold do_parse
  refine After.query (After.iteB (fun _ => ?_) fun h => ?_)
  · unfold demangle_typeinfo_name
    refine After.expectChar fun u e => ?_
    obtain rfl : s = u := (List.cons.inj e).2
    refine result_bind hn ht fun x R t tb' e hg _ w1 ns1 ps1 hp1 ht1 _ => ?_
    subst e
    refine After.query (After.iteB (fun he => ?_) fun _ => After.err)
    obtain rfl : R = [] := by cases R with | nil => rfl | cons y u => cases he
    rw [List.append_nil]
    exact After.now ⟨_, _, hg⟩
  · cases h

/-- The parser accepts `??_R0`T only if T is a type and `@8`. -/
theorem r0_inv {n : Nat} {tb : Tbl} {s : Text} (hn : AccN E n) (ht : Tab w tb ns ps) :
    Wh (do_parse (render E) (fns (render E) n)) (mk (c!"??_R0" ++ s) w.c ns ps)
      (∃ x t tb', s = x ++ c!"@8" ∧ Gram E .tyR tb t x tb') := by
  refine After.of_eq (do_parse_special (k := .RttiTypeDescriptor) (t := c!"?_R0" ++ s) (t' := s) rfl) ?_
  show After (special_intrinsic (render E) (fns (render E) n) .RttiTypeDescriptor) _ _
  unfold special_intrinsic demangle_rtti_type_descriptor
  refine result_bind hn ht fun x R t tb' e hg _ w1 ns1 ps1 hp1 ht1 _ => ?_
  subst e
  refine After.expectStr fun u e => ?_
  subst e
  refine After.query (After.iteB (fun he => ?_) fun _ => After.err)
  obtain rfl : u = [] := by cases u with | nil => rfl | cons y u => cases he
  exact After.now ⟨x, t, tb', rfl, hg⟩

theorem accepted_parse {m out : Text} {X : Prop} (h : demangle E m = .ok (.ok out))
    (hx : Wh (do_parse (render E) (fns (render E) m.length)) (mk m [] [] []) X) : X := by
  have hp : parse (render E) m = exec (do_parse (render E) (fns (render E) m.length)) (mk m [] [] []) := rfl
  cases e : parse (render E) m with
  | error f =>
    exfalso
    cases f with
    | crash c =>
      unfold demangle demangle_into parse_into at h
      rw [e] at h; cases h
    | err e' =>
      rw [demangle_error e] at h; cases h
  | ok p =>
    rw [hp] at e
    exact hx _ _ e

end

end Undname
