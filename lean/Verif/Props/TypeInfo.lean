/-
  Property theorems C63: the two names of a type descriptor. A compiler emits for each type that `typeid` is used with
  the object `??_R0`x`@8`, which contains the string `.`x (what `type_info::raw_name` returns).
-/
import Verif.Proof.TypeInfo
import Verif.Proof.Eval
import Verif.Props.Safety

namespace Undname
namespace Props
open Spec

theorem not_accepted {E : Env} {m : Text} (h : ∀ out, demangle E m ≠ .ok (.ok out)) : ∃ e, demangle E m = .ok (.error e) := by
  cases h1 : demangle E m with
  | error c => exact absurd h1 (no_crash E m [] c).2
  | ok r =>
    cases r with
    | ok out => exact absurd h1 (h out)
    | error e => exact ⟨e, rfl⟩

theorem descriptor_text (E : Env) (t : T) :
    (T.var none (.qname (T.one (.named c!"`RTTI Type Descriptor'" .nil))) t.one).text E =
      if E.flags.no_variable_type || E.flags.name_only then c!"`RTTI Type Descriptor'" else
        (T.pr E t).post false (sp E ((T.pr E t).pre false []) ++ c!"`RTTI Type Descriptor'") := by
  have e : (T.var none (.qname (T.one (.named c!"`RTTI Type Descriptor'" .nil))) t.one).text E =
      if (!E.flags.no_variable_type && !E.flags.name_only && true) = true then
        (T.pr E t).post false (sp E ((T.pr E t).pre false []) ++ c!"`RTTI Type Descriptor'")
      else c!"`RTTI Type Descriptor'" := rfl
  rw [e]
  cases E.flags.no_variable_type <;> cases E.flags.name_only <;> rfl

/-- **C63**: for every text x and all flags, either both `.`x and `??_R0`x`@8` are demangled, and then they show
the same type `left right`: the former before its label, the latter with its label at the place of the name of a
variable (it shows the label alone if the types of variables are not to be shown); or both are rejected. -/
theorem C63_type_descriptor (E : Env) (x : Text) :
    (∃ left right,
      Shows E ('.' :: x)
        (if E.flags.name_only then left ++ right else sp E (left ++ right) ++ c!"`RTTI Type Descriptor Name'") ∧
      Shows E (c!"??_R0" ++ x ++ c!"@8")
        (if E.flags.no_variable_type || E.flags.name_only then c!"`RTTI Type Descriptor'"
         else sp E left ++ c!"`RTTI Type Descriptor'" ++ right)) ∨
    (∃ e e', demangle E ('.' :: x) = .ok (.error e) ∧ demangle E (c!"??_R0" ++ x ++ c!"@8") = .ok (.error e')) := by
  have key : (∃ t tb', Gram E .tyR {} t x tb') ∨ ¬ ∃ t tb', Gram E .tyR {} t x tb' := Classical.em _
  rcases key with ⟨t, tb', hg⟩ | hno
  · obtain ⟨r, hr⟩ := (pr_local (E := E) t).post false
    obtain ⟨_, ho⟩ := typeLike_pr (E := E) (gram_typeLike hg)
    refine .inl ⟨(T.pr E t).pre false [], r, ?_, ?_⟩
    · have h := shows_symEnd (.typeinfo hg)
      have e : (T.typeDescr t).text E = if E.flags.name_only then (T.pr E t).out [] else
          sp E ((T.pr E t).out []) ++ c!"`RTTI Type Descriptor Name'" := rfl
      rw [e, ho, hr] at h
      exact h
    · have h := shows_symEnd (.rttiType hg)
      rw [descriptor_text, hr] at h
      exact h
  · have n1 : ∀ out, demangle E ('.' :: x) ≠ .ok (.ok out) := fun out h =>
      hno (accepted_parse h (dot_inv (w := []) (accN E _) (Tab.empty _)))
    have n2 : ∀ out, demangle E (c!"??_R0" ++ x ++ c!"@8") ≠ .ok (.ok out) := by
      intro out h
      have h2 : c!"??_R0" ++ x ++ c!"@8" = c!"??_R0" ++ (x ++ c!"@8") := List.append_assoc ..
      rw [h2] at h
      obtain ⟨y, t, tb', e, hg⟩ := accepted_parse h (r0_inv (w := []) (accN E _) (Tab.empty _))
      obtain rfl := List.append_cancel_right e
      exact hno ⟨t, tb', hg⟩
    obtain ⟨e1, h1⟩ := not_accepted n1
    obtain ⟨e2, h2⟩ := not_accepted n2
    exact .inr ⟨e1, e2, h1, h2⟩

/-- Every accepted name that begins with `??_R0` is of this form. -/
theorem C63_form {E : Env} {s out : Text} (h : demangle E (c!"??_R0" ++ s) = .ok (.ok out)) :
    ∃ x, s = x ++ c!"@8" ∧ ∃ text, Shows E ('.' :: x) text := by
  obtain ⟨x, t, tb', rfl, hg⟩ := accepted_parse h (r0_inv (w := []) (accN E _) (Tab.empty _))
  exact ⟨x, rfl, _, shows_symEnd (.typeinfo hg)⟩

/-! Both cases occur, with a nonempty `right` too. -/

example : demangle E0 c!".P6AHH@Z" = .ok (.ok c!"int (__cdecl *)(int)`RTTI Type Descriptor Name'") ∧
    demangle E0 c!"??_R0P6AHH@Z@8" = .ok (.ok c!"int (__cdecl *`RTTI Type Descriptor')(int)") := by
  refine ⟨?_, ?_⟩ <;> decide +kernel

example : demangle E0 c!".?AVA@B@@" = .ok (.ok c!"class B::A `RTTI Type Descriptor Name'") ∧
    demangle E0 c!"??_R0?AVA@B@@@8" = .ok (.ok c!"class B::A `RTTI Type Descriptor'") := by
  refine ⟨?_, ?_⟩ <;> decide +kernel

example : demangle E0 c!".VA@B" = .ok (.error .InvalidSimpleString) ∧
    demangle E0 c!"??_R0VA@B@8" = .ok (.error .InvalidBackRef) := by
  refine ⟨?_, ?_⟩ <;> decide +kernel

end Props
end Undname
