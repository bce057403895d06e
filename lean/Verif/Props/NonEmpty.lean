/-
  Property theorems C37: an accepted name gives a text.
-/
import Verif.Proof.Adds
import Verif.Proof.Accept
import Verif.Proof.Eval

namespace Undname
namespace Props
open Spec

/-- The codes after `??_` and after `??__` that are accepted as operators although they have no name. -/
def namelessCodes : List Text := (c!"789ABCPQRSWXYZ").map (fun c => c!"??_" ++ [c] ++ c!"@") ++
  (c!"0123456789EFJNOPQRSTUVWXYZ").map fun c => c!"??__" ++ [c] ++ c!"@"

theorem nameless_mem {o : Text} (h : NoOp o) : '?' :: o ++ c!"@" ∈ namelessCodes := by
  rcases h with ⟨c, hc, rfl⟩ | ⟨c, hc, rfl⟩
  · exact List.mem_append_left _ (List.mem_map.2 ⟨c, hc, rfl⟩)
  · exact List.mem_append_right _ (List.mem_map.2 ⟨c, hc, rfl⟩)

/-- **C37**: with the default flags, and with any flags that leave variable types, member kinds and declarations on, every
accepted name gives a text that is not empty. -/
theorem C37_not_empty (E : Env) (h1 : E.flags.name_only = false) (h2 : E.flags.no_variable_type = false)
    (h3 : E.flags.no_member_type = false) {m out : Text} (h : demangle E m = .ok (.ok out)) : out ≠ [] := by
  obtain ⟨t, ht, rfl, _⟩ := accepted_text h
  rcases ht with ⟨x, r, tb', rfl, hg⟩ | ⟨tb', hg⟩ | ⟨u, r, rfl, _, _, rfl⟩
  · rcases sym_adds hg with ha | ⟨_, ha⟩
    · exact ha.text_ne
    · exact (ha h1 h2 h3).text_ne
  · rcases symEnd_adds hg with ha | ⟨_, ha⟩
    · exact ha.text_ne
    · exact (ha h1).text_ne
  · exact (hash_adds (by simp [hashed])).text_ne

example : demangle E0 c!"??_W@9" = .ok (.ok c!"extern \"C\" ") ∧ E0.flags.name_only = false ∧
    E0.flags.no_variable_type = false ∧ E0.flags.no_member_type = false := by
  refine ⟨by decide +kernel, rfl, rfl, rfl⟩

/-- **C37**: under any flags, every accepted name gives a text that is not empty, unless it is a type descriptor or
declares, outside all scopes, an operator that has no name. -/
theorem C37_not_empty_any_flags (E : Env) {m out : Text} (h : demangle E m = .ok (.ok out)) (hd : ¬ c!"." <+: m)
    (hc : ∀ p ∈ namelessCodes, ¬ p <+: m) : out ≠ [] := by
  obtain ⟨t, ht, rfl, _⟩ := accepted_text h
  rcases ht with ⟨x, r, tb', rfl, hg⟩ | ⟨tb', hg⟩ | ⟨u, r, rfl, _, _, rfl⟩
  · rcases sym_adds hg with ha | ⟨⟨o, r', ho, rfl⟩, _⟩
    · exact ha.text_ne
    · refine absurd ⟨r' ++ r, ?_⟩ (hc _ (nameless_mem ho))
      simp only [List.append_assoc, List.cons_append, List.nil_append]
  · rcases symEnd_adds hg with ha | ⟨⟨r, rfl⟩, _⟩
    · exact ha.text_ne
    · exact absurd ⟨r, rfl⟩ hd
  · exact (hash_adds (by simp [hashed])).text_ne

/-- Under all flags at once. -/
example : demangle ⟨⟨0xFFFF⟩, fun _ => false⟩ c!"?f@A@@UAEXH@Z" = .ok (.ok c!"A::f") ∧ (¬ c!"." <+: c!"?f@A@@UAEXH@Z") ∧
    ∀ p ∈ namelessCodes, ¬ p <+: c!"?f@A@@UAEXH@Z" := by
  refine ⟨by decide +kernel, by decide, by decide⟩

/-- **C37**: each of the conditions is needed: nameless operators and type descriptors can give the empty text. -/
theorem C37_empty_texts :
    demangle (EF Flags.NO_MEMBER_TYPE) c!"??_W@9" = .ok (.ok []) ∧
    demangle (EF Flags.NO_VARIABLE_TYPE) c!"??_W@3HA" = .ok (.ok []) ∧
    demangle (EF Flags.NAME_ONLY) c!"??__0@YAXXZ" = .ok (.ok []) ∧
    demangle (EF Flags.NAME_ONLY) c!".$$A6AXXZ" = .ok (.ok []) := by
  refine ⟨?_, ?_, ?_, ?_⟩ <;> decide +kernel

end Props
end Undname
