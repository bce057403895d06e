/-
  Property theorems C48: the grammar is complete, so that it describes exactly the accepted names.
-/
import Verif.Proof.Accept
import Verif.Proof.Eval

namespace Undname
namespace Props
open Spec

/-- **C48**: every accepted name is one of the grammar (`Spec/Grammar.lean`, `Spec/Denotes.lean`), and the output is the
C++ text of the declaration that it denotes. -/
theorem C48_accepted_is_derivable (E : Env) {m out : Text} (h : demangle E m = .ok (.ok out)) :
    ∃ t, Denotes E m t ∧ out = t.text E := by
  obtain ⟨t, h1, h2, _⟩ := accepted_text h
  exact ⟨t, h1, h2⟩

/-- **C48**: for names of at most 1024 characters, the demangler is exactly what the grammar says: `out` is the result if
and only if the name denotes a declaration with that text (and the text is below the limit of 2^20 bytes). -/
theorem C48_exactly_the_grammar (E : Env) {m : Text} (hm : m.length ≤ 1024) (out : Text) :
    demangle E m = .ok (.ok out) ↔ ∃ t, Denotes E m t ∧ out = t.text E ∧ utf8Len out < 2 ^ 20 := by
  constructor
  · exact accepted_text
  · rintro ⟨t, ht, rfl, hl⟩
    exact (denotes_shows ht).short hm hl

/-- **C48**: a name that denotes nothing is rejected with an error. -/
theorem C48_rejects_the_rest (E : Env) {m : Text} (h : ¬ ∃ t, Denotes E m t) : ∃ e, demangle E m = .ok (.error e) := by
  cases hd : demangle E m with
  | error c => exact absurd hd (no_crash E m [] c).2
  | ok r =>
    cases r with
    | error e => exact ⟨e, rfl⟩
    | ok out => exact absurd (accepted_denotes hd) h

/-- **C48**: the grammar is unambiguous as far as the output goes: a name does not denote declarations with different
texts. -/
theorem C48_unambiguous (E : Env) {m : Text} (hm : m.length ≤ 1024) {t t' : T} (h : Denotes E m t) (h' : Denotes E m t')
    (hl : utf8Len (t.text E) < 2 ^ 20) : t'.text E = t.text E :=
  ((shows_ok (denotes_shows h') ((denotes_shows h).short hm hl)).1).symm

/-- A name with a nested template and a local scope is accepted, so it is derivable; one that lacks its
last character is not accepted, so it is not. -/
example : ∃ t, Denotes E0 c!"?x@?1??f@?$A@V?$B@H@@@@YAXH@Z@3PEAHEA" t :=
  have h : ∃ out, demangle E0 c!"?x@?1??f@?$A@V?$B@H@@@@YAXH@Z@3PEAHEA" = .ok (.ok out) := ⟨c!"int *`void __cdecl A<class B<int>>::f(int)'::`2'::x", by decide +kernel⟩
  h.elim fun _ h => (C48_accepted_is_derivable E0 h).imp fun _ h => h.1

example : ¬ ∃ t, Denotes E0 c!"?x@?1??f@?$A@V?$B@H@@@@YAXH@Z@3PEAHE" t := by
  rintro ⟨t, h⟩
  have e : demangle E0 c!"?x@?1??f@?$A@V?$B@H@@@@YAXH@Z@3PEAHE" = .ok (.error .InvalidQualifiers) := by decide +kernel
  rcases denotes_shows h with h' | ⟨h', _⟩
  · rw [e] at h'
    split at h' <;> cases h'
  · exact absurd h' (by decide)

end Props
end Undname
