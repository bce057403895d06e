/-
  C61: the separator `@` of mangled names is not in their demanglings, so these are not demangled again.
-/
import Verif.Proof.Top
import Verif.Props.Accept
import Verif.Props.Api
import Verif.Props.Md5

namespace Undname
namespace Props
open Spec

theorem IFK.no_at (k : IFK) : '@' ∉ k.text := by cases k <;> decide

/-- No separator is written, for inputs without hashed names and string literals. -/
def atSpec : TSpec where
  inp t := ¬ c!"?_C" <:+: t ∧ ¬ c!"??@" <:+: t
  run _ t _ := '@' ∉ t
  lit _ := False
  inp_infix h hb := ⟨fun h' => hb.1 (h'.trans h), fun h' => hb.2 (h'.trans h)⟩
  inp_run _ h _ := h
  md5_run h _ _ := absurd (List.infix_refl _) h.2
  nil _ := by simp
  append ha hb := by simp [ha, hb]
  shift _ h := h
  plain h _ hm := by have := h _ hm; revert this; decide
  opn {o c} h _ := by
    have key : ∀ p ∈ brackets, '@' ∉ [p.1] := by decide
    exact key _ h
  cls {o c} h _ := by
    have key : ∀ p ∈ brackets, '@' ∉ [p.2] := by decide
    exact key _ h
  lit_run h := h.elim
  op_run {_ _ k} _ _ _ := IFK.no_at k
  lit_ok h _ := h.1 (List.infix_refl _)

theorem atSpec_flags (E : Env) : FlagsOK atSpec E := fun _ _ _ _ _ _ h => h

/-- **C61**: with any flags, the character `@`, which separates the parts of mangled names, does not occur in the output,
unless the input has a string literal (`?_C`) or a hashed name (`??@`). -/
theorem C61_no_separator (E : Env) (m : Text) {t : Text} (h : demangle E m = .ok (.ok t)) (h1 : ¬ c!"?_C" <:+: m) (h2 : ¬ c!"??@" <:+: m) :
    '@' ∉ t := by
  rw [demangle_of_into] at h
  rcases demangle_into_ok (T := atSpec) E (atSpec_flags E) (m := m) ⟨h1, h2⟩ [] with ⟨e, x1, _⟩ | ⟨u, x1, _, x2⟩
  · rw [x1] at h; simp at h
  · rw [x1] at h; simp at h; subst h
    exact x2

variable {E : Env}

theorem scopes_at {c : Cat} {tb tb' : Tbl} {t : T} {x : Text} (h : Gram E c tb t x tb') (hc : c = .scopes) : '@' ∈ x := by
  induction h <;> first | (cases hc; done) | skip
  case scNil => simp
  case scCons ih => simp [ih rfl]
  all_goals simp_all

theorem decl_at {tb tb' : Tbl} {t : T} {x : Text} (h : Gram E .decl tb t x tb') : '@' ∈ x := by
  cases h <;> (have := scopes_at ‹Gram E .scopes _ _ _ _› rfl; simp [this])

theorem sym_at {tb tb' : Tbl} {t : T} {x : Text} (h : Gram E .sym tb t x tb') : '@' ∈ x := by
  cases h with
  | sym h => simp [decl_at h]
  | hashLocator => simp [hashed]
  | narrow => simp
  | wide => simp
  | dynVar _ _ h => simp [decl_at h]
  | dynFn _ h => simp [decl_at h]
  | _ => have := scopes_at ‹Gram E .scopes _ _ _ _› rfl; simp [this]

/-- **C61**: every accepted name that begins with `?` contains the separator. -/
theorem C61_accepted_has_separator {m t : Text} (h : demangle E m = .ok (.ok t)) (hq : c!"?" <+: m) : '@' ∈ m := by
  obtain ⟨d, hd, -⟩ := C48_accepted_is_derivable E h
  rcases hd with ⟨x, rest, tb', rfl, g⟩ | ⟨tb', g⟩ | ⟨u, rest, rfl, -, -, -⟩
  · simp [sym_at g]
  · cases g with
    | guardEnd _ _ g => simp [scopes_at g rfl]
    | typeinfo => simp at hq
    | rttiType => simp
  · simp [hashed]

/-- **C61**: what was demangled is not demangled again: with any flags for the first and the second call, the second call
fails (unless the text begins with a full stop, as that of a variable called `.H` would). -/
theorem C61_not_again (E E' : Env) (m : Text) {t : Text} (h : demangle E m = .ok (.ok t)) (h1 : ¬ c!"?_C" <:+: m) (h2 : ¬ c!"??@" <:+: m)
    (h3 : t.head? ≠ some '.') : ∃ e, demangle E' t = .ok (.error e) := by
  have ha := C61_no_separator E m h h1 h2
  cases hd : demangle E' t with
  | error c => exact absurd hd (no_crash E' t [] c).2
  | ok r =>
    cases r with
    | error e => exact ⟨e, rfl⟩
    | ok out =>
      rcases C10_accepted_prefix E' t hd with hp | hp
      · exact absurd (C61_accepted_has_separator hd hp) ha
      · obtain ⟨u, rfl⟩ := hp
        simp at h3

/-- A symbol with templates, an address and a variadic function meets the conditions. -/
example : demangle E0 c!"?x@?$A@$1?f@@YAXXZ@@3P6AXHZZA" = .ok (.ok c!"void (__cdecl *A<&void __cdecl f(void)>::x)(int, ...)") ∧
    ¬ c!"?_C" <:+: c!"?x@?$A@$1?f@@YAXXZ@@3P6AXHZZA" ∧ ¬ c!"??@" <:+: c!"?x@?$A@$1?f@@YAXXZ@@3P6AXHZZA" := by
  refine ⟨?_, ?_, ?_⟩ <;> decide +kernel

/-- **C61**: the exceptions are real. Hashed names and string literals may show the separator (a hashed name is its own
demangling), and the variable `.H`, shown without its type, is the name of a type descriptor. -/
theorem C61_exceptions :
    demangle E0 c!"??@deadbeef@" = .ok (.ok c!"??@deadbeef@") ∧
    demangle E0 c!"??_C@_01IHGEDCA@?$EA?$AA@" = .ok (.ok c!"\"@\"") ∧
    demangle (EF Flags.NO_VARIABLE_TYPE) c!"?.H@@3HA" = .ok (.ok c!".H") ∧
    demangle E0 c!".H" = .ok (.ok c!"int `RTTI Type Descriptor Name'") := by
  refine ⟨?_, ?_, ?_, ?_⟩ <;> decide +kernel

end Props
end Undname
