/-
  Property theorems C07-C10, C22: laws of the API.
-/
import Verif.Props.Safety
import Verif.Proof.Eval
import Verif.Proof.Run

namespace Undname
namespace Props

/-- **C07**: `demangle_into` and `demangle` agree, whatever the buffer held: same error, or `Ok` with the buffer holding
exactly the text `demangle` returns. -/
theorem C07_into_agrees (E : Env) (m buf : Text) :
    (∀ t, demangle E m = .ok (.ok t) ↔ demangle_into E m buf = .ok (.ok (), t)) ∧
    (∀ e, demangle E m = .ok (.error e) ↔ ∃ t, demangle_into E m buf = .ok (.error e, t)) := by
  have hb : demangle_into E m buf = demangle_into E m [] := rfl
  rw [hb, demangle_of_into]
  rcases call_outcome E m [] with ⟨e, h1, _⟩ | ⟨u, h1, _⟩ <;> rw [h1] <;> simp

/-- **C07**: the old contents of the buffer have no influence at all. -/
theorem C07_buffer_irrelevant (E : Env) (m buf buf' : Text) :
    demangle_into E m buf = demangle_into E m buf' := rfl

/-- The old contents do not show up, neither in a result nor after an error. -/
example : demangle_into E0 c!"?x@@3HA" c!"old" = .ok (.ok (), c!"int x") ∧
    demangle_into E0 c!"?x@@3H" c!"old" = .ok (.error .InvalidQualifiers, []) := by
  refine ⟨?_, ?_⟩ <;> decide +kernel

/-- **C08**: after an error the buffer is empty. -/
theorem C08_empty_on_error (E : Env) (m buf : Text) {e : Error} {t : Text}
    (h : demangle_into E m buf = .ok (.error e, t)) : t = [] := by
  rcases call_outcome E m buf with ⟨e', h1, _⟩ | ⟨u, h1, _⟩
  · rw [h1] at h; cases h; rfl
  · rw [h1] at h; cases h

/-- An error in the middle of a long name. -/
example : demangle_into E0 c!"?f@A@B@@QAEHPAUC@D@@0H2@Z" c!"old" = .ok (.error .InvalidFunctionParameterList, []) := by decide +kernel

/-- A history: names demangled one after the other into the same buffer, each with its own environment.
The list of results and buffer contents after each call; `none` if a call did not return. -/
def history (buf : Text) : List (Env × Text) → Option (List (Except Error Unit × Text))
  | [] => some []
  | (E, m) :: rest =>
    match demangle_into E m buf with
    | .error _ => none
    | .ok (r, buf') => (history buf' rest).map ((r, buf') :: ·)

/-- **C09**: in any sequence of calls, each gives the result and the buffer of the same call on a fresh
(empty) buffer. -/
theorem C09_history_independent (calls : List (Env × Text)) (buf : Text) :
    ∃ outs, history buf calls = some outs ∧
      outs.map Except.ok = calls.map fun c => demangle_into c.1 c.2 [] := by
  induction calls generalizing buf with
  | nil => exact ⟨[], rfl, rfl⟩
  | cons c rest ih =>
    obtain ⟨E, m⟩ := c
    have hout : ∃ r t, demangle_into E m buf = .ok (r, t) := by
      rcases call_outcome E m buf with ⟨e, h1, _⟩ | ⟨u, h1, _⟩ <;> exact ⟨_, _, h1⟩
    obtain ⟨r, t, hr⟩ := hout
    obtain ⟨outs, h1, h2⟩ := ih t
    refine ⟨(r, t) :: outs, ?_, ?_⟩
    · unfold history; rw [hr]; simp [h1]
    · simp only [List.map_cons, h2, List.cons.injEq, and_true]
      exact hr.symm

/-- Three calls with different flags; the second fails. -/
example : history c!"old" [(E0, c!"?x@@3HA"), (E0, c!"?x@@3"), (EF Flags.NO_VARIABLE_TYPE, c!"?x@@3HA")] =
    some [(.ok (), c!"int x"), (.error .InvalidType, []), (.ok (), c!"x")] := by decide +kernel

theorem parse_reject (rend : Renderer) {m : Text} (h1 : ¬ c!"?" <+: m) (h2 : ¬ c!"." <+: m) :
    parse rend m = .error (.err (.Io .UnexpectedEof)) := by
  show exec (do_parse rend (fns rend m.length)) (mk m [] [] []) = _
  cases m with
  | nil => rfl
  | cons c cs =>
    have hc : c ≠ '?' := by rintro rfl; exact h1 (by simp)
    have hd : c ≠ '.' := by rintro rfl; exact h2 (by simp)
    simp [do_parse, run, hc, hd, hc.symm, hd.symm]

/-- **C10**: an input that starts neither with `?` nor with `.` is rejected with an unexpected-end-of-file
I/O error. -/
theorem C10_rejects (E : Env) (m : Text) (h1 : ¬ c!"?" <+: m) (h2 : ¬ c!"." <+: m) :
    demangle E m = .ok (.error (.Io .UnexpectedEof)) := by
  unfold demangle demangle_into parse_into
  rw [parse_reject _ h1 h2]

example : (¬ c!"?" <+: c!"_main") ∧ ¬ c!"." <+: c!"_main" := by decide

/-- **C10**: every accepted name starts with `?` or `.`. -/
theorem C10_accepted_prefix (E : Env) (m : Text) {t : Text} (h : demangle E m = .ok (.ok t)) :
    c!"?" <+: m ∨ c!"." <+: m := by
  by_cases h1 : c!"?" <+: m
  · exact Or.inl h1
  by_cases h2 : c!"." <+: m
  · exact Or.inr h2
  rw [C10_rejects E m h1 h2] at h
  cases h

end Props
end Undname
