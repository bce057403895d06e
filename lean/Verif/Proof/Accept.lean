/-
  Accepted names are exactly those of the grammar.
-/
import Verif.Proof.AccSym
import Verif.Proof.Paths
import Verif.Spec.Denotes

namespace Undname
open Spec

/-- A name of the grammar is shown as the declaration it denotes. -/
theorem denotes_shows {E : Env} {m : Text} {t : T} (h : Denotes E m t) : Shows E m (t.text E) := by
  rcases h with ⟨x, rest, tb', rfl, h⟩ | ⟨tb', h⟩ | ⟨u, rest, rfl, h1, h2, rfl⟩
  · exact shows_sym h rest
  · exact shows_symEnd h
  · exact shows_of (sim_top (hash_run h1 h2 _ [] [] [] (Tab.empty _)) (fun _ _ h => h) fun c => (Props.no_crash E _ [] c).2)

/-- An accepted name is in the grammar. -/
theorem accepted_denotes {E : Env} {m out : Text} (h : demangle E m = .ok (.ok out)) : ∃ t, Denotes E m t := by
  have hp : parse (render E) m = exec (fns (render E) (m.length + 1)).parse (mk m [] [] []) := rfl
  cases e : parse (render E) m with
  | error f =>
    exfalso
    cases f with
    | crash c =>
      unfold demangle demangle_into parse_into at h
      rw [e] at h; cases h
    | err e' =>
      rw [demangle_error e] at h; cases h
  | ok p =>
    rw [hp] at e
    have := (accN E (m.length + 1)).parse (w := []) (Tab.empty _) _ _ e
    rcases this with ⟨x, R, t, tb', rfl, hg⟩ | ⟨t, tb', hg⟩ | ⟨u, R, rfl, h1, h2⟩
    · exact ⟨t, .inl ⟨x, R, tb', rfl, hg⟩⟩
    · exact ⟨t, .inr (.inl ⟨tb', hg⟩)⟩
    · exact ⟨_, .inr (.inr ⟨u, R, rfl, h1, h2, rfl⟩)⟩

/-- Two outcomes of one call. -/
theorem shows_ok {E : Env} {m out out' : Text} (h : Shows E m out) (e : demangle E m = .ok (.ok out')) :
    out' = out ∧ utf8Len out < 2 ^ 20 := by
  rcases h with h | ⟨_, h⟩
  · rw [h] at e
    by_cases hl : utf8Len out < 2 ^ 20
    · rw [if_pos hl] at e
      exact ⟨(Except.ok.inj (Except.ok.inj e)).symm, hl⟩
    · rw [if_neg hl] at e; cases e
  · rw [h] at e; cases e

theorem accepted_text {E : Env} {m out : Text} (h : demangle E m = .ok (.ok out)) : ∃ t, Denotes E m t ∧ out = t.text E ∧ utf8Len out < 2 ^ 20 := by
  obtain ⟨t, ht⟩ := accepted_denotes h
  obtain ⟨rfl, hl⟩ := shows_ok (denotes_shows ht) h
  exact ⟨t, ht, rfl, hl⟩

end Undname
