/-
  C52: the work of a call is at most proportional to the length of the name.
-/
import Verif.Timed.Cap
import Verif.Proof.Eval

namespace Undname.Props
open Undname

/-- C52. `Timed.demangle` is `demangle` in the monad that counts steps (Timed/Monad.lean): it returns what `demangle`
returns, beside the number of operations on the input, on the node cache and on the parser's tables, of characters
looked at, compared, copied and written, and of sequencings. For every name and every set of flags that number is at most
10011 for every character of the name, plus a constant: there is no name on which the time grows faster
than the name, even though names inside templates and local scopes are rendered again while the name is parsed, the input is
searched ahead for `@` and `?`, and the whole buffer is looked at for its last character. -/
theorem C52_linear_work (E : Env) (m : Text) :
    (Timed.demangle E m).1 = demangle E m ∧ (Timed.demangle E m).2 ≤ 10011 * m.length + 10300000000000000000000 :=
  ⟨Timed.demangle_fst E m, Nat.le_trans (Timed.demangle_steps E m) (Nat.add_le_add_left (by decide) _)⟩

/-- The same for parsing alone, the constant being what the renderings cost that are made for template arguments and local
scopes: with a renderer (`rend`) that takes at most `R` steps and writes at most 2^20 characters, parsing takes
at most 10010 steps for every character and `R + 20000000` for each of the at most 2048 nodes. -/
theorem C52_linear_parsing (rend : Timed.Renderer) (R : Nat) (hc : ∀ c k h w, (rend c k h w).2 ≤ R)
    (hl : ∀ c k h w u t, (rend c k h w).1 = .ok (u, t) → t.length ≤ 2 ^ 20) (m : Text) :
    (Timed.parse rend m).1 = parse (fun c k h w => (rend c k h w).1) m ∧
    (Timed.parse rend m).2 ≤ 1000 + 10010 * m.length + 2048 * (R + 20000000) :=
  ⟨((Timed.ref_fns (rend' := rend) (rend := rend) (orend := fun c k h w => (rend c k h w).1) (fun _ _ _ => Timed.Ref.same fun _ => rfl)
      (m.length + 1)).parse (initSt m)).1, Timed.parse_steps_rend ⟨hc, hl, Nat.le_refl _⟩ m⟩

/-- Rendering what a successful parse delivers takes a bounded number of steps, however long the name. -/
theorem C52_bounded_rendering (E : Env) (m : Text) (h : Handle) (s : St) (hp : parse (render E) m = .ok (h, s)) :
    (Timed.render E s.cache .ISymbolNode h []).1 = render E s.cache .ISymbolNode h [] ∧
    (Timed.render E s.cache .ISymbolNode h []).2 ≤ 5000000000000000000 := by
  refine ⟨(Timed.ref_render E s.cache .ISymbolNode h []).1, ?_⟩
  have hw := parse_wp E (charSpec_flags m E) (m := m) (fun c hc => hc)
  unfold wp at hw
  unfold parse at hp
  rw [hp] at hw
  exact Timed.render_steps E (k := .ISymbolNode) hw.1.size hw.2.1 [] (Nat.zero_le _)

/-- A renderer that writes nothing meets the hypotheses of `C52_linear_parsing`. -/
example : (∀ c k h w, ((fun _ _ _ w => (.ok ((), w.take 5), 7) : Timed.Renderer) c k h w).2 ≤ 7) ∧
    ∀ c k h w u t, ((fun _ _ _ w => (.ok ((), w.take 5), 7) : Timed.Renderer) c k h w).1 = .ok (u, t) → t.length ≤ 2 ^ 20 := by
  refine ⟨fun _ _ _ _ => Nat.le_refl _, fun _ _ _ w u t h => ?_⟩
  cases h
  rw [List.length_take]
  omega

/-- A variable, a member of a template class (rendered while parsing), a name that is refused: the steps are counted. -/
example : Timed.demangle E0 c!"?x@@3HA" = (.ok (.ok c!"int x"), 239) := by decide +kernel
example : Timed.demangle E0 c!"?f@?$A@H@@QAEXXZ" = (.ok (.ok c!"public: void __thiscall A<int>::f(void)"), 758) := by
  decide +kernel
example : Timed.demangle E0 c!"?x@@3H" = (.ok (.error .InvalidQualifiers), 179) := by decide +kernel

end Undname.Props
