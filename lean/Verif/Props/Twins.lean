/-
  Property theorems C34: how far the flags decide whether a name is accepted.
-/
import Verif.Proof.Twin2
import Verif.Proof.Eval
import Verif.Props.Safety

namespace Undname
namespace Props

theorem not_wild {e : Fail} (h : ¬ Wild (.error e : Except Fail Unit)) : ∃ x, e = .err x ∧ x ≠ .Io .OutOfMemory := by
  cases e with
  | crash c => exact absurd trivial h
  | err x =>
    refine ⟨x, rfl, ?_⟩
    rintro rfl
    exact h trivial

/-- What the call makes of the outcome of the parser. -/
theorem demangle_cases (E : Env) (m : Text) :
    (∃ out h s w, demangle E m = .ok (.ok out) ∧ parse (render E) m = .ok (h, s) ∧
      render E s.cache .ISymbolNode h [] = .ok (w, out)) ∨
    (∃ e, demangle E m = .ok (.error e) ∧ parse (render E) m = .error (.err e)) ∨
    (demangle E m = .ok (.error (.Io .OutOfMemory)) ∧ ∃ x, parse (render E) m = .ok x) := by
  have hn := fun c => (no_crash E m [] c).2
  unfold demangle demangle_into parse_into clear at *
  cases hp : parse (render E) m with
  | error e =>
    cases e with
    | crash c => rw [hp] at hn; exact absurd rfl (hn c)
    | err e => exact .inr (.inl ⟨e, rfl, rfl⟩)
  | ok x =>
    obtain ⟨h, s⟩ := x
    rw [hp] at hn
    dsimp only at hn ⊢
    cases hr : render E s.cache .ISymbolNode h [] with
    | error e =>
      cases e with
      | crash c => rw [hr] at hn; exact absurd rfl (hn c)
      | err e =>
        have := oom_render E s.cache .ISymbolNode h [] _ hr
        refine .inr (.inr ⟨?_, _, rfl⟩)
        by_cases he : e = .Io .OutOfMemory
        · rw [he]
        · exfalso
          cases e <;> first | exact this | (rename_i k; cases k <;> first | exact this | exact he rfl)
    | ok y => exact .inl ⟨y.2, h, s, y.1, rfl, rfl, hr⟩

theorem wild_outcome {E : Env} {m : Text} (h : Wild (parse (render E) m)) : demangle E m = .ok (.error (.Io .OutOfMemory)) := by
  rcases demangle_cases E m with ⟨_, _, _, _, _, hp, _⟩ | ⟨e, hd, hp⟩ | ⟨hd, _⟩
  · rw [hp] at h; exact absurd h id
  · rw [hp] at h
    rw [hd]
    cases e <;> first | exact absurd h id | (rename_i k; cases k <;> first | exact absurd h id | rfl)
  · exact hd

/-- **C34**: for a name without template instantiations, which flags are set (and which characters the platform's Unicode
tables consider to be numeric) does not decide whether it is accepted nor, if it is rejected, with which error: the only
way in which two results can differ is that the text of one is larger than the limit of 2^20 bytes. -/
theorem C34_same_verdict (E E' : Env) {m : Text} (h : ¬ c!"?$" <:+: m) :
    demangle E m = .ok (.error (.Io .OutOfMemory)) ∨ demangle E' m = .ok (.error (.Io .OutOfMemory)) ∨
    (∃ e, demangle E m = .ok (.error e) ∧ demangle E' m = .ok (.error e)) ∨
    ∃ out out', demangle E m = .ok (.ok out) ∧ demangle E' m = .ok (.ok out') := by
  rcases parse_twins E E' h with hw | hw | ⟨e, h1, h2⟩ | ⟨a, t, t', h1, h2, _⟩
  · exact .inl (wild_outcome hw)
  · exact .inr (.inl (wild_outcome hw))
  · rcases demangle_cases E m with ⟨_, _, _, _, _, hp, _⟩ | ⟨e1, hd, hp⟩ | ⟨_, _, hp⟩
    · rw [h1] at hp; cases hp
    · rcases demangle_cases E' m with ⟨_, _, _, _, _, hp', _⟩ | ⟨e2, hd', hp'⟩ | ⟨_, _, hp'⟩
      · rw [h2] at hp'; cases hp'
      · rw [h1] at hp; rw [h2] at hp'
        cases hp; cases hp'
        exact .inr (.inr (.inl ⟨_, hd, hd'⟩))
      · rw [h2] at hp'; cases hp'
    · rw [h1] at hp; cases hp
  · rcases demangle_cases E m with ⟨o, _, _, _, hd, _⟩ | ⟨_, _, hp⟩ | ⟨hd, _⟩
    · rcases demangle_cases E' m with ⟨o', _, _, _, hd', _⟩ | ⟨_, _, hp'⟩ | ⟨hd', _⟩
      · exact .inr (.inr (.inr ⟨o, o', hd, hd'⟩))
      · rw [h2] at hp'; cases hp'
      · exact .inr (.inl hd')
    · rw [h1] at hp; cases hp
    · exact .inl hd

/-- A name with a local scope and references to names and parameters, under all flags and under none. -/
example : (¬ c!"?$" <:+: c!"?x@?1??f@A@@YAXPEAUB@2@0@Z@3UB@2@A") ∧
    (∃ out, demangle E0 c!"?x@?1??f@A@@YAXPEAUB@2@0@Z@3UB@2@A" = .ok (.ok out)) ∧
    ∃ out, demangle ⟨⟨0xFFFF⟩, fun _ => true⟩ c!"?x@?1??f@A@@YAXPEAUB@2@0@Z@3UB@2@A" = .ok (.ok out) := by
  refine ⟨by decide, ⟨?_, ?_⟩, ?_, ?_⟩
  · exact c!"struct A::B `void __cdecl A::f(struct A::B *, struct A::B *)'::`2'::x"
  · decide +kernel
  · exact c!"`A::f'::`2'::x"
  · decide +kernel

/-- A rejected one. -/
example : (¬ c!"?$" <:+: c!"?x@?1??f@A@@YAXPEAUB@7@0@Z@3UB@2@A") ∧
    demangle ⟨⟨0xFFFF⟩, fun _ => true⟩ c!"?x@?1??f@A@@YAXPEAUB@7@0@Z@3UB@2@A" = .ok (.error .InvalidBackRef) := by
  refine ⟨by decide, ?_⟩
  rcases C34_same_verdict E0 ⟨⟨0xFFFF⟩, fun _ => true⟩ (m := c!"?x@?1??f@A@@YAXPEAUB@7@0@Z@3UB@2@A") (by decide) with
    h | h | ⟨e, h, h'⟩ | ⟨o, o', h, h'⟩
  · exact absurd h (by decide +kernel)
  · exact absurd h (by decide +kernel)
  · rw [h', ← h]; decide +kernel
  · exact absurd h (by
      rw [show demangle E0 c!"?x@?1??f@A@@YAXPEAUB@7@0@Z@3UB@2@A" = .ok (.error .InvalidBackRef) from by decide +kernel]
      simp)

/-- The restriction to names without template instantiations cannot be dropped: whether a template instantiation becomes
a new entry of the table of names depends on whether its text, as printed under the flags of the call, is new. So
suppressing the `struct` and `class` of template arguments makes a later back-reference dangle; the same happens with
calling conventions and with the return types of functions given as arguments. -/
theorem C34_templates_depend_on_flags :
    demangle E0 c!"?x@?$A@UB@@@?$A@VB@@@2@3HA" = .ok (.ok c!"int A<class B>::A<class B>::A<struct B>::x") ∧
    demangle (EF Flags.NO_TAG_SPECIFIER) c!"?x@?$A@UB@@@?$A@VB@@@2@3HA" = .ok (.error .InvalidBackRef) ∧
    demangle (EF Flags.NO_CALLING_CONVENTION) c!"?x@?$A@P6AXXZ@?$A@P6GXXZ@2@3HA" = .ok (.error .InvalidBackRef) ∧
    demangle (EF Flags.NO_RETURN_TYPE) c!"?x@?$A@$1?f@@YAHXZ@?$A@$1?f@@YAXXZ@2@3HA" = .ok (.error .InvalidBackRef) := by
  refine ⟨?_, ?_, ?_, ?_⟩ <;> decide +kernel

/-- The flags can even change which name a back-reference stands for. -/
theorem C34_templates_rebind :
    demangle E0 c!"?x@?$A@UB@@@?$A@VB@@@C@2@3HA" = .ok (.ok c!"int A<class B>::C::A<class B>::A<struct B>::x") ∧
    demangle (EF Flags.NO_TAG_SPECIFIER) c!"?x@?$A@UB@@@?$A@VB@@@C@2@3HA" = .ok (.ok c!"int C::C::A<B>::A<B>::x") := by
  refine ⟨?_, ?_⟩ <;> decide +kernel

end Props
end Undname
