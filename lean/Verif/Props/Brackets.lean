/-
  C30: the brackets of the output are properly nested.
-/
import Verif.Proof.Bracket
import Verif.Spec.Nested
import Verif.Props.Safety

namespace Undname
namespace Props
open Spec

/-- The rest of a text in which the brackets `s` are still open. -/
def Rest (pairs : List (Char × Char)) : List Char → Text → Prop
  | [], t => Nested pairs t
  | o :: s, t => ∃ a c b, t = a ++ c :: b ∧ (o, c) ∈ pairs ∧ Nested pairs a ∧ Rest pairs s b

variable {pairs : List (Char × Char)}

theorem Rest.other {s : List Char} {c : Char} {t : Text} (hc : ∀ p ∈ pairs, c ≠ p.1 ∧ c ≠ p.2) (h : Rest pairs s t) :
    Rest pairs s (c :: t) := by
  cases s with
  | nil => exact Nested.other hc h
  | cons o s =>
    obtain ⟨a, c', b, rfl, h1, h2, h3⟩ := h
    exact ⟨c :: a, c', b, rfl, h1, Nested.other hc h2, h3⟩

theorem Rest.opened {s : List Char} {o : Char} {t : Text} (h : Rest pairs (o :: s) t) : Rest pairs s (o :: t) := by
  obtain ⟨a, c, b, rfl, h1, h2, h3⟩ := h
  cases s with
  | nil => exact Nested.pair h1 h2 h3
  | cons o' s =>
    obtain ⟨a', c', b', rfl, h4, h5, h6⟩ := h3
    exact ⟨o :: a ++ c :: a', c', b', by simp, h4, Nested.pair h1 h2 h5, h6⟩

/-- The pairs that are tracked. -/
def tracked (a : Bool) : List (Char × Char) := if a then soft else hard

theorem not_kept {a : Bool} {c : Char} (h : kept a c = false) : ∀ p ∈ tracked a, c ≠ p.1 ∧ c ≠ p.2 := by
  cases a with
  | true => cases h
  | false =>
    simp only [kept, Bool.false_or, Bool.and_eq_false_iff, bne_eq_false_iff_eq] at h
    rcases h with rfl | rfl <;> decide

theorem tracked_of {a : Bool} {o c : Char} (h : (o, c) ∈ brackets) (hk : kept a c = true) : (o, c) ∈ tracked a := by
  have key : ∀ p ∈ brackets, kept a p.2 = true → p ∈ tracked a := by cases a <;> decide
  exact key _ h hk

theorem not_bracket {a : Bool} {c : Char} (h1 : ¬ c!"([{<".contains c = true) (h2 : ¬ c!")]}>".contains c = true) :
    ∀ p ∈ tracked a, c ≠ p.1 ∧ c ≠ p.2 := by
  have key : ∀ p ∈ tracked a, c!"([{<".contains p.1 = true ∧ c!")]}>".contains p.2 = true := by cases a <;> decide
  intro p hp
  exact ⟨fun e => h1 (e ▸ (key p hp).1), fun e => h2 (e ▸ (key p hp).2)⟩

theorem rest_of_stack {a : Bool} {s : List Char} {t : Text} (h : stackAfter s (t.filter (kept a)) = some []) : Rest (tracked a) s t := by
  induction t generalizing s with
  | nil =>
    simp [stackAfter] at h
    subst h
    exact Nested.nil
  | cons c cs ih =>
    by_cases hk : kept a c = true
    · rw [List.filter_cons_of_pos hk] at h
      unfold stackAfter at h
      split at h
      · exact (ih h).opened
      · next h1 =>
        split at h
        · cases s with
          | nil => simp at h
          | cons o s =>
            dsimp only at h
            split at h
            · next hb => exact ⟨[], c, cs, rfl, tracked_of (List.contains_iff_mem.1 hb) hk, Nested.nil, ih h⟩
            · cases h
        · next h2 => exact (ih h).other (not_bracket h1 h2)
    · rw [List.filter_cons_of_neg hk] at h
      exact (ih h).other (not_kept (by simpa using hk))

theorem brackets_of (a : Bool) (E : Env) (m : Text) {t : Text} (h : demangle E m = .ok (.ok t)) (hf : E.flags.name_only = false)
    (hm : (bracketSpec a).inp m) : Nested (tracked a) t := by
  rw [demangle_of_into] at h
  rcases demangle_into_ok (T := bracketSpec a) E (bracketSpec_flags a hf) (m := m) hm [] with ⟨e, x1, _⟩ | ⟨u, x1, _, x2⟩
  · rw [x1] at h; simp at h
  · rw [x1] at h; simp at h; subst h
    exact rest_of_stack (s := []) x2

/-- **C30**: if the input has no parenthesis, square bracket or brace and no string literal code, and `NAME_ONLY` is not
set, then the parentheses, square brackets and braces of the output are properly nested. -/
theorem C30_nested (E : Env) (m : Text) {t : Text} (h : demangle E m = .ok (.ok t)) (hf : E.flags.name_only = false)
    (h1 : ∀ c ∈ c!"()[]{}", c ∉ m) (h2 : ¬ c!"?_C" <:+: m) : Nested hard t := by
  refine brackets_of false E m h hf ⟨fun c hc hb => ?_, h2, fun h => by cases h⟩
  have hn : c ∉ c!"()[]{}" := fun x => h1 c x hc
  simp at hb hn
  rcases hb with rfl | rfl | rfl | rfl | rfl | rfl | rfl | rfl <;> first | rfl | exact absurd hn (by decide)

/-- **C30**: if the input has also no angle bracket, and no operator whose text has one (`->`, `<`, `>>=` …), then the
angle brackets of the template arguments nest properly with all others. -/
theorem C30_angle (E : Env) (m : Text) {t : Text} (h : demangle E m = .ok (.ok t)) (hf : E.flags.name_only = false)
    (h1 : ∀ c ∈ c!"()[]{}<>", c ∉ m) (h2 : ¬ c!"?_C" <:+: m)
    (h3 : ∀ x ∈ angleCodes, ¬ (c!"??" ++ x) <:+: m ∧ ¬ (c!"?$?" ++ x) <:+: m) : Nested soft t := by
  refine brackets_of true E m h hf ⟨fun c hc hb => ?_, h2, fun _ => h3⟩
  exact absurd hc (h1 c (List.contains_iff_mem.1 hb))

/-- A symbol with all four kinds of brackets meets the conditions. -/
example : demangle E0 c!"??$f@$1?M@@3HA$F7BA@@@YAXP6AXV?$Max@H@@PAY02H@Z@Z" =
      .ok (.ok c!"void __cdecl f<&int M, {8, 16}>(void (__cdecl *)(class Max<int>, int (*)[3]))") ∧
    (∀ c ∈ c!"()[]{}<>", c ∉ c!"??$f@$1?M@@3HA$F7BA@@@YAXP6AXV?$Max@H@@PAY02H@Z@Z") ∧
    ¬ c!"?_C" <:+: c!"??$f@$1?M@@3HA$F7BA@@@YAXP6AXV?$Max@H@@PAY02H@Z@Z" ∧
    (∀ x ∈ angleCodes, ¬ (c!"??" ++ x) <:+: c!"??$f@$1?M@@3HA$F7BA@@@YAXP6AXV?$Max@H@@PAY02H@Z@Z" ∧
      ¬ (c!"?$?" ++ x) <:+: c!"??$f@$1?M@@3HA$F7BA@@@YAXP6AXV?$Max@H@@PAY02H@Z@Z") := by
  refine ⟨?_, ?_, ?_, ?_⟩ <;> decide +kernel

theorem nested_count {t : Text} (h : Nested soft t) : t.count '<' = t.count '>' := by
  induction h with
  | nil => rfl
  | @other c t h1 _ ih =>
    have h2 := h1 ('<', '>') (by decide)
    rw [List.count_cons_of_ne h2.1, List.count_cons_of_ne h2.2, ih]
  | @pair o c a b h1 _ _ ih1 ih2 =>
    simp only [List.cons_append, List.count_cons, List.count_append, ih1, ih2]
    simp only [soft, hard, List.mem_cons, Prod.mk.injEq, List.not_mem_nil, or_false] at h1
    rcases h1 with ⟨rfl, rfl⟩ | ⟨rfl, rfl⟩ | ⟨rfl, rfl⟩ | ⟨rfl, rfl⟩ <;> simp <;> omega

/-- **C30**: without the condition on operators the angle brackets do not nest. -/
theorem C30_angle_operator : demangle E0 c!"??M@YA_NHH@Z" = .ok (.ok c!"bool __cdecl operator<(int, int)") ∧
    ¬ Nested soft c!"bool __cdecl operator<(int, int)" :=
  ⟨by decide +kernel, fun h => absurd (nested_count h) (by decide +kernel)⟩

end Props
end Undname
