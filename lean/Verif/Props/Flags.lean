/-
  Property theorems C31-C33: which flags matter.
-/
import Verif.Proof.FlagsEq
import Verif.Proof.Eval

namespace Undname
namespace Props

/-- The documented flags, in the order of their bits. -/
def allFlags : List Flags :=
  [Flags.NO_CALLING_CONVENTION, Flags.NO_TAG_SPECIFIER, Flags.NO_ACCESS_SPECIFIER, Flags.NO_MEMBER_TYPE,
   Flags.NO_RETURN_TYPE, Flags.NO_VARIABLE_TYPE, Flags.NO_THISTYPE, Flags.NO_LEADING_UNDERSCORES,
   Flags.NO_MS_KEYWORDS, Flags.NAME_ONLY]

/-- **C31**: the ten flags are the ten lowest bits, so pairwise disjoint. -/
theorem C31_bits : allFlags.map Flags.bits = (List.range 10).map (fun i => 1#16 <<< i) ∧
    allFlags.Pairwise fun a b => a.bits &&& b.bits = 0 := by decide

/-- **C31**: the aliases are the same flags. -/
theorem C31_aliases : Flags.NO_ALLOCATION_LANGUAGE = Flags.NO_CALLING_CONVENTION ∧
    Flags.NO_ECSU = Flags.NO_TAG_SPECIFIER ∧ Flags.NO_ACCESS_SPECIFIERS = Flags.NO_ACCESS_SPECIFIER ∧
    Flags.NO_FUNCTION_RETURNS = Flags.NO_RETURN_TYPE := by decide

theorem contains_mask {f g F : Flags} (h : f.bits &&& 0x3FF#16 = g.bits &&& 0x3FF#16) (hF : 0x3FF#16 &&& F.bits = F.bits) :
    f.contains F = g.contains F := by
  unfold Flags.contains
  have : ∀ x : BitVec 16, x &&& F.bits = (x &&& 0x3FF#16) &&& F.bits := by
    intro x; rw [BitVec.and_assoc, hF]
  rw [this f.bits, this g.bits, h]

/-- **C31**: flag values that agree on the ten documented bits give the same results for every input. -/
theorem C31_unknown_bits (f g : Flags) (u : Char → Bool) (h : f.bits &&& 0x3FF#16 = g.bits &&& 0x3FF#16) (m buf : Text) :
    demangle ⟨f, u⟩ m = demangle ⟨g, u⟩ m ∧ demangle_into ⟨f, u⟩ m buf = demangle_into ⟨g, u⟩ m buf := by
  have H : SameEnv ⟨f, u⟩ ⟨g, u⟩ := by
    constructor <;> intros <;> first | rfl | exact contains_mask h (by decide)
  exact ⟨H.demangle m, H.demangle_into m buf⟩

example : (⟨0x8000⟩ : Flags).bits &&& 0x3FF#16 = Flags.default.bits &&& 0x3FF#16 := by decide

theorem contains_union {f F G : Flags} (h : F.bits &&& G.bits = 0) : (f ||| F).contains G = f.contains G := by
  show ((f.bits ||| F.bits) &&& G.bits == G.bits) = _
  rw [show (f.bits ||| F.bits) &&& G.bits = f.bits &&& G.bits by
    apply BitVec.eq_of_getLsbD_eq
    intro i hi
    have := congrArg (fun x => x.getLsbD i) h
    simp only [BitVec.getLsbD_and, BitVec.getLsbD_or] at this ⊢
    have h0 : (0 : BitVec 16).getLsbD i = false := by simp
    rw [h0] at this
    revert this
    cases f.bits.getLsbD i <;> cases F.bits.getLsbD i <;> cases G.bits.getLsbD i <;> simp]
  rfl

/-- **C32**: with `NO_MS_KEYWORDS`, adding `NO_CALLING_CONVENTION` or `NO_LEADING_UNDERSCORES` (or both)
changes nothing, for any input and any other flags. -/
theorem C32_ms_keywords (f F : Flags) (u : Char → Bool) (hms : f.contains Flags.NO_MS_KEYWORDS = true)
    (hF : F ∈ [Flags.NO_CALLING_CONVENTION, Flags.NO_LEADING_UNDERSCORES]) (m buf : Text) :
    demangle ⟨f ||| F, u⟩ m = demangle ⟨f, u⟩ m ∧ demangle_into ⟨f ||| F, u⟩ m buf = demangle_into ⟨f, u⟩ m buf := by
  have hu : ∀ G, F.bits &&& G.bits = 0 → (f ||| F).contains G = f.contains G := fun G h => contains_union h
  have dis : ∀ F ∈ [Flags.NO_CALLING_CONVENTION, Flags.NO_LEADING_UNDERSCORES],
      ∀ G ∈ [Flags.NO_MS_KEYWORDS, Flags.NAME_ONLY, Flags.NO_RETURN_TYPE, Flags.NO_ACCESS_SPECIFIER,
        Flags.NO_MEMBER_TYPE, Flags.NO_VARIABLE_TYPE, Flags.NO_THISTYPE, Flags.NO_TAG_SPECIFIER],
      F.bits &&& G.bits = 0 := by decide
  have hms' : (f ||| F).contains Flags.NO_MS_KEYWORDS = true := by
    rw [hu _ (dis F hF _ (by decide))]; exact hms
  have H : SameEnv ⟨f ||| F, u⟩ ⟨f, u⟩ := by
    constructor
    case uni => rfl
    case cc => intro h; exact absurd (hms'.symm.trans h) (by decide)
    case und => intro h; exact absurd (hms'.symm.trans h) (by decide)
    all_goals intros; exact hu _ (dis F hF _ (by decide))
  exact ⟨H.demangle m, H.demangle_into m buf⟩

example : demangle (EF Flags.NO_MS_KEYWORDS) c!"?f@@YAXPIAH@Z" = .ok (.ok c!"void f(int *)") ∧
    demangle (EF Flags.default) c!"?f@@YAXPIAH@Z" = .ok (.ok c!"void __cdecl f(int *__restrict)") := by decide +kernel

/-- **C33**: with `NAME_ONLY`, adding any of the flags that only concern the declaration changes nothing, for
any input and any other flags. -/
theorem C33_name_only (f F : Flags) (u : Char → Bool) (hn : f.contains Flags.NAME_ONLY = true)
    (hF : F ∈ [Flags.NO_ACCESS_SPECIFIER, Flags.NO_MEMBER_TYPE, Flags.NO_VARIABLE_TYPE, Flags.NO_THISTYPE,
      Flags.NO_TAG_SPECIFIER]) (m buf : Text) :
    demangle ⟨f ||| F, u⟩ m = demangle ⟨f, u⟩ m ∧ demangle_into ⟨f ||| F, u⟩ m buf = demangle_into ⟨f, u⟩ m buf := by
  have hu : ∀ G, F.bits &&& G.bits = 0 → (f ||| F).contains G = f.contains G := fun G h => contains_union h
  have dis : ∀ F ∈ [Flags.NO_ACCESS_SPECIFIER, Flags.NO_MEMBER_TYPE, Flags.NO_VARIABLE_TYPE, Flags.NO_THISTYPE,
      Flags.NO_TAG_SPECIFIER],
      ∀ G ∈ [Flags.NO_MS_KEYWORDS, Flags.NAME_ONLY, Flags.NO_RETURN_TYPE, Flags.NO_CALLING_CONVENTION,
        Flags.NO_LEADING_UNDERSCORES], F.bits &&& G.bits = 0 := by decide
  have hn' : (f ||| F).contains Flags.NAME_ONLY = true := by
    rw [hu _ (dis F hF _ (by decide))]; exact hn
  have H : SameEnv ⟨f ||| F, u⟩ ⟨f, u⟩ := by
    constructor
    case uni => rfl
    case acc => intro h; exact absurd (hn'.symm.trans h) (by decide)
    case mem => intro h; exact absurd (hn'.symm.trans h) (by decide)
    case var => intro h; exact absurd (hn'.symm.trans h) (by decide)
    case this => intro h; exact absurd (hn'.symm.trans h) (by decide)
    case tag => intro h; exact absurd (hn'.symm.trans h) (by decide)
    all_goals intros; exact hu _ (dis F hF _ (by decide))
  exact ⟨H.demangle m, H.demangle_into m buf⟩

example : demangle (EF Flags.NAME_ONLY) c!"?f@C@@QEAAXH@Z" = .ok (.ok c!"C::f") := by decide +kernel

end Props
end Undname
