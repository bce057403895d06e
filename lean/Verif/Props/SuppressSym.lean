/-
  Property theorems C44 for the symbols of a compiler, with templates, of any size.
-/
import Verif.Proof.FewerOk
import Verif.Props.Verdict
import Verif.Props.Suppress

namespace Undname
namespace Props
open Spec Spec.Cxx

theorem verdict_ok {n : Nat} {out w : Text} (h : verdict n w = .ok out) : n ≤ 2048 ∧ utf8Len w < 2 ^ 20 ∧ out = w := by
  unfold verdict at h
  split at h
  · cases h
  · split at h
    · cases h
      exact ⟨by omega, by assumption, rfl⟩
    · cases h

theorem verdict_of {n : Nat} {w : Text} (hn : n ≤ 2048) (hl : utf8Len w < 2 ^ 20) : verdict n w = .ok w := by
  unfold verdict
  rw [if_neg (show ¬ 2048 < n by omega), if_pos hl]

/-- **C44**: suppression flags only take text away, also from template instantiations: if a symbol of a compiler is
accepted, it is also accepted with any further flags, and the text is then a subsequence of the former text, provided
that different names in it have different texts with the flags and without them. -/
theorem C44_symbols (f F : Flags) (u : Char → Bool) (w : Bool) {y : Sym} (h : y.Ok ⟨f, u⟩) (hd : Distinct ⟨f, u⟩ y.keys)
    (hd' : Distinct ⟨f ||| F, u⟩ y.keys) (rest : Text) {out : Text} (ho : demangle ⟨f, u⟩ (y.mangle w ++ rest) = .ok (.ok out)) :
    ∃ out', demangle ⟨f ||| F, u⟩ (y.mangle w ++ rest) = .ok (.ok out') ∧ out'.Sublist out := by
  have H := flagsLe_or f F u
  rw [C59_verdict w h hd, Except.ok.injEq] at ho
  obtain ⟨hn, hl, rfl⟩ := verdict_ok ho
  have hs : S _ _ := y.cpp_le H
  refine ⟨_, ?_, hs⟩
  rw [C59_verdict w (Sym.ok_le H h) hd', Except.ok.injEq]
  exact verdict_of hn (Nat.lt_of_le_of_lt (utf8Len_sublist hs) hl)

/-- **C44**: the same for guards without a number and descriptors of types, up to blanks for the names of types. -/
theorem C44_final_symbols (f F : Flags) (u : Char → Bool) (w : Bool) {y : EndSym} (h : y.Ok ⟨f, u⟩) (hd : Distinct ⟨f, u⟩ y.keys)
    (hd' : Distinct ⟨f ||| F, u⟩ y.keys) {out out' : Text} (ho : demangle ⟨f, u⟩ (y.mangle w) = .ok (.ok out))
    (ho' : demangle ⟨f ||| F, u⟩ (y.mangle w) = .ok (.ok out')) :
    (out'.filter (· ≠ ' ')).Sublist (out.filter (· ≠ ' ')) ∧ ((∀ t, y ≠ .typeName t) → out'.Sublist out) := by
  have H := flagsLe_or f F u
  rw [C59_final_verdict w h hd, Except.ok.injEq] at ho
  rw [C59_final_verdict w (EndSym.ok_le H h) hd', Except.ok.injEq] at ho'
  obtain ⟨_, _, rfl⟩ := verdict_ok ho
  obtain ⟨_, _, rfl⟩ := verdict_ok ho'
  exact y.cpp_le H

/-- **C44**: all flags together keep no more than any of them: whatever is shown with the flags `f ||| F` is shown, in the
same order, with `f` alone and with `F` alone. -/
theorem C44_combined (f F : Flags) (u : Char → Bool) (w : Bool) {y : Sym} (h : y.Ok ⟨f, u⟩) (h2 : y.Ok ⟨F, u⟩)
    (hd : Distinct ⟨f, u⟩ y.keys) (hd2 : Distinct ⟨F, u⟩ y.keys) (hd' : Distinct ⟨f ||| F, u⟩ y.keys) (rest : Text) {a b c : Text}
    (ha : demangle ⟨f, u⟩ (y.mangle w ++ rest) = .ok (.ok a)) (hb : demangle ⟨F, u⟩ (y.mangle w ++ rest) = .ok (.ok b))
    (hc : demangle ⟨f ||| F, u⟩ (y.mangle w ++ rest) = .ok (.ok c)) : c.Sublist a ∧ c.Sublist b := by
  have comm : F ||| f = f ||| F := by
    show (⟨F.bits ||| f.bits⟩ : Flags) = ⟨f.bits ||| F.bits⟩
    rw [BitVec.or_comm]
  obtain ⟨o, e, s⟩ := C44_symbols f F u w h hd hd' rest ha
  obtain ⟨o2, e2, s2⟩ := C44_symbols F f u w h2 hd2 (by rw [comm]; exact hd') rest hb
  rw [comm] at e2
  rw [hc] at e e2
  cases e; cases e2
  exact ⟨s, s2⟩

/-- `struct pair<class A, int> *__restrict N::get<struct pair<class A, int>>(struct pair<class A, int> *__restrict)`,
a function template. -/
def suppressed : Sym :=
  let p : Cxx.Ty := .ptr (.star false false true) false
    (.tag .Struct (.cons (.tm c!"pair" (.ty (.tag .Class (.cons (.id c!"A") .nil) false false) (.ty (.prim .Int false false) .nil))) .nil) false false)
  .decl (.fn (.static .publ) (.tm c!"get" (.ty p .nil)) (.cons (.id c!"N") .nil) (.mk 'A' p (.cons p .nil) false true))

example : suppressed.Ok E0 ∧ Distinct E0 suppressed.keys ∧
    Distinct (EF (Flags.NO_MS_KEYWORDS ||| Flags.NO_TAG_SPECIFIER ||| Flags.NO_MEMBER_TYPE)) suppressed.keys ∧
    suppressed.mangle false = c!"??$get@PIAU?$pair@VA@@H@@@N@@SAPIAU?$pair@VA@@H@@PIAU1@@_E" :=
  ⟨show Decl.Ok _ _ by decide +kernel, by decide +kernel, by decide +kernel, by decide +kernel⟩

example : demangle E0 c!"??$get@PIAU?$pair@VA@@H@@@N@@SAPIAU?$pair@VA@@H@@PIAU1@@_E" =
      .ok (.ok c!"public: static struct pair<class A, int> *__restrict __cdecl N::get<struct pair<class A, int> *__restrict>(struct pair<class A, int> *__restrict) noexcept") ∧
    demangle (EF (Flags.NO_MS_KEYWORDS ||| Flags.NO_TAG_SPECIFIER ||| Flags.NO_MEMBER_TYPE)) c!"??$get@PIAU?$pair@VA@@H@@@N@@SAPIAU?$pair@VA@@H@@PIAU1@@_E" =
      .ok (.ok c!"public: pair<A, int> * N::get<pair<A, int> *>(pair<A, int> *) noexcept") := by
  refine ⟨?_, ?_⟩ <;> decide +kernel

end Props
end Undname
