/-
  Property theorems C67, continued: names with any choices of back-references that are demangled to one text.
-/
import Verif.Props.DistinctSym
import Verif.Props.Width

namespace Undname
namespace Props
open Spec Spec.Cxx

/-- The name of a symbol for 32 or 64 bits, with some of the back-references. -/
def Mangled.mixed (w : Bool) (coins : Nat → Bool) : Mangled → Text
  | .sym y rest => y.mix w coins ++ rest
  | .fin z => z.mix w coins

/-- With all the back-references it is the compiler's name. -/
theorem Mangled.mixed_true (w : Bool) (m : Mangled) : m.mixed w (fun _ => true) = m.name w := by
  cases m with
  | sym y rest => simp only [Mangled.mixed, Mangled.name, y.mix_true]
  | fin z => simp only [Mangled.mixed, Mangled.name, z.mix_true]

theorem mixed_shows {E : Env} (hE : E.flags = Flags.default) {key : Text} (hk : key.head?.any Char.isDigit = true) (w : Bool)
    (coins : Nat → Bool) {m : Mangled} (h : m.Ok E) (hp : m.plain key = true) : Shows E (m.mixed w coins) (m.text E) := by
  cases m with
  | sym y rest => exact C67_symbols w h (Cxx.plain_distinct hE hk (Sym.keys_plain hp)) coins rest
  | fin z => exact C67_final_symbols w h (Cxx.plain_distinct hE hk (EndSym.keys_plain hp)) coins

/-- **C67** and **C60**: if two names of plain symbols, written with any choices of back-references for 32 or 64 bits, with
anything after them that may follow, are demangled to one text, they are names of the same symbol. -/
theorem C67_one_symbol {E : Env} (hE : E.flags = Flags.default) {key : Text} (hk : key.head?.any Char.isDigit = true) (w w' : Bool)
    (c c' : Nat → Bool) {m m' : Mangled} (h : m.Ok E) (hp : m.plain key = true) (h' : m'.Ok E) (hp' : m'.plain key = true) (out : Text)
    (e : demangle E (m.mixed w c) = .ok (.ok out)) (e' : demangle E (m'.mixed w' c') = .ok (.ok out)) : m.Same m' := by
  have e := (shows_ok (mixed_shows hE hk w c h hp) e).symm.trans (shows_ok (mixed_shows hE hk w' c' h' hp') e')
  cases m with
  | sym y rest =>
    cases m' with
    | sym z rest' => exact C60_symbols hE hp hp' e
    | fin z => exact absurd e (C60_sorts hE hp hp')
  | fin y =>
    cases m' with
    | sym z rest' => exact absurd e.symm (C60_sorts hE hp' hp)
    | fin z => exact C60_final_symbols hE hp hp' e

/-- **C67** and **C60**: and if one string is a name of two plain symbols, whatever the choices and the widths, and it is
demangled to some text, the symbols are the same. -/
theorem C67_one_reading {E : Env} (hE : E.flags = Flags.default) {key : Text} (hk : key.head?.any Char.isDigit = true) (w w' : Bool)
    (c c' : Nat → Bool) {m m' : Mangled} (h : m.Ok E) (hp : m.plain key = true) (h' : m'.Ok E) (hp' : m'.plain key = true) {s out : Text}
    (hs : m.mixed w c = s) (hs' : m'.mixed w' c' = s) (e : demangle E s = .ok (.ok out)) : m.Same m' :=
  C67_one_symbol hE hk w w' c c' h hp h' hp' out (hs ▸ e) (hs' ▸ e)

/-- The hypotheses are met by the function of `Props/Mixed.lean`, with three ways to write it. -/
example : (Mangled.sym (.decl cxxFn3) []).plain c!"0" = true := by decide +kernel
example : demangle E0 ((Mangled.sym (.decl cxxFn3) c!"x").mixed true fun k => k ≠ 8) = .ok (.ok
    c!"void __cdecl f(class std::vector<int>, class std::vector<int>, class std::vector<int>)") := by
  have h : (Sym.decl cxxFn3).Ok E0 := by show Decl.Ok _ _; decide +kernel
  have hd : Distinct E0 (Sym.decl cxxFn3).keys := by decide +kernel
  have := C67_verdict true h hd (fun k => k ≠ 8) c!"x"
  exact this.trans (congrArg Except.ok ((if_neg (by decide +kernel)).trans ((if_pos (by decide +kernel)).trans (by decide +kernel))))

end Props
end Undname
