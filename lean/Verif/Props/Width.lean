/-
  Property theorems C68: names for 32 and for 64 bits.
-/
import Verif.Props.Mixed
import Verif.Proof.Width

namespace Undname
namespace Props
open Spec Spec.Cxx

/-- **C68**: the name of a symbol for 64 bits and the one for 32 bits, written by the compiler, are demangled with the
same outcome, be it a text or an error: however long they are, whatever follows them, under every set of flags. -/
theorem C68_width {E : Env} {y : Sym} (h : y.Ok E) (hd : Distinct E y.keys) (rest rest' : Text) :
    demangle E (y.mangle true ++ rest) = demangle E (y.mangle false ++ rest') := by
  rw [← y.mix_true, ← y.mix_true, C67_verdict true h hd, C67_verdict false h hd, y.width]

/-- **C68**: the same of the names in which only some of the possible back-references are used, the same ones for both
widths. -/
theorem C68_width_mixed {E : Env} {y : Sym} (h : y.Ok E) (hd : Distinct E y.keys) (coins : Nat → Bool) (rest rest' : Text) :
    demangle E (y.mix true coins ++ rest) = demangle E (y.mix false coins ++ rest') := by
  rw [C67_verdict true h hd, C67_verdict false h hd, y.width]

/-- **C68**: and of the names without back-references. -/
theorem C68_width_spelled {E : Env} {y : Sym} (h : y.Ok E) (hd : Distinct E y.keys) (rest rest' : Text) :
    demangle E (y.spell true ++ rest) = demangle E (y.spell false ++ rest') := by
  rw [← y.mix_false, ← y.mix_false, C68_width_mixed h hd]

/-- **C68**: the same for the symbols which nothing may follow. -/
theorem C68_final_width {E : Env} {y : EndSym} (h : y.Ok E) (hd : Distinct E y.keys) :
    demangle E (y.mangle true) = demangle E (y.mangle false) := by
  rw [← y.mix_true, ← y.mix_true, C67_final_verdict true h hd, C67_final_verdict false h hd, y.width]

/-- **C68** and **C67**: the names which the compiler writes for the two widths are the best: if any choice of
back-references, for either width, gives a name that is demangled to some text, so are both of them. -/
theorem C68_compilers_choice {E : Env} {y : Sym} (h : y.Ok E) (hd : Distinct E y.keys) (w : Bool) {rest out : Text} (coins : Nat → Bool)
    (e : demangle E (y.mix w coins ++ rest) = .ok (.ok out)) (w' : Bool) (rest' : Text) :
    demangle E (y.mangle w' ++ rest') = .ok (.ok out) := by
  have := C67_compilers_choice w h hd coins e rest'
  cases w <;> cases w'
  · exact this
  · rwa [C68_width h hd rest' rest']
  · rwa [← C68_width h hd rest' rest']
  · exact this

/-- **C68** and **C67**: and if the name without any back-references is demangled for one width, so is every name for the other. -/
theorem C68_abbreviating {E : Env} {y : Sym} (h : y.Ok E) (hd : Distinct E y.keys) (w : Bool) {rest out : Text}
    (e : demangle E (y.spell w ++ rest) = .ok (.ok out)) (w' : Bool) (coins : Nat → Bool) (rest' : Text) :
    demangle E (y.mix w' coins ++ rest') = .ok (.ok out) := by
  have := (C67_abbreviating_is_safe w h hd e coins rest').1
  cases w <;> cases w'
  · exact this
  · rwa [C68_width_mixed h hd coins rest' rest']
  · rwa [← C68_width_mixed h hd coins rest' rest']
  · exact this

/-! A member function with pointers as parameters. -/

/-- `void A::f(int *, A &, int *) const`. -/
def cxxWidth : Decl := .fn (.member .publ false { c := true }) (.id c!"f") (.cons (.id c!"A") .nil)
  (.mk 'A' (.prim .Void false false) (.cons (.ptr (.star false false false) false (.prim .Int false false))
    (.cons (.ptr .ref false (.tag .Class (.cons (.id c!"A") .nil) false false))
    (.cons (.ptr (.star false false false) false (.prim .Int false false)) .nil))) false false)

example : cxxWidth.Ok E0 ∧ Distinct E0 cxxWidth.keys := by constructor <;> decide +kernel
example : (Sym.decl cxxWidth).mangle true = c!"?f@A@@QEBAXPEAHAEAV1@0@Z" ∧
    (Sym.decl cxxWidth).mangle false = c!"?f@A@@QBAXPAHAAV1@0@Z" := by decide +kernel
example : demangle E0 c!"?f@A@@QEBAXPEAHAEAV1@0@Z" = .ok (.ok c!"public: void __cdecl A::f(int *, class A &, int *) const") := by
  decide +kernel

end Props
end Undname
