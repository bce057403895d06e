/-
  Property theorems C65: the keys of anonymous namespaces do not matter.
-/
import Verif.Proof.AnonNodes
import Verif.Props.Verdict

namespace Undname
namespace Props
open Spec Spec.Cxx

/-- **C65**: give the anonymous namespaces of a symbol (C49, C53), of any size, other keys: different ones for different
namespaces, none of them the text of a name in the symbol. The mangled name is demangled as before: to the same text, or
with the same error. The word size and what follows the name do not matter either. -/
theorem C65_same_outcome {E : Env} {f : Text → Text} (hf : ∀ a b, f a = f b → a = b) (ha : ∀ k, '@' ∉ k → '@' ∉ f k) (w w' : Bool)
    {y : Sym} (h : y.Ok E) (hd : Distinct E y.keys) (hn : ∀ k ∈ anonKeys y.keys, f k ∉ otherTexts E y.keys)
    (rest rest' : Text) : demangle E ((y.mapKeys f).mangle w ++ rest) = demangle E (y.mangle w' ++ rest') := by
  rw [C59_verdict w (Sym.mapKeys_ok ha h) (by rw [Sym.keys_mapKeys]; exact hd.mapKeys hn), C59_verdict w' h hd,
    Sym.nodes_mapKeys hf, Sym.mapKeys_cpp, y.word w w']

/-- **C65**: the same for descriptors of types, and guards without a number. -/
theorem C65_final_outcome {E : Env} {f : Text → Text} (hf : ∀ a b, f a = f b → a = b) (ha : ∀ k, '@' ∉ k → '@' ∉ f k) (w w' : Bool)
    {y : EndSym} (h : y.Ok E) (hd : Distinct E y.keys)
    (hn : ∀ k ∈ anonKeys y.keys, f k ∉ otherTexts E y.keys) :
    demangle E ((y.mapKeys f).mangle w) = demangle E (y.mangle w') := by
  rw [C59_final_verdict w (EndSym.mapKeys_ok ha h) (by rw [EndSym.keys_mapKeys]; exact hd.mapKeys hn), C59_final_verdict w' h hd,
    EndSym.nodes_mapKeys hf, EndSym.mapKeys_cpp, y.word w w']

/-- **C65**: if the new keys of different namespaces are the same, the names may become shorter, as more parts of them are
repetitions; the text shown is still the same. -/
theorem C65_text {E : Env} {f : Text → Text} (ha : ∀ k, '@' ∉ k → '@' ∉ f k) (w : Bool)
    {y : Sym} (h : y.Ok E) (hd : Distinct E y.keys) (hn : ∀ k ∈ anonKeys y.keys, f k ∉ otherTexts E y.keys)
    (rest : Text) : Shows E ((y.mapKeys f).mangle w ++ rest) (y.cpp E) := by
  have := C53_symbols w (Sym.mapKeys_ok ha h) (by rw [Sym.keys_mapKeys]; exact hd.mapKeys hn) rest
  rwa [Sym.mapKeys_cpp] at this

/-! Concrete symbols. -/

/-- `void N::<anonymous>::f(A<N::<anonymous>::C>, <anonymous>::D)`, with two anonymous namespaces. -/
def anonSym : Sym :=
  let n : Path := .cons (.anon c!"0x1f2e") (.cons (.id c!"N") .nil)
  .decl (.fn (.free false) (.id c!"f") n (.mk 'A' (.prim .Void false false)
    (.cons (.tag .Class (.cons (.tm c!"A" (.ty (.tag .Class (.cons (.id c!"C") n) false false) .nil)) .nil) false false)
      (.cons (.tag .Struct (.cons (.id c!"D") (.cons (.anon c!"0x33") .nil)) false false) .nil)) false false))

/-- Another key for each. -/
def otherKey (k : Text) : Text := 'W' :: k

example : anonSym.mangle true = c!"?f@?A0x1f2e@N@@YAXV?$A@VC@?A0x1f2e@N@@@@UD@?A0x33@@@Z" := by decide +kernel
example : (anonSym.mapKeys otherKey).mangle true = c!"?f@?AW0x1f2e@N@@YAXV?$A@VC@?AW0x1f2e@N@@@@UD@?AW0x33@@@Z" := by decide +kernel
example : demangle E0 c!"?f@?AW0x1f2e@N@@YAXV?$A@VC@?AW0x1f2e@N@@@@UD@?AW0x33@@@Z" =
    demangle E0 c!"?f@?A0x1f2e@N@@YAXV?$A@VC@?A0x1f2e@N@@@@UD@?A0x33@@@Z" := by
  have h := C65_same_outcome (E := E0) (f := otherKey) (by intro a b e; cases e; rfl) (by intro k h; simpa [otherKey] using h) true true
    (y := anonSym) (show Decl.Ok _ _ by decide +kernel) (by decide +kernel) (by decide +kernel) [] []
  rw [List.append_nil, List.append_nil] at h
  exact (congrArg (demangle E0) (by decide +kernel)).trans (h.trans (congrArg (demangle E0) (by decide +kernel)))

example : demangle E0 c!".?AUD@?AW0x33@@" = demangle E0 c!".?AUD@?A0x33@@" := by
  have h := C65_final_outcome (E := E0) (f := otherKey) (by intro a b e; cases e; rfl) (by intro k h; simpa [otherKey] using h) true true
    (y := .typeName (.tag .Struct (.cons (.id c!"D") (.cons (.anon c!"0x33") .nil)) false false))
    (show Cxx.Ty.Ok _ _ by decide +kernel) (by decide +kernel) (by decide +kernel)
  exact (congrArg (demangle E0) (by decide +kernel)).trans (h.trans (congrArg (demangle E0) (by decide +kernel)))

/-- **C65** does not hold if a key is the text of another name: the class `N` would not be remembered. -/
theorem C65_key_is_name :
    demangle E0 c!"?f@?A0x1@@YAXVN@@PAV2@@Z" = .ok (.ok c!"void __cdecl `anonymous namespace'::f(class N, class N *)") ∧
    demangle E0 c!"?f@?AN@@YAXVN@@PAV2@@Z" = .ok (.error .InvalidBackRef) := by
  constructor <;> decide +kernel

end Props
end Undname
