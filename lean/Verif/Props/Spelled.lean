/-
  Property theorems C66: back-references are only abbreviations.
-/
import Verif.Proof.Shorter
import Verif.Props.Symbols

namespace Undname
namespace Props
open Spec Spec.Cxx

/-- **C66**: a name in which every part and every parameter is written in full, without a single back-reference, is
demangled to its declaration in C++, under every set of flags, whatever follows it, and even if different names
have the same text under these flags. -/
theorem C66_spelled_out {E : Env} (w : Bool) {d : Decl} (h : d.Ok E) (rest : Text) :
    Shows E (d.spell w ++ rest) (d.cpp E) := by
  obtain ⟨t, x, tb', g⟩ := d.fgram w h {}
  have := shows_sym g.sym rest
  rw [← g.eq, g.alike.text_eq] at this
  have e : (d.tree E).text E = d.cpp E := (d.pr_eq h [] (Ctx.nil E)).trans (List.nil_append _)
  rwa [e] at this

/-- **C66**: back-references never make a name longer. -/
theorem C66_shorter (w : Bool) (d : Decl) : (d.mangle w {}).1.length ≤ (d.spell w).length := d.mangle_le w {}

/-- **C66**: the name with all the back-references of the compiler and the name written in full have the same text. -/
theorem C66_abbreviations {E : Env} (w : Bool) {d : Decl} (h : d.Ok E) (hd : Distinct E d.keys)
    (h2 : (d.spell w).length ≤ 1024) :
    demangle E (d.mangle w {}).1 = demangle E (d.spell w) := by
  have h1 := C66_shorter w d
  have a := C49_round_trip w h hd []
  have b := C66_spelled_out w h []
  rw [List.append_nil] at a b
  rcases a with a | ⟨a, -⟩
  · rcases b with b | ⟨b, -⟩
    · rw [a, b]
    · omega
  · omega

/-- **C66**: the same of every other symbol: tables, descriptors, thunks, guards, initializers. -/
theorem C66_symbols {E : Env} (w : Bool) {y : Sym} (h : y.Ok E) (rest : Text) :
    Shows E (y.spell w ++ rest) (y.cpp E) := by
  obtain ⟨t, x, r, tb, e, g, ht⟩ := Sym.fread w h
  have := shows_sym g (r ++ rest)
  rw [ht] at this
  rwa [e, List.append_assoc]

/-- **C66**: the same of the symbols which nothing may follow. -/
theorem C66_final_symbols {E : Env} (w : Bool) {y : EndSym} (h : y.Ok E) : Shows E (y.spell w) (y.cpp E) := by
  obtain ⟨t, tb, g, ht⟩ := EndSym.fread w h
  have := shows_symEnd g
  rwa [ht] at this

/-- **C66**: the names of other symbols, abbreviated and written in full, have the same text. -/
theorem C66_symbol_abbreviations {E : Env} (w : Bool) {y : Sym} (h : y.Ok E) (hd : Distinct E y.keys)
    (h2 : (y.spell w).length ≤ 1024) : demangle E (y.mangle w) = demangle E (y.spell w) := by
  have h1 := y.mangle_le w
  have a := C53_symbols w h hd []
  have b := C66_symbols w h []
  rw [List.append_nil] at a b
  rcases a with a | ⟨a, -⟩
  · rcases b with b | ⟨b, -⟩
    · rw [a, b]
    · omega
  · omega

theorem C66_final_abbreviations {E : Env} (w : Bool) {y : EndSym} (h : y.Ok E) (hd : Distinct E y.keys)
    (h2 : (y.spell w).length ≤ 1024) : demangle E (y.mangle w) = demangle E (y.spell w) := by
  have h1 := y.mangle_le w
  have a := C53_final_symbols w h hd
  have b := C66_final_symbols w h
  rcases a with a | ⟨a, -⟩
  · rcases b with b | ⟨b, -⟩
    · rw [a, b]
    · omega
  · omega

/-! Concrete declarations: a function with two strings, a table, and the pair of templates whose names are the same without
the kind of class, which only the name written in full tells apart. -/

example : (cxxFn.mangle true {}).1 =
    c!"?f@@YAXV?$basic_string@DU?$char_traits@D@std@@V?$allocator@D@2@@std@@0@Z" := by decide +kernel
example : cxxFn.spell true =
    c!"?f@@YAXV?$basic_string@DU?$char_traits@D@std@@V?$allocator@D@std@@@std@@V?$basic_string@DU?$char_traits@D@std@@V?$allocator@D@std@@@std@@@Z" := by
  decide +kernel

example : demangle E0 c!"?f@@YAXV?$basic_string@DU?$char_traits@D@std@@V?$allocator@D@2@@std@@0@Z" =
    demangle E0 c!"?f@@YAXV?$basic_string@DU?$char_traits@D@std@@V?$allocator@D@std@@@std@@V?$basic_string@DU?$char_traits@D@std@@V?$allocator@D@std@@@std@@@Z" :=
  C66_abbreviations true (d := cxxFn) (show Decl.Ok _ _ by decide +kernel) (by decide +kernel) (by decide +kernel)

/-- The table of `std::vector<int>` for its base `std::Base`. -/
example : symTable.mangle true = c!"??_7?$vector@H@std@@6BBase@1@@" ∧ symTable.spell true = c!"??_7?$vector@H@std@@6BBase@std@@@" := by
  decide +kernel
example : demangle E0 c!"??_7?$vector@H@std@@6BBase@1@@" = demangle E0 c!"??_7?$vector@H@std@@6BBase@std@@@" :=
  C66_symbol_abbreviations true (y := symTable) ⟨by decide +kernel, .inr (by decide +kernel)⟩ (by decide +kernel) (by decide +kernel)

/-- The twins of `C49_distinct_needed`: rejected with their back-reference, demangled when written in full. -/
theorem C66_more_than_abbreviated : cxxTwins.Ok (EF Flags.NO_TAG_SPECIFIER) ∧
    demangle (EF Flags.NO_TAG_SPECIFIER) (cxxTwins.mangle false {}).1 = .ok (.error .InvalidBackRef) ∧
    cxxTwins.spell false = c!"?f@@YAXV?$A@VB@@@@V?$A@UB@@@@VC@@PAVC@@@Z" ∧
    demangle (EF Flags.NO_TAG_SPECIFIER) (cxxTwins.spell false) = .ok (.ok (cxxTwins.cpp (EF Flags.NO_TAG_SPECIFIER))) := by
  refine ⟨?_, ?_, ?_, ?_⟩ <;> decide +kernel

end Props
end Undname
