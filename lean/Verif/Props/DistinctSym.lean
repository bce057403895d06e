/-
  Property theorems C60: different special symbols (tables, run-time type information, thunks, guards, functions that
  initialize variables) are demangled to different texts.
-/
import Verif.Proof.ReadSym
import Verif.Props.Distinct
import Verif.Props.Symbols

namespace Undname
namespace Props
open Spec Spec.Cxx

/-- **C60**: two plain symbols with one text are the same symbol. -/
theorem C60_symbols {E : Env} (hE : E.flags = Flags.default) {key : Text} {y z : Sym} (h : y.plain key = true) (h' : z.plain key = true)
    (e : y.cpp E = z.cpp E) : y = z :=
  Sym.cpp_inj hE h h' e

/-- **C60**: so for the symbols that nothing may follow. -/
theorem C60_final_symbols {E : Env} (hE : E.flags = Flags.default) {key : Text} {y z : EndSym} (h : y.plain key = true) (h' : z.plain key = true)
    (e : y.cpp E = z.cpp E) : y = z :=
  EndSym.cpp_inj hE h h' e

/-- **C60**: and no symbol of one sort has the text of a symbol of the other. -/
theorem C60_sorts {E : Env} (hE : E.flags = Flags.default) {key : Text} {y : Sym} {z : EndSym} (h : y.plain key = true) (h' : z.plain key = true) :
    y.cpp E ≠ z.cpp E :=
  cpp_cross hE h h'

/-- A mangled name: of a symbol, with anything after it, or of a symbol that nothing may follow. -/
inductive Mangled where
  | sym (y : Sym) (rest : Text)
  | fin (z : EndSym)

/-- The name, for 32 or 64 bits. -/
def Mangled.name (w : Bool) : Mangled → Text
  | .sym y rest => y.mangle w ++ rest
  | .fin z => z.mangle w

def Mangled.text (E : Env) : Mangled → Text
  | .sym y _ => y.cpp E
  | .fin z => z.cpp E

def Mangled.Ok (E : Env) : Mangled → Prop
  | .sym y _ => y.Ok E
  | .fin z => z.Ok E

def Mangled.plain (key : Text) : Mangled → Bool
  | .sym y _ => y.plain key
  | .fin z => z.plain key

/-- They are names of the same symbol. -/
def Mangled.Same : Mangled → Mangled → Prop
  | .sym y _, .sym y' _ => y = y'
  | .fin z, .fin z' => z = z'
  | _, _ => False

/-- **C60** and **C53**: for plain symbols, nothing but well-formedness is needed for the round trip. -/
theorem C60_round_trip {E : Env} (hE : E.flags = Flags.default) {key : Text} (hk : key.head?.any Char.isDigit = true) (w : Bool) {m : Mangled}
    (h : m.Ok E) (hp : m.plain key = true) : Shows E (m.name w) (m.text E) := by
  cases m with
  | sym y rest => exact C53_symbols w h (Cxx.plain_distinct hE hk (Sym.keys_plain hp)) rest
  | fin z => exact C53_final_symbols w h (Cxx.plain_distinct hE hk (EndSym.keys_plain hp))

/-- **C60**: if two mangled names of plain symbols, for 32 or 64 bits, are demangled to one text, they are names of the
same symbol. -/
theorem C60_demangled {E : Env} (hE : E.flags = Flags.default) {key : Text} (hk : key.head?.any Char.isDigit = true) (w w' : Bool) {m m' : Mangled}
    (h : m.Ok E) (hp : m.plain key = true) (h' : m'.Ok E) (hp' : m'.plain key = true) (out : Text)
    (e : demangle E (m.name w) = .ok (.ok out)) (e' : demangle E (m'.name w') = .ok (.ok out)) : m.Same m' := by
  have e := (shows_ok (C60_round_trip hE hk w h hp) e).symm.trans (shows_ok (C60_round_trip hE hk w' h' hp') e')
  cases m with
  | sym y rest =>
    cases m' with
    | sym z rest' => exact C60_symbols hE hp hp' e
    | fin z => exact absurd e (C60_sorts hE hp hp')
  | fin y =>
    cases m' with
    | sym z rest' => exact absurd e.symm (C60_sorts hE hp' hp)
    | fin z => exact C60_final_symbols hE hp hp' e

/-- **C60**: two mangled names of ordinary length, of different plain symbols, are demangled to different texts. -/
theorem C60_different {E : Env} (hE : E.flags = Flags.default) {key : Text} (hk : key.head?.any Char.isDigit = true) (w w' : Bool) {m m' : Mangled}
    (h : m.Ok E) (hp : m.plain key = true) (h' : m'.Ok E) (hp' : m'.plain key = true) (hne : ¬m.Same m')
    (hl : (m.name w).length ≤ 1024) (ht : utf8Len (m.text E) < 2 ^ 20) : demangle E (m.name w) ≠ demangle E (m'.name w') := by
  intro e
  have a := (C60_round_trip hE hk w h hp).short hl ht
  exact hne (C60_demangled hE hk w w' h hp h' hp' (m.text E) a (by rw [← e]; exact a))

/-! Concrete symbols. -/

example : symTable.plain c!"0" = true ∧ symInit.plain c!"0" = true := by decide +kernel

/-- The table of `std::vector<int>`, and the same for a base class. -/
example : demangle E0 c!"??_7?$vector@H@std@@6B@" ≠ demangle E0 c!"??_7?$vector@H@std@@6BBase@1@@" := by
  have ok : (Sym.table .vftable cxxVector true false .nil).Ok E0 := ⟨by decide +kernel, .inl rfl⟩
  have ok' : symTable.Ok E0 := ⟨by decide +kernel, .inr (by decide +kernel)⟩
  have h := C60_different (E := E0) (key := c!"0") rfl (by decide +kernel) true true
    (m := .sym (.table .vftable cxxVector true false .nil) []) (m' := .sym symTable []) ok (by decide +kernel)
    ok' (by decide +kernel)
    (by intro h; simp [Mangled.Same, symTable] at h) (by decide +kernel) (by decide +kernel)
  exact fun e => h (((congrArg (demangle E0) (by decide +kernel)).trans e).trans (congrArg (demangle E0) (by decide +kernel)))

/-- The descriptor of a type and the name in it. -/
example : demangle E0 c!"??_R0?AUC@@@8" = .ok (.ok c!"struct C `RTTI Type Descriptor'") ∧
    demangle E0 c!".?AUC@@" = .ok (.ok c!"struct C `RTTI Type Descriptor Name'") := by constructor <;> decide +kernel

/-- **C60** fails for what `plain` leaves out: whether a guard is visible, and its number if that is 0. -/
theorem C60_not_shown :
    demangle E0 c!"??_Bx@@51" = .ok (.ok c!"x::`local static guard'{2}") ∧
    demangle E0 c!"??_Bx@@4IA1" = .ok (.ok c!"x::`local static guard'{2}") ∧
    demangle E0 c!"??_Bx@@5" = demangle E0 c!"??_Bx@@5A@" := by
  refine ⟨?_, ?_, ?_⟩ <;> decide +kernel

end Props
end Undname
