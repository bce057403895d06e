/-
  Property theorem C36: operator names.
-/
import Verif.Proof.Named

namespace Undname
namespace Props
open Spec

/-- The codes of operators (after the first `?`) and what they are called. -/
def operatorCodes : List (Text × Text) :=
  (basicOps.map fun p => (['?', p.1], opName p.2)) ++ (underOps.map fun p => (['?', '_', p.1], opName p.2)) ++
    dunderOps.map fun p => (['?', '_', '_', p.1], opName p.2)

example : operatorCodes.length = 64 ∧ (c!"?H", c!"operator+") ∈ operatorCodes ∧ (c!"?_U", c!"operator new[]") ∈ operatorCodes ∧
    (c!"?__M", c!"operator<=>") ∈ operatorCodes := by decide

theorem operator_gram {E : Env} {code name : Text} (h : (code, name) ∈ operatorCodes) :
    ∃ k, name = opName k ∧ Gram E .sname {} (.op (some k) .nil) code {} := by
  simp only [operatorCodes, List.mem_append, List.mem_map, Prod.exists, Prod.mk.injEq] at h
  rcases h with (⟨c, k, h, rfl, rfl⟩ | ⟨c, k, h, rfl, rfl⟩) | ⟨c, k, h, rfl, rfl⟩
  · exact ⟨k, rfl, .sFull (.fOp h)⟩
  · exact ⟨k, rfl, .sFull (.fOpUnder h)⟩
  · exact ⟨k, rfl, .sFull (.fOpDunder h)⟩

theorem op_out {E : Env} (k : IFK) (w : Text) : ((T.op (some k) .nil).pr E).out w = w ++ opName k := by
  simp [T.pr, Pr.ofText, targsOut, Pr.nil]

variable {E : Env} (hE : E.flags = Flags.default)
include hE

/-- **C36**: an operator at global or namespace scope. -/
theorem C36_operators {code name : Text} (h : (code, name) ∈ operatorCodes) (w : Bool) {outer : List Text} (ho : ∀ s ∈ outer, Name s)
    {f : Fn} (hf : f.Ok) {conv : Text} (hc : convWord f.cc = some conv)
    (hv : f.variadic = true → '(' ∉ (f.params.map (Ty.cpp E)).flatten) (rest : Text) :
    Shows E (c!"?" ++ code ++ manglePath outer ++ c!"Y" ++ f.mangle w ++ rest) (declareFn E conv (name :: outer) f) := by
  obtain ⟨k, rfl, g⟩ := operator_gram (E := E) h
  obtain ⟨tb, gs⟩ := scopes_gram (E := E) ho {}
  have := shows_global (plain_default hE) w hf hc hv g rfl rfl gs (name_out (op_out k) outer) rest
  simpa [declareFn] using this

/-- **C36**: an operator of a class. -/
theorem C36_member_operators {code name : Text} (h : (code, name) ∈ operatorCodes) (w : Bool) {cls : List Text} (ho : ∀ s ∈ cls, Name s)
    {f : Fn} (hf : f.Ok) {conv : Text} (hc : convWord f.cc = some conv)
    (hv : f.variadic = true → '(' ∉ (f.params.map (Ty.cpp E)).flatten)
    {ac : Char} {what : Text} {this : Bool} (hm : (ac, what, this) ∈ memberCodes) (c v : Bool) (rest : Text) :
    Shows E (c!"?" ++ code ++ manglePath cls ++ [ac] ++ (if this then Ty.wide w ++ [Ty.cvLetter c v] else []) ++ f.mangle w ++ rest)
      (declareMember E what conv (name :: cls) this c v f) := by
  obtain ⟨k, rfl, g⟩ := operator_gram (E := E) h
  obtain ⟨tb, gs⟩ := scopes_gram (E := E) ho {}
  have := shows_member (plain_default hE) w hf hc hv g rfl rfl gs (name_out (op_out k) cls) hm c v rest
  simpa [declareMember] using this

/-- **C36**: a user-defined literal `operator ""s`. -/
theorem C36_literal_operators {s : Text} (hs : s ≠ []) (hat : '@' ∉ s) (w : Bool) {outer : List Text} (ho : ∀ s ∈ outer, Name s)
    {f : Fn} (hf : f.Ok) {conv : Text} (hc : convWord f.cc = some conv)
    (hv : f.variadic = true → '(' ∉ (f.params.map (Ty.cpp E)).flatten) (rest : Text) :
    Shows E (c!"??__K" ++ s ++ c!"@" ++ manglePath outer ++ c!"Y" ++ f.mangle w ++ rest)
      (declareFn E conv ((c!"operator \"\"" ++ s) :: outer) f) := by
  obtain ⟨tb, gs⟩ := scopes_gram (E := E) ho {}
  have := shows_global (plain_default hE) w hf hc hv (.sFull (.fLit hs hat)) rfl rfl gs
    (name_out (s := c!"operator \"\"" ++ s) (fun w => by simp [T.pr, Pr.ofText, targsOut, Pr.nil]) outer) rest
  simpa [declareFn] using this

omit hE

example : demangle E0 c!"??HN@@YAHAEBUS@@0@Z" = .ok (.ok c!"int __cdecl N::operator+(struct S const &, struct S const &)") := by decide +kernel

example : demangle E0 c!"??HN@@YAHAEBUS@@H@Z" = .ok (.ok c!"int __cdecl N::operator+(struct S const &, int)") := by
  have := C36_operators (E := E0) rfl (code := c!"?H") (name := c!"operator+") (by decide) true (outer := [c!"N"]) (by decide)
    (f := { cc := 'A', ret := some (.prim .Int false false), params := [.ref (.tag .Struct [c!"S"] true false), .prim .Int false false] })
    ⟨by intro t h; cases h; trivial, by decide⟩ rfl (by simp) []
  exact this.short (by decide) (by decide +kernel)

end Props
end Undname
