/-
  Property theorems C13-C15: integers in template arguments.
-/
import Verif.Proof.Named

namespace Undname
namespace Props
open Spec

variable {E : Env} (hE : E.flags = Flags.default)
include hE

/-- **C13**: an instantiation of a function template with any integers of 64 bits and any types prints all its
arguments, integers in decimal with their sign. -/
theorem C13_template_arguments (w : Bool) {s : Text} {outer : List Text} (hn : IsPath (s :: outer)) {as : List Arg}
    (ha : ∀ a ∈ as, a.Ok) {f : Fn} (hf : f.Ok) {conv : Text} (hc : convWord f.cc = some conv)
    (hv : f.variadic = true → '(' ∉ (f.params.map (Ty.cpp E)).flatten) (rest : Text) :
    Shows E (c!"?" ++ mangleTmpl w s as ++ manglePath outer ++ c!"Y" ++ f.mangle w ++ rest)
      (declareFn E conv (showTmpl E s as :: outer) f) := by
  have hP := plain_default hE
  obtain ⟨tb2, g⟩ := Arg.list_gram (E := E) w ha (({} : Tbl).note s)
  have g1 := tmpl_gram (hn.2 s (by simp)) g {}
  obtain ⟨tb3, g2⟩ := scopes_gram (E := E) (p := outer) (fun s hs => hn.2 s (by simp [hs])) {}
  have := shows_global hP w hf hc hv (.sTmpl g1) rfl rfl g2 (nt := showPath (showTmpl E s as :: outer)) ?_ rest
  · simpa [mangleTmpl, declareFn] using this
  · refine name_out (fun w => ?_) outer
    simp only [T.pr, Pr.ofText, T.one, Pr.cons, targsOut]
    rw [tl_prints (Arg.tree_out hP)]
    simp [showTmpl]

/-- **C13**: every encoding of a number denotes it. -/
theorem C13_integer_encodings {s : Text} {outer : List Text} (hn : IsPath (s :: outer)) {x : Text} {n : Nat} {neg : Bool}
    (hx : EncInt x n neg) (rest : Text) :
    Shows E (c!"??$" ++ s ++ c!"@$0" ++ x ++ c!"@" ++ manglePath outer ++ c!"YAXXZ" ++ rest)
      (c!"void __cdecl " ++ showPath ((s ++ c!"<" ++ (if neg then c!"-" else []) ++ nat n ++ c!">") :: outer) ++ c!"(void)") := by
  have hP := plain_default hE
  have g1 := tmpl_gram (E := E) (hn.2 s (by simp)) (.taCons (.aInt (m := false) hx) .taNil) {}
  obtain ⟨tb3, g2⟩ := scopes_gram (E := E) (p := outer) (fun s hs => hn.2 s (by simp [hs])) {}
  have := shows_global hP false (f := { cc := 'A', ret := some (.prim .Void false false), params := [] })
    ⟨by intro t h; cases h; trivial, by simp⟩ (conv := c!"__cdecl") rfl (by simp) (.sTmpl g1) rfl rfl g2
    (nt := showPath ((s ++ c!"<" ++ (if neg then c!"-" else []) ++ nat n ++ c!">") :: outer)) ?_ rest
  · have e1 : ∀ f : Fn, f = { cc := 'A', ret := some (.prim .Void false false), params := [] } → f.cppRet E = c!"void " ∧ f.cppParams E = c!"(void)" ∧ f.mangle false = c!"AXXZ" := by
      rintro f rfl; exact ⟨rfl, rfl, rfl⟩
    obtain ⟨e1, e2, e3⟩ := e1 _ rfl
    rw [e1, e2, e3] at this
    simpa using this
  · refine name_out (fun w => ?_) outer
    simp [T.pr, Pr.ofText, T.one, Pr.cons, Pr.nil, targsOut]

/-- **C14**: hexadecimal numbers of any length are accepted and taken modulo 2^64. -/
theorem C14_wraps {s : Text} (hs : Name s) {ds : Text} (hd : ∀ c ∈ ds, IsHex c) (rest : Text) :
    Shows E (c!"??$" ++ s ++ c!"@$0" ++ ds ++ c!"@@@YAXXZ" ++ rest)
      (c!"void __cdecl " ++ s ++ c!"<" ++ nat (hexValue ds % 2 ^ 64) ++ c!">(void)") := by
  have := C13_integer_encodings hE (s := s) (outer := []) ⟨by simp, by simpa using hs⟩ (.pos (.hex ds hd)) rest
  simpa [manglePath, showPath, join] using this

/-- **C15**: a pair of signed numbers (`$F`, a pointer to a data member) below 2^63 in absolute value is accepted
and printed with its signs. -/
theorem C15_signed {s : Text} (hs : Name s) {x y : Text} {a b : Nat} {na nb : Bool} (hx : EncInt x a na) (hy : EncInt y b nb)
    (ha : a < 2 ^ 63) (hb : b < 2 ^ 63) (rest : Text) :
    Shows E (c!"??$" ++ s ++ c!"@$F" ++ x ++ y ++ c!"@@YAXXZ" ++ rest)
      (c!"void __cdecl " ++ s ++ c!"<{" ++ sint (if na then -(a : Int) else a) ++ c!", " ++ sint (if nb then -(b : Int) else b) ++ c!"}>(void)") := by
  have hP := plain_default hE
  have g1 := tmpl_gram (E := E) hs (.taCons (.aData (m := false) (ch := 'F') (offs := [if na then -(a : Int) else a, if nb then -(b : Int) else b])
    (show ('F', 2) ∈ [('F', 2), ('G', 3)] by decide) (.cons (.mk hx ha) (.cons (.mk hy hb) .nil))) .taNil) {}
  have := shows_global hP false (f := { cc := 'A', ret := some (.prim .Void false false), params := [] })
    ⟨by intro t h; cases h; trivial, by simp⟩ (conv := c!"__cdecl") rfl (by simp) (.sTmpl g1) rfl rfl (.scNil)
    (nt := s ++ c!"<{" ++ sint (if na then -(a : Int) else a) ++ c!", " ++ sint (if nb then -(b : Int) else b) ++ c!"}>") ?_ rest
  · have e1 : ∀ f : Fn, f = { cc := 'A', ret := some (.prim .Void false false), params := [] } → f.cppRet E = c!"void " ∧ f.cppParams E = c!"(void)" ∧ f.mangle false = c!"AXXZ" := by
      rintro f rfl; exact ⟨rfl, rfl, rfl⟩
    obtain ⟨e1, e2, e3⟩ := e1 _ rfl
    rw [e1, e2, e3] at this
    simpa using this
  · intro w
    have := name_out (E := E) (i := .named s (T.one (.arr (.cons (.addr false .nil [if na then -(a : Int) else a, if nb then -(b : Int) else b]) .nil))))
      (s := s ++ c!"<{" ++ sint (if na then -(a : Int) else a) ++ c!", " ++ sint (if nb then -(b : Int) else b) ++ c!"}>") (fun w => by
      simp [T.pr, Pr.ofText, T.one, Pr.cons, Pr.nil, targsOut, addrOut, List.intersperse]) [] w
    simpa [pathT, tl, showPath, join] using this

omit hE

example : demangle E0 c!"??$f@$0PPPPPPPPPPPPPPPP@PEBD$0?JN@@N@@YAXH@Z" =
    .ok (.ok c!"void __cdecl N::f<18446744073709551615, char const *, -157>(int)") := by
  have := C13_template_arguments (E := E0) rfl true (s := c!"f") (outer := [c!"N"]) (by decide)
    (as := [.int false 18446744073709551615, .ty (.ptr false false (.prim .Char true false)), .int true 157])
    (by decide +kernel) (f := { cc := 'A', ret := some (.prim .Void false false), params := [.prim .Int false false] })
    ⟨by intro t h; cases h; trivial, by decide⟩ rfl (by simp) []
  have h := this.short (by decide +kernel) (by decide +kernel)
  exact (congrArg (demangle E0) (by decide +kernel)).trans (h.trans (by decide +kernel))

/-- Seventeen digits: the first is lost. -/
example : demangle E0 c!"??$f@$0BAAAAAAAAAAAAAAAB@@@YAXXZ" = .ok (.ok c!"void __cdecl f<1>(void)") := by
  have := C14_wraps (E := E0) rfl (s := c!"f") (by decide) (ds := c!"BAAAAAAAAAAAAAAAB") (by decide) []
  exact this.short (by decide +kernel) (by decide +kernel)

example : demangle E0 c!"??$f@$F?3BA@@@YAXXZ" = .ok (.ok c!"void __cdecl f<{-4, 16}>(void)") := by
  have := C15_signed (E := E0) rfl (s := c!"f") (by decide) (.neg (.digit 3 (by decide))) (.pos (.hex c!"BA" (by decide)))
    (by decide) (by decide) []
  exact this.short (by decide +kernel) (by decide +kernel)

end Props
end Undname
