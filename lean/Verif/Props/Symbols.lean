/-
  Property theorems C53: the other symbols of a compiler.
-/
import Verif.Proof.ManglerSym
import Verif.Props.RoundTrip

namespace Undname
namespace Props
open Spec Spec.Cxx

/-- **C53**: every symbol of `Spec/MangledSym.lean` (tables of a class, run-time type information, virtual call
thunks, guards of static variables, functions that initialize and destroy variables, and everything of C49), over
names and types as in C49, with back-references, is demangled to its text, under every set of flags and whatever
follows the name. -/
theorem C53_symbols {E : Env} (w : Bool) {y : Sym} (h : y.Ok E) (hd : Distinct E y.keys) (rest : Text) :
    Shows E (y.mangle w ++ rest) (y.cpp E) := by
  obtain ⟨t, x, r, tb, e, g, ht⟩ := Sym.read w h hd
  have := shows_sym g (r ++ rest)
  rw [ht] at this
  rwa [e, List.append_assoc]

/-- **C53**: descriptors of types, and guards without a number. Nothing may follow these names. -/
theorem C53_final_symbols {E : Env} (w : Bool) {y : EndSym} (h : y.Ok E) (hd : Distinct E y.keys) :
    Shows E (y.mangle w) (y.cpp E) := by
  obtain ⟨t, tb, g, ht⟩ := EndSym.read w h hd
  have := shows_symEnd g
  rwa [ht] at this

/-- The name of a type is refused if anything follows it: see C22. Here: a descriptor. -/
example : demangle E0 c!".?AVA@@x" = .ok (.error .InvalidTypeinfoName) := by decide +kernel

/-! Concrete symbols. -/

/-- `std::vector<int>`. -/
def cxxVector : Cxx.Path := .cons (.tm c!"vector" (.ty (.prim .Int false false) .nil)) (.cons (.id c!"std") .nil)

/-- The table of functions of `std::vector<int>` for its base `std::Base`. -/
def symTable : Sym := .table .vftable cxxVector true false (.cons (.id c!"Base") (.cons (.id c!"std") .nil))

example : symTable.Ok E0 ∧ Distinct E0 symTable.keys := ⟨by
  refine ⟨?_, .inr ?_⟩ <;> decide +kernel, by decide +kernel⟩
example : demangle E0 c!"??_7?$vector@H@std@@6BBase@1@@" = .ok (.ok c!"const std::vector<int>::`vftable'{for `std::Base'}") := by
  have h := (C53_symbols (E := E0) true (y := symTable) ⟨by decide +kernel, .inr (by decide +kernel)⟩ (by decide +kernel) []).short
    (by decide +kernel) (by decide +kernel)
  exact (congrArg (demangle E0) (by decide +kernel)).trans (h.trans (by decide +kernel))

example : demangle (EF Flags.NAME_ONLY) c!"??_7?$vector@H@std@@6BBase@1@@" = .ok (.ok c!"std::vector<int>::`vftable'{for `std::Base'}") := by
  have h := (C53_symbols (E := EF Flags.NAME_ONLY) true (y := symTable) ⟨by decide +kernel, .inr (by decide +kernel)⟩ (by decide +kernel) []).short
    (by decide +kernel) (by decide +kernel)
  exact (congrArg (demangle _) (by decide +kernel)).trans (h.trans (by decide +kernel))

/-- The function that initializes the static member `int *C::x`. -/
def symInit : Sym := .initVar false (.member .publ) (.id c!"x") (.cons (.id c!"C") .nil) (.ptr (.star false false false) false (.prim .Int false false))
  (.free false) (.mk 'A' (.prim .Void false false) .nil false false)

example : demangle E0 c!"??__E?x@C@@2PEAHEA@@YAXXZ" =
    .ok (.ok c!"void __cdecl `dynamic initializer for `public: static int *C::x''(void)") := by
  have h := (C53_symbols (E := E0) true (y := symInit) ⟨by decide +kernel, by decide +kernel, by decide +kernel⟩ (by decide +kernel) []).short
    (by decide +kernel) (by decide +kernel)
  exact (congrArg (demangle E0) (by decide +kernel)).trans (h.trans (by decide +kernel))

/-- The function that destroys the variable `v` in the namespace `N`. -/
def symFini : Sym := .initName true c!"v" (.cons (.id c!"N") .nil) (.free false) (.mk 'A' (.prim .Void false false) .nil false false)

example : demangle E0 c!"??__Fv@N@@YAXXZ" = .ok (.ok c!"void __cdecl `dynamic atexit destructor for 'N::v''(void)") := by
  have h := (C53_symbols (E := E0) true (y := symFini) (show Decl.Ok _ _ by decide +kernel) (by decide +kernel) []).short
    (by decide +kernel) (by decide +kernel)
  exact (congrArg (demangle E0) (by decide +kernel)).trans (h.trans (by decide +kernel))

/-- The descriptor of the type `std::vector<int> const`. -/
def symType : EndSym := .typeDescriptor (.tag .Class cxxVector true false)

example : demangle E0 c!"??_R0?BV?$vector@H@std@@@8" = .ok (.ok c!"class std::vector<int> const `RTTI Type Descriptor'") := by
  have h := (C53_final_symbols (E := E0) true (y := symType) (show Cxx.Ty.Ok _ _ by decide +kernel) (by decide +kernel)).short
    (by decide +kernel) (by decide +kernel)
  exact (congrArg (demangle E0) (by decide +kernel)).trans (h.trans (by decide +kernel))

/-- A base class descriptor, a call thunk and a guard. -/
def symBase : Sym := .baseDescriptor 0 (-1) 0 64 (.cons (.id c!"A") .nil)
def symCall : Sym := .vcall (.cons (.id c!"A") .nil) 8 'A'
def symGuard : Sym := .guard false true (.cons (.loc 2 cxxF) .nil) 3

example : demangle E0 c!"??_R1A@?0A@EA@A@@8" = .ok (.ok c!"A::`RTTI Base Class Descriptor at (0, -1, 0, 64)'") := by
  have h := (C53_symbols (E := E0) true (y := symBase) ⟨by decide, by decide +kernel⟩ (by decide +kernel) []).short (by decide +kernel) (by decide +kernel)
  exact (congrArg (demangle E0) (by decide +kernel)).trans (h.trans (by decide +kernel))
example : demangle E0 c!"??_9A@@$B7AA" = .ok (.ok c!"[thunk]: __cdecl A::`vcall'{8, {flat}}") := by
  have h := (C53_symbols (E := E0) true (y := symCall) ⟨by decide, by decide, by decide +kernel⟩ (by decide +kernel) []).short (by decide +kernel) (by decide +kernel)
  exact (congrArg (demangle E0) (by decide +kernel)).trans (h.trans (by decide +kernel))
example : demangle E0 c!"??_B?1??f@@YAHXZ@52" = .ok (.ok c!"`int __cdecl f(void)'::`2'::`local static guard'{3}") := by
  have h := (C53_symbols (E := E0) true (y := symGuard) ⟨by decide, by decide +kernel⟩ (by decide +kernel) []).short (by decide +kernel) (by decide +kernel)
  exact (congrArg (demangle E0) (by decide +kernel)).trans (h.trans (by decide +kernel))

end Props
end Undname
