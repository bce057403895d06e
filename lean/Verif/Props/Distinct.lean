/-
  Property theorems C55: different declarations are demangled to different texts.
-/
import Verif.Proof.PlainKeys
import Verif.Props.RoundTrip

namespace Undname
namespace Props
open Spec Spec.Cxx

/-- **C55**: two plain types with one text are the same type. -/
theorem C55_types {E : Env} (hE : E.flags = Flags.default) {key : Text} {t t' : Cxx.Ty} (h : t.plain key = true) (h' : t'.plain key = true)
    (e : t.cpp E = t'.cpp E) : t = t' :=
  Cxx.Ty.cpp_inj hE h h' e

/-- **C55**: two plain declarations with one text are the same declaration. -/
theorem C55_declarations {E : Env} (hE : E.flags = Flags.default) {key : Text} {d d' : Decl} (h : d.plain key = true) (h' : d'.plain key = true)
    (e : d.cpp E = d'.cpp E) : d = d' :=
  Decl.cpp_inj hE h h' e

/-- A successful call for a name that shows a text returns that text. -/
theorem shows_ok {E : Env} {m out out' : Text} (h : Shows E m out) (hd : demangle E m = .ok (.ok out')) : out' = out := by
  rcases h with h | ⟨-, h⟩
  · rw [h] at hd
    split at hd <;> simp_all
  · rw [h] at hd; simp at hd

/-- **C55** and **C49**: for plain declarations, nothing but well-formedness is needed for the round trip. -/
theorem C55_round_trip {E : Env} (hE : E.flags = Flags.default) {key : Text} (hk : key.head?.any Char.isDigit = true) (w : Bool) {d : Decl}
    (h : d.Ok E) (hp : d.plain key = true) (rest : Text) : Shows E ((d.mangle w {}).1 ++ rest) (d.cpp E) :=
  C49_round_trip w h (Decl.plain_distinct hE hk hp) rest

/-- **C55**: if the mangled names of two plain declarations, for 32 or 64 bits and with anything after them, are
demangled to one text, then they are names of the same declaration. -/
theorem C55_demangled {E : Env} (hE : E.flags = Flags.default) {key : Text} (hk : key.head?.any Char.isDigit = true) (w w' : Bool) {d d' : Decl}
    (h : d.Ok E) (hp : d.plain key = true) (h' : d'.Ok E) (hp' : d'.plain key = true) (rest rest' out : Text)
    (e : demangle E ((d.mangle w {}).1 ++ rest) = .ok (.ok out)) (e' : demangle E ((d'.mangle w' {}).1 ++ rest') = .ok (.ok out)) : d = d' :=
  C55_declarations hE hp hp' ((shows_ok (C55_round_trip hE hk w h hp rest) e).symm.trans (shows_ok (C55_round_trip hE hk w' h' hp' rest') e'))

/-- **C55**: two mangled names of ordinary length, of different plain declarations, are demangled to different texts. -/
theorem C55_different {E : Env} (hE : E.flags = Flags.default) {key : Text} (hk : key.head?.any Char.isDigit = true) (w w' : Bool) {d d' : Decl}
    (h : d.Ok E) (hp : d.plain key = true) (h' : d'.Ok E) (hp' : d'.plain key = true) (hne : d ≠ d')
    (hl : (d.mangle w {}).1.length ≤ 1024) (ht : utf8Len (d.cpp E) < 2 ^ 20) :
    demangle E (d.mangle w {}).1 ≠ demangle E (d'.mangle w' {}).1 := by
  intro e
  have a := C55_round_trip hE hk w h hp []
  rw [List.append_nil] at a
  have a := a.short hl ht
  have b := C55_demangled hE hk w w' h hp h' hp' [] [] (d.cpp E) (by rw [List.append_nil]; exact a) (by rw [List.append_nil, ← e]; exact a)
  exact hne b

/-! Concrete declarations. -/

/-- `class N::<anonymous>::C`. -/
def anonC : Cxx.Ty := .tag .Class (.cons (.id c!"C") (.cons (.anon c!"0xdeadbeef") (.cons (.id c!"N") .nil))) false false

/-- `int (*f(C, C const &, int (&)[3]))(char)`, in a template instantiation. -/
def plainF (b : Bool) : Decl := .fn (.free false) (.tm c!"f" (.ty (.prim .Int false false) (.int true 7 .nil))) (.cons (.id c!"N") .nil)
  (.mk 'A' (.fptr (.star false false false) (.mk 'A' (.prim .Int false false) (.cons (.prim .Char false false) .nil) b false))
    (.cons anonC (.cons (.ptr .ref false (.tag .Class (.cons (.id c!"C") (.cons (.anon c!"0xdeadbeef") (.cons (.id c!"N") .nil))) true false))
      (.cons (.aptr .ref false false [3] (.prim .Int false false)) .nil))) false false)

example : (plainF false).cpp E0 =
    c!"int (__cdecl * __cdecl N::f<int, -7>(class N::`anonymous namespace'::C, class N::`anonymous namespace'::C const &, int (&)[3]))(char)" := by
  decide +kernel
example : ((plainF false).mangle true {}).1 =
    c!"??$f@H$0?6@N@@YAP6AHD@ZVC@?A0xdeadbeef@0@AEBV1?A0xdeadbeef@0@AEAY02H@Z" := by decide +kernel
example : demangle E0 ((plainF false).mangle true {}).1 ≠ demangle E0 ((plainF true).mangle true {}).1 :=
  C55_different (E := E0) (key := c!"0xdeadbeef") rfl (by decide +kernel) true true (by decide +kernel) (by decide +kernel) (by decide +kernel)
    (by decide +kernel) (by decide +kernel) (by decide +kernel) (by decide +kernel)
example : cxxFn.plain [] = true ∧ cxxVar.plain [] = true ∧ cxxThunk.plain [] = true ∧ cxxFunction.plain [] = true := by
  decide +kernel

/-- `bool N::operator<<T>(T)`, a template, or `bool N::operator<<<T>(T)`: the operator `<` and the operator `<<`. -/
def plainOp (o : IFK) : Decl := .fn (.free false) (.op o (.some (.ty anonC .nil))) (.cons (.id c!"N") .nil)
  (.mk 'A' (.prim .Bool false false) (.cons anonC .nil) false false)

example : (plainOp .LessThan).cpp E0 =
    c!"bool __cdecl N::operator<<class N::`anonymous namespace'::C>(class N::`anonymous namespace'::C)" := by decide +kernel
example : ((plainOp .LessThan).mangle true {}).1 = c!"??$?MVC@?A0xdeadbeef@N@@@N@@YA_NVC@?A0xdeadbeef@0@@Z" := by decide +kernel
example : demangle E0 ((plainOp .LessThan).mangle true {}).1 ≠ demangle E0 ((plainOp .LeftShift).mangle true {}).1 :=
  C55_different (E := E0) (key := c!"0xdeadbeef") rfl (by decide +kernel) true true (by decide +kernel) (by decide +kernel) (by decide +kernel)
    (by decide +kernel) (by decide +kernel) (by decide +kernel) (by decide +kernel)

/-- A template `C::C<T>(T)` for a constructor. -/
def plainCtor (ta : Targs) : Decl :=
  .structor false ta (.member .publ false {}) (.id c!"C") (.cons (.id c!"N") .nil) 'E' (.cons (.prim .Int false false) .nil) false false

example : (plainCtor (.some (.ty (.prim .Int false false) .nil))).cpp E0 = c!"public: __thiscall N::C::C<int>(int)" := by decide +kernel
example : demangle E0 ((plainCtor (.some (.ty (.prim .Int false false) .nil))).mangle true {}).1 ≠ demangle E0 ((plainCtor .none).mangle true {}).1 :=
  C55_different (E := E0) (key := c!"0xdeadbeef") rfl (by decide +kernel) true true (by decide +kernel) (by decide +kernel) (by decide +kernel)
    (by decide +kernel) (by decide +kernel) (by decide +kernel) (by decide +kernel)

/-- `C::operator T()`, or a template for it. -/
def plainConv (ta : Targs) (t : Cxx.Ty) : Decl :=
  .conv ta (.member .publ false { c := true }) (.cons (.id c!"C") (.cons (.id c!"N") .nil)) (.mk 'E' t .nil false false)

example : (plainConv (.some (.ty anonC .nil)) (.ptr (.star true false false) false (.prim .Char true false))).cpp E0 =
    c!"public: char const *const __thiscall N::C::operator<class N::`anonymous namespace'::C> char const *const(void) const" := by decide +kernel
example : demangle E0 ((plainConv (.some (.ty anonC .nil)) (.prim .Int false false)).mangle true {}).1 ≠
    demangle E0 ((plainConv .none (.prim .Int false false)).mangle true {}).1 :=
  C55_different (E := E0) (key := c!"0xdeadbeef") rfl (by decide +kernel) true true (by decide +kernel) (by decide +kernel) (by decide +kernel)
    (by decide +kernel) (by decide +kernel) (by decide +kernel) (by decide +kernel)
example : demangle E0 ((plainConv .none (.prim .Int false false)).mangle true {}).1 ≠ demangle E0 ((plainConv .none (.prim .Long false false)).mangle true {}).1 :=
  C55_different (E := E0) (key := c!"0xdeadbeef") rfl (by decide +kernel) true true (by decide +kernel) (by decide +kernel) (by decide +kernel)
    (by decide +kernel) (by decide +kernel) (by decide +kernel) (by decide +kernel)

/-! What `plain` leaves out is ambiguous. -/

/-- **C55** fails for class names that end in an underscore: there is no blank after one. -/
theorem C55_underscores :
    demangle E0 c!"?_x@@3VA_@@A" = .ok (.ok c!"class A__x") ∧ demangle E0 c!"?x@@3VA__@@A" = .ok (.ok c!"class A__x") := by
  constructor <;> decide +kernel

/-- **C55** fails for the marks that the text does not show: exported functions, variables in functions, empty packs,
the keys of anonymous namespaces. -/
theorem C55_not_shown :
    demangle E0 c!"?f@@YAXXZ" = demangle E0 c!"?f@@YBXXZ" ∧
    demangle E0 c!"?x@@3HA" = demangle E0 c!"?x@@4HA" ∧
    demangle E0 c!"?x@@3V?$A@H@@A" = demangle E0 c!"?x@@3V?$A@H$$V@@A" ∧
    demangle E0 c!"?x@?A0x1@@3HA" = demangle E0 c!"?x@?A0x2@@3HA" := by
  refine ⟨?_, ?_, ?_, ?_⟩ <;> decide +kernel

/-- **C55** fails for names that are keywords: an argument that is a template called `int`, and the type `int`. -/
theorem C55_keywords :
    demangle E0 c!"?x@@3V?$A@H@@A" = .ok (.ok c!"class A<int> x") ∧
    demangle E0 c!"?x@@3V?$A@$$Yint@@@@A" = .ok (.ok c!"class A<int> x") := by
  constructor <;> decide +kernel

end Props
end Undname
