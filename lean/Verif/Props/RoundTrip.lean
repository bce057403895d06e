/-
  Property theorems C49: what a compiler mangles, the library demangles.
-/
import Verif.Proof.ManglerGram
import Verif.Proof.ManglerDec
import Verif.Proof.Eval

namespace Undname
namespace Props
open Spec Spec.Cxx

/-- **C49**: every well-formed variable, function, constructor, destructor, operator, conversion and thunk (with
names in namespaces, classes, templates and blocks of functions, types of any depth, and template arguments that
are types, numbers, packs, function types, arrays, templates, addresses of and references to symbols, and pointers
to members), mangled by the compiler of `Spec/Mangler.lean` for 32 or 64 bits, with all its back-references to
names and parameter types, is demangled to its declaration in C++, under every set of flags and whatever follows
the name. Different names must have different texts under these flags. -/
theorem C49_round_trip {E : Env} (w : Bool) {d : Decl} (h : d.Ok E) (hd : Distinct E d.keys) (rest : Text) :
    Shows E ((d.mangle w {}).1 ++ rest) (d.cpp E) := by
  obtain ⟨t, x, tb', g⟩ := d.gram hd w h (fun _ h => h) {} {} (Seen.like_nil E _)
  have := shows_sym g.sym rest
  rw [← g.eq, g.alike.text_eq] at this
  have e : (d.tree E).text E = d.cpp E := (d.pr_eq h [] (Ctx.nil E)).trans (List.nil_append _)
  rwa [e] at this

/-- Without templates, local scopes and anonymous namespaces, names are different if their texts are. -/
theorem distinct_ids {E : Env} {l : List Seg} (h : ∀ a ∈ l, ∃ s, a = .id s) : Distinct E l := by
  intro a ha b hb e
  obtain ⟨x, rfl⟩ := h a ha
  obtain ⟨y, rfl⟩ := h b hb
  simpa [Seg.known, Seg.cpp] using e

/-- **C49**: the mangled names for 32 and for 64 bits are demangled to the same text. -/
theorem C49_same_text {E : Env} {d : Decl} (h : d.Ok E) (hd : Distinct E d.keys)
    (h32 : (d.mangle false {}).1.length ≤ 1024) (h64 : (d.mangle true {}).1.length ≤ 1024) :
    demangle E (d.mangle false {}).1 = demangle E (d.mangle true {}).1 := by
  have a := C49_round_trip false h hd []
  have b := C49_round_trip true h hd []
  rw [List.append_nil] at a b
  rcases a with a | ⟨a, -⟩
  · rcases b with b | ⟨b, -⟩
    · rw [a, b]
    · omega
  · omega

/-! Concrete declarations. -/

/-- `class std::basic_string<char, struct std::char_traits<char>, class std::allocator<char>>`. -/
def stdString : Cxx.Ty :=
  .tag .Class (.cons (.tm c!"basic_string"
    (.ty (.prim .Char false false)
    (.ty (.tag .Struct (.cons (.tm c!"char_traits" (.ty (.prim .Char false false) .nil)) (.cons (.id c!"std") .nil)) false false)
    (.ty (.tag .Class (.cons (.tm c!"allocator" (.ty (.prim .Char false false) .nil)) (.cons (.id c!"std") .nil)) false false) .nil))))
    (.cons (.id c!"std") .nil)) false false

/-- `void f(std::string, std::string)`. -/
def cxxFn : Decl := .fn (.free false) (.id c!"f") .nil (.mk 'A' (.prim .Void false false) (.cons stdString (.cons stdString .nil)) false false)

example : (cxxFn.mangle true {}).1 =
    c!"?f@@YAXV?$basic_string@DU?$char_traits@D@std@@V?$allocator@D@2@@std@@0@Z" := by decide +kernel
example : cxxFn.cpp E0 = c!"void __cdecl f(class std::basic_string<char, struct std::char_traits<char>, class std::allocator<char>>, " ++
    c!"class std::basic_string<char, struct std::char_traits<char>, class std::allocator<char>>)" := by decide +kernel
example : cxxFn.Ok E0 := by decide +kernel
example : demangle E0 c!"?f@@YAXV?$basic_string@DU?$char_traits@D@std@@V?$allocator@D@2@@std@@0@Z" =
    .ok (.ok (cxxFn.cpp E0)) := by
  have h := (C49_round_trip (E := E0) true (d := cxxFn) (by decide +kernel) (by decide +kernel) []).short (by decide +kernel) (by decide +kernel)
  exact (congrArg (demangle E0) (by decide +kernel)).trans h

/-- `void (C::*x)(int) const`, a pointer to a member function. -/
def cxxVar : Decl := .var .global (.id c!"x") .nil (.mfptr (.star false false false) (.cons (.id c!"C") .nil) { c := true }
  (.mk 'A' (.prim .Void false false) (.cons (.prim .Int false false) .nil) false false))

example : demangle E0 c!"?x@@3P8C@@EBAXH@ZEQ1@" = .ok (.ok c!"void (__cdecl C::*x)(int) const") := by
  have h := (C49_round_trip (E := E0) true (d := cxxVar) (by decide +kernel) (by decide +kernel) []).short (by decide +kernel) (by decide +kernel)
  exact (congrArg (demangle E0) (by decide +kernel)).trans (h.trans (by decide +kernel))

/-- A constructor template of a class template in an anonymous namespace, with a forwarding reference. -/
def cxxCtor : Decl := .structor false (.some (.ty (.prim .Int false false) .nil)) (.member .publ false {})
  (.tm c!"V" (.int true 5 .nil)) (.cons (.anon c!"0x1f2e") (.cons (.id c!"N") .nil)) 'E'
  (.cons (.ptr .rref false (.prim .Int true false)) (.cons (.ptr .rref false (.prim .Int true false)) .nil)) false true

example : demangle E0 c!"??$?0H@?$V@$0?4@?A0x1f2e@N@@QAE@$$QBH0@_E" =
    .ok (.ok c!"public: __thiscall N::`anonymous namespace'::V<-5>::V<-5><int>(int const &&, int const &&) noexcept") := by
  have h := (C49_round_trip (E := E0) false (d := cxxCtor) (by decide +kernel) (by decide +kernel) []).short (by decide +kernel) (by decide +kernel)
  exact (congrArg (demangle E0) (by decide +kernel)).trans (h.trans (by decide +kernel))

/-- An assignment operator, as the target of a thunk. -/
def cxxThunk : Decl := .fn (.thunk .publ (.disp (-4) 8) { ref := some .Reference }) (.op .Assign .none) (.cons (.id c!"S") .nil)
  (.mk 'E' (.ptr .ref false (.tag .Struct (.cons (.id c!"S") .nil) false false))
    (.cons (.ptr .ref false (.tag .Struct (.cons (.id c!"S") .nil) true false)) .nil) false false)

example : demangle E0 c!"??4S@@$4PPPPPPPM@7GAEAAU0@ABU0@@Z" =
    .ok (.ok c!"[thunk]: public: virtual struct S & __thiscall S::operator=`vtordisp{-4, 8}'(struct S const &) &") := by
  have h := (C49_round_trip (E := E0) false (d := cxxThunk) (by decide +kernel) (by decide +kernel) []).short (by decide +kernel) (by decide +kernel)
  exact (congrArg (demangle E0) (by decide +kernel)).trans (h.trans (by decide +kernel))

/-- A conversion of a class template to a pointer to an array. -/
def cxxConv : Decl := .conv .none (.member .priv true { c := true }) (.cons (.tm c!"B" (.pack .nil)) .nil)
  (.mk 'E' (.aptr (.star true false false) false true [2, 300] (.prim .Char false false)) .nil false false)

example : demangle E0 c!"??B?$B@$$V@@EEBEQEAY11BCM@$$CCDXZ" =
    .ok (.ok (cxxConv.cpp E0)) := by
  have h := (C49_round_trip (E := E0) true (d := cxxConv) (by decide +kernel) (by decide +kernel) []).short (by decide +kernel) (by decide +kernel)
  exact (congrArg (demangle E0) (by decide +kernel)).trans h

example : demangle E0 (cxxFn.mangle false {}).1 = demangle E0 (cxxFn.mangle true {}).1 :=
  C49_same_text (by decide +kernel) (by decide +kernel) (by decide +kernel) (by decide +kernel)

/-- `void g(std::function<int (char const *)>)`. -/
def cxxFunction : Decl := .fn (.free false) (.id c!"g") .nil (.mk 'A' (.prim .Void false false)
  (.cons (.tag .Class (.cons (.tm c!"function" (.fn (.mk 'A' (.prim .Int false false)
    (.cons (.ptr (.star false false false) false (.prim .Char true false)) .nil) false false) .nil)) (.cons (.id c!"std") .nil)) false false) .nil) false false)

example : demangle E0 c!"?g@@YAXV?$function@$$A6AHPEBD@Z@std@@@Z" = .ok (.ok c!"void __cdecl g(class std::function<int __cdecl(char const *)>)") := by
  have h := (C49_round_trip (E := E0) true (d := cxxFunction) (by decide +kernel) (by decide +kernel) []).short (by decide +kernel) (by decide +kernel)
  exact (congrArg (demangle E0) (by decide +kernel)).trans (h.trans (by decide +kernel))

/-- `int f()`. -/
def cxxF : Decl := .fn (.free false) (.id c!"f") .nil (.mk 'A' (.prim .Int false false) .nil false false)

/-- A static variable in the second block of `f`. -/
def cxxLocal : Decl := .var .localStatic (.id c!"x") (.cons (.loc 2 cxxF) .nil) (.prim .Int false false)

example : demangle E0 c!"?x@?1??f@@YAHXZ@4HA" = .ok (.ok c!"int `int __cdecl f(void)'::`2'::x") := by
  have h := (C49_round_trip (E := E0) true (d := cxxLocal) (by decide +kernel) (by decide +kernel) []).short (by decide +kernel) (by decide +kernel)
  exact (congrArg (demangle E0) (by decide +kernel)).trans (h.trans (by decide +kernel))

/-- An instantiation of a variable template with `&f`, a reference to that variable, a number, and a pointer to
the member function `S::m`. -/
def cxxArgs : Decl := .var .global (.tm c!"p" (.addr cxxF (.ref cxxLocal (.int true 3 (.memFn
  (.fn (.member .publ true {}) (.id c!"m") (.cons (.id c!"S") .nil) (.mk 'E' (.prim .Int false false) .nil false false)) [4, -8] .nil)))))
  .nil (.prim .Int false false)

example : demangle E0 c!"??$p@$1?f@@YAHXZ$E?x@?1??1@YAHXZ@4HA$0?2$I?m@S@@UEAEHXZ3?7@@3HA" =
    .ok (.ok (c!"int p<&int __cdecl f(void), int `int __cdecl f(void)'::`2'::x, -3, " ++
      c!"{public: virtual int __thiscall S::m(void), 4, -8}>")) := by
  have h := (C49_round_trip (E := E0) true (d := cxxArgs) (by decide +kernel) (by decide +kernel) []).short (by decide +kernel) (by decide +kernel)
  exact (congrArg (demangle E0) (by decide +kernel)).trans (h.trans (by decide +kernel))

/-! The same names under other flags. -/

example : demangle (EF Flags.NAME_ONLY) c!"?g@@YAXV?$function@$$A6AHPEBD@Z@std@@@Z" = .ok (.ok c!"g") := by
  have h := (C49_round_trip (E := EF Flags.NAME_ONLY) true (d := cxxFunction) (by decide +kernel) (by decide +kernel) []).short
    (by decide +kernel) (by decide +kernel)
  exact (congrArg (demangle _) (by decide +kernel)).trans (h.trans (by decide +kernel))

example : demangle (EF Flags.NO_CALLING_CONVENTION) c!"??$p@$1?f@@YAHXZ$E?x@?1??1@YAHXZ@4HA$0?2$I?m@S@@UEAEHXZ3?7@@3HA" =
    .ok (.ok (c!"int p<&int f(void), int `int f(void)'::`2'::x, -3, {public: virtual int S::m(void), 4, -8}>")) := by
  have h := (C49_round_trip (E := EF Flags.NO_CALLING_CONVENTION) true (d := cxxArgs) (by decide +kernel) (by decide +kernel) []).short
    (by decide +kernel) (by decide +kernel)
  exact (congrArg (demangle _) (by decide +kernel)).trans (h.trans (by decide +kernel))

/-! Different names with one text: `void f(A<class B>, A<struct B>, C, C *)`. If the tags are not shown, the
library remembers one name where the compiler remembers two, and the back-reference to `C` fails. -/

def cxxTwins : Decl :=
  let a (k : TagKind) : Cxx.Ty := .tag .Class (.cons (.tm c!"A" (.ty (.tag k (.cons (.id c!"B") .nil) false false) .nil)) .nil) false false
  let c : Cxx.Ty := .tag .Class (.cons (.id c!"C") .nil) false false
  .fn (.free false) (.id c!"f") .nil (.mk 'A' (.prim .Void false false)
    (.cons (a .Class) (.cons (a .Struct) (.cons c (.cons (.ptr (.star false false false) false c) .nil)))) false false)

example : cxxTwins.Ok E0 ∧ Distinct E0 cxxTwins.keys := by decide +kernel
example : ¬Distinct (EF Flags.NO_TAG_SPECIFIER) cxxTwins.keys := by decide +kernel
/-- C49 does not hold without the hypothesis on the texts of names. -/
theorem C49_distinct_needed : cxxTwins.Ok (EF Flags.NO_TAG_SPECIFIER) ∧
    (cxxTwins.mangle false {}).1 = c!"?f@@YAXV?$A@VB@@@@V?$A@UB@@@@VC@@PAV3@@Z" ∧
    demangle (EF Flags.NO_TAG_SPECIFIER) c!"?f@@YAXV?$A@VB@@@@V?$A@UB@@@@VC@@PAV3@@Z" = .ok (.error .InvalidBackRef) := by
  refine ⟨?_, ?_, ?_⟩ <;> decide +kernel

end Props
end Undname
