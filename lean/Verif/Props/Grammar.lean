/-
  Property theorems C46, C47: the grammar of mangled names, and what the limits mean.
-/
import Verif.Proof.Paths

namespace Undname
namespace Props
open Spec

/-- **C46**: a text that the grammar (`Spec/Grammar.lean`) derives as a symbol demangles to the C++ text of the
tree it denotes (`Spec/Tree.lean`), whatever follows it; for every flag set. -/
theorem C46_grammar (E : Env) {t : T} {x : Text} {tb' : Tbl} (h : Gram E .sym {} t x tb') (rest : Text) :
    Shows E (x ++ rest) (t.text E) := shows_sym h rest

/-- **C46** for the symbols that must end with the input. -/
theorem C46_grammar_end (E : Env) {t : T} {x : Text} {tb' : Tbl} (h : Gram E .symEnd {} t x tb') :
    Shows E x (t.text E) := shows_symEnd h

/-- A phrase with a template, a back-reference, a pointer to a member function, an array and an integer. -/
example : ∃ t tb', Gram E0 .sym {} t c!"?f@?$A@$0BA@@@YAXPEAY01HP8B@@EAAXXZ@Z" tb' ∧
    t.text E0 = c!"void __cdecl A<16>::f(int (*)[2], void (__cdecl B::*)(void))" := by
  have name : ∀ s : Text, ∀ tb, Name s → Gram E0 .uname tb (.named s .nil) (s ++ c!"@") (tb.note s) :=
    fun s tb h => .uName h
  have n16 : EncNat c!"BA@" 16 := .hex c!"BA" (by decide)
  have tm : Gram E0 .tmpl (({} : Tbl).note c!"f") _ c!"?$A@$0BA@@" (({} : Tbl).note c!"f") :=
    .tmpl (.fName (s := c!"A") (by decide)) (.taCons (.aInt (m := false) (.pos n16)) .taNil)
  have arr : ∀ tb, Gram E0 .ty tb _ c!"PEAY01H" tb := fun tb =>
    .ptr (code := c!"P") (cv := {}) (a := .Pointer) (ch := 'A') (q := {}) ⟨true, false, false⟩ (by decide) (by decide)
      (.array (dims := [2]) (.digit 0 (by decide)) (by decide) (.cons (.digit 1 (by decide)) .nil) (.prim .Int))
  have mem : ∀ tb, Gram E0 .ty tb _ c!"P8B@@EAAXXZ" (tb.note c!"B") := fun tb =>
    .ptrMemberFn (code := c!"P") (x := c!"B@@") (y := c!"EAAXXZ") (cv := {}) (by decide) (.qtn (x := c!"B@") (name c!"B" _ (by decide)) .scNil)
      (.fnThis (ch := 'A') (q := {}) (x := c!"X") (y := c!"X") ⟨true, false, false⟩ none 'A' false (by decide)
        (.retSome (.resPlain (.prim .Void) (by decide))) .pVoid)
  refine ⟨_, _, .sym (.func (x := c!"f@") (y := c!"?$A@$0BA@@@") (.sFull (.fName (s := c!"f") (by decide))) rfl
    (.scCons (.scName (.uTmpl tm rfl (by unfold Fits; decide +kernel))) .scNil)
    (.fenc (code := c!"Y") (k := {}) (ak := .none) (x := []) (y := c!"AXPEAY01HP8B@@EAAXXZ@Z") false (by decide) .none
      (.fn (x := c!"X") (y := c!"PEAY01HP8B@@EAAXXZ@") 'A' false (.retSome (.resPlain (.prim .Void) (by decide)))
        (.pFixed (.pType (arr _) (by decide) (.pType (mem _) (by decide) .pNil)) (by decide))))) (by decide), ?_⟩
  decide +kernel

/-- **C47**: a name of at most 1024 characters is never refused as malicious. -/
theorem C47_short_names (E : Env) (m buf : Text) (hm : m.length ≤ 1024) :
    demangle E m ≠ .ok (.error .MaliciousInput) ∧ ∀ t, demangle_into E m buf ≠ .ok (.error .MaliciousInput, t) := by
  have h := demangle_not_malicious E m (by unfold NODE_LIMIT; omega)
  refine ⟨h, fun t ht => h ?_⟩
  unfold demangle
  have e : demangle_into E m [] = demangle_into E m buf := rfl
  rw [e, ht]

end Props
end Undname
