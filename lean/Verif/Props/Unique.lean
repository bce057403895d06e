/-
  Property theorems C64: a mangled name has one meaning. The grammar (`Spec/Grammar.lean`) says which declarations a
  name denotes; there is never more than one, and never more than one place where its symbol ends.
-/
import Verif.Proof.Unique
import Verif.Proof.Eval
import Verif.Proof.Decl

namespace Undname
namespace Props
open Spec

/-- **C64**: a name that is not refused as malicious denotes at most one declaration: two readings of it by the grammar
agree in every part (not only in their text). -/
theorem C64_one_declaration (E : Env) {m : Text} (hm : demangle E m ≠ .ok (.error .MaliciousInput)) {t t' : T}
    (h : Denotes E m t) (h' : Denotes E m t') : t = t' :=
  denotes_unique h h' hm

/-- **C64**: so an accepted name denotes exactly one declaration, and is shown as that declaration. -/
theorem C64_exactly_one (E : Env) {m out : Text} (h : demangle E m = .ok (.ok out)) :
    ∃ t, Denotes E m t ∧ out = t.text E ∧ ∀ t', Denotes E m t' → t' = t := by
  obtain ⟨t, h1, h2, _⟩ := accepted_text h
  exact ⟨t, h1, h2, fun t' h' => denotes_unique h' h1 (by rw [h]; simp)⟩

/-- **C64**: no symbol is a proper prefix of another, so that it is clear where a symbol ends, whatever follows. -/
theorem C64_prefix_free (E : Env) {x r : Text} {t t' : T} {tb tb' : Tbl} (hm : demangle E (x ++ r) ≠ .ok (.error .MaliciousInput))
    (h : Gram E .sym {} t x tb) (h' : Gram E .sym {} t' (x ++ r) tb') : r = [] := by
  obtain ⟨w, hd, ns, ps, e, _⟩ := sym_rep h r hm
  have e2 := sym_rep h' [] (by rwa [List.append_nil])
  rw [List.append_nil] at e2
  obtain ⟨w', hd', ns', ps', e', _⟩ := e2
  rw [e] at e'
  have e3 := (Prod.mk.inj (Except.ok.inj e')).2
  exact congrArg (fun s : St => s.str.string) e3

/-- **C64**: names of at most 1024 characters are never refused as malicious. -/
theorem C64_short (E : Env) {m : Text} (hm : m.length ≤ 1024) {t t' : T} (h : Denotes E m t) (h' : Denotes E m t') : t = t' :=
  denotes_unique h h' (demangle_not_malicious E m (by unfold NODE_LIMIT; omega))

/-- The symbol `?x@@3PAHA` is not the beginning of a longer symbol. -/
example (r : Text) (hr : r ≠ []) (hl : r.length ≤ 1000) : ¬ ∃ t tb', Gram E0 .sym {} t (c!"?x@@3PAHA" ++ r) tb' := by
  rintro ⟨t, tb', h⟩
  obtain ⟨tb, h0⟩ := var_gram (E := E0) false (name := [c!"x"]) (by decide) (t := .ptr false false (.prim .Int false false)) (by decide)
  refine hr (C64_prefix_free E0 (demangle_not_malicious E0 _ ?_) h0 h)
  unfold NODE_LIMIT
  rw [List.length_append]
  have : (mangleVar false [c!"x"] (.ptr false false (.prim .Int false false))).length = 9 := by decide
  omega

/-- A function with a template instantiation and back-references. -/
example : ∃ t, Denotes E0 c!"?f@N@@YAXPAV?$A@H@1@0HQAY01H@Z" t ∧
    t.text E0 = c!"void __cdecl N::f(class N::A<int> *, class N::A<int> *, int, int (*const)[2])" ∧
    ∀ t', Denotes E0 c!"?f@N@@YAXPAV?$A@H@1@0HQAY01H@Z" t' → t' = t := by
  obtain ⟨t, h1, h2, h3⟩ := C64_exactly_one E0 (m := c!"?f@N@@YAXPAV?$A@H@1@0HQAY01H@Z")
    (out := c!"void __cdecl N::f(class N::A<int> *, class N::A<int> *, int, int (*const)[2])") (by decide +kernel)
  exact ⟨t, h1, h2.symm, h3⟩

end Props
end Undname
