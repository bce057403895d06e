/-
  Property theorems C16-C18, C24, C25: variables, functions, constructors, destructors and conversion operators of
  the small language of `Spec/Decl.lean`, with default flags. Every theorem allows arbitrary text after the name.
-/
import Verif.Proof.DeclFn

namespace Undname
namespace Props
open Spec

variable {E : Env} (hE : E.flags = Flags.default)
include hE

/-- **C17**: a global variable of any type demangles to its declaration, on 32-bit (`w = false`) and 64-bit
targets. -/
theorem C17_variables (w : Bool) {name : List Text} (hn : IsPath name) {t : Ty} (ht : t.Ok) (rest : Text) :
    Shows E (mangleVar w name t ++ rest) (declareVar E name t) := by
  obtain ⟨tb', g⟩ := var_gram (E := E) w hn ht
  rw [← var_text (plain_default hE)]
  exact shows_sym g rest

/-- **C16**: `?x@A1@...@An@@3HA` demangles to `int An::...::A1::x`. -/
theorem C16_qualified_names {name : List Text} (hn : IsPath name) (rest : Text) :
    Shows E (c!"?" ++ manglePath name ++ c!"3HA" ++ rest) (c!"int " ++ showPath name) := by
  have := C17_variables hE false hn (t := .prim .Int false false) trivial rest
  simp only [mangleVar, Ty.mangle, primCode, Ty.suffix] at this
  have e : declareVar E name (.prim .Int false false) = c!"int " ++ showPath name := rfl
  rw [e] at this
  simpa [Ty.cvLetter] using this

/-- **C18**: a global function of any signature demangles to its declaration. -/
theorem C18_functions (w : Bool) {name : List Text} (hn : IsPath name) {f : Fn} (hf : f.Ok) {conv : Text}
    (hc : convWord f.cc = some conv) (hv : f.variadic = true → '(' ∉ (f.params.map (Ty.cpp E)).flatten) (rest : Text) :
    Shows E (mangleFn w name f ++ rest) (declareFn E conv name f) := by
  have hP := plain_default hE
  obtain ⟨tb', g⟩ := fn_gram (E := E) hn (fun tb => global_fenc w hf tb) {}
  have ht := fn_text hP hc hv {} rfl false false rfl (.qname (pathT name)) (showPath name) (path_out E name)
  have := shows_sym g rest
  rw [ht] at this
  have e1 : kindText {} = [] := rfl
  have e2 : Ty.cvAfter false false = [] := rfl
  simpa [mangleFn, declareFn, e1, e2] using this

/-- **C18** for member functions: access, `static`, `virtual` and the qualifiers of `this`. -/
theorem C18_members (w : Bool) {name : List Text} (hn : IsPath name) {f : Fn} (hf : f.Ok) {conv : Text}
    (hc : convWord f.cc = some conv) (hv : f.variadic = true → '(' ∉ (f.params.map (Ty.cpp E)).flatten)
    {code : Char} {what : Text} {this : Bool} (hm : (code, what, this) ∈ memberCodes) (c v : Bool) (rest : Text) :
    Shows E (mangleMember w name code this c v f ++ rest) (declareMember E what conv name this c v f) := by
  have hP := plain_default hE
  obtain ⟨k, hk, rfl, hb, hx, rfl, hsp⟩ := member_code hm
  obtain ⟨tb', g⟩ := fn_gram (E := E) hn (fun tb => member_fenc w hf c v hk hx tb) {}
  have ht := fn_text hP hc hv k hb (k.hasThis && c) (k.hasThis && v) (hsp E) (.qname (pathT name)) (showPath name) (path_out E name)
  have := shows_sym g rest
  rw [ht] at this
  have e2 : Ty.cvAfter (k.hasThis && c) (k.hasThis && v) = if k.hasThis then Ty.cvAfter c v else [] := by
    cases k.hasThis <;> rfl
  simpa [mangleMember, declareMember, e2] using this

/-- **C24**: a constructor or destructor repeats the innermost class name; `cls` is the path of the class. -/
theorem C24_structors (w dtor : Bool) {s : Text} {outer : List Text} (hn : IsPath (s :: outer)) {f : Fn} (hf : f.Ok) {conv : Text}
    (hc : convWord f.cc = some conv) (hv : f.variadic = true → '(' ∉ (f.params.map (Ty.cpp E)).flatten)
    {code : Char} {what : Text} {this : Bool} (hm : (code, what, this) ∈ memberCodes) (c v : Bool) (rest : Text) :
    Shows E ((if dtor then c!"??1" else c!"??0") ++ manglePath (s :: outer) ++ [code] ++
        (if this then Ty.wide w ++ [Ty.cvLetter c v] else []) ++ f.mangle w ++ rest)
      (what ++ f.cppRet E ++ conv ++ c!" " ++ (showPath (s :: outer) ++ c!"::" ++ (if dtor then c!"~" else []) ++ s) ++
        f.cppParams E ++ (if this then Ty.cvAfter c v else []) ++ (if f.noexc then c!" noexcept" else [])) := by
  have hP := plain_default hE
  obtain ⟨k, hk, rfl, hb, hx, rfl, hsp⟩ := member_code hm
  obtain ⟨tb1, h1⟩ := scopes_gram (E := E) (p := s :: outer) hn.2 {}
  obtain ⟨tb2, h2⟩ := member_fenc (E := E) w hf c v hk hx tb1
  rw [pathT_cons] at h1
  have h0 : Gram E .sname {} (.structor dtor .nil .nil) (if dtor then c!"?1" else c!"?0") {} := by
    cases dtor
    · exact .sFull .fCtor
    · exact .sFull .fDtor
  have g := sym_of (.structor h0 h1 rfl h2) h0 rfl
  have hname : ∀ w, ((T.qname (((pathT outer).snoc (leaf s)).snoc (.structor dtor (leaf s).one .nil))).pr E).out w =
      w ++ (showPath (s :: outer) ++ c!"::" ++ (if dtor then c!"~" else []) ++ s) := by
    intro w
    show (T.pr E _).seq _ w = _
    rw [← pathT_cons]
    have : pathT (s :: outer) = tl ((s :: outer).reverse.map leaf) := rfl
    rw [this, tl_snoc, seq_snoc _ _ _ _ (by simp), tl_seq]
    have hl := leaf_out E s
    simp only [T.pr, Pr.ofText, T.one, Pr.cons, hl, targsOut, Pr.nil]
    simp [showPath]
  have ht := fn_text hP hc hv k hb (k.hasThis && c) (k.hasThis && v) (hsp E) _ _ hname
  have := shows_sym g rest
  rw [ht] at this
  have e2 : Ty.cvAfter (k.hasThis && c) (k.hasThis && v) = if k.hasThis then Ty.cvAfter c v else [] := by
    cases k.hasThis <;> rfl
  rw [e2] at this
  cases dtor <;> simpa using this

/-- **C25**: a conversion operator is named by the type it returns. -/
theorem C25_conversions (w : Bool) {cls : List Text} (hn : IsPath cls) {f : Fn} (hf : f.Ok) {t : Ty} (hr : f.ret = some t) {conv : Text}
    (hc : convWord f.cc = some conv) (hv : f.variadic = true → '(' ∉ (f.params.map (Ty.cpp E)).flatten)
    {code : Char} {what : Text} {this : Bool} (hm : (code, what, this) ∈ memberCodes) (c v : Bool) (rest : Text) :
    Shows E (c!"??B" ++ manglePath cls ++ [code] ++
        (if this then Ty.wide w ++ [Ty.cvLetter c v] else []) ++ f.mangle w ++ rest)
      (what ++ t.cpp E ++ c!" " ++ conv ++ c!" " ++ (showPath cls ++ c!"::operator " ++ t.cpp E) ++
        f.cppParams E ++ (if this then Ty.cvAfter c v else []) ++ (if f.noexc then c!" noexcept" else [])) := by
  have hP := plain_default hE
  obtain ⟨k, hk, rfl, hb, hx, rfl, hsp⟩ := member_code hm
  obtain ⟨tb1, h1⟩ := scopes_gram (E := E) (p := cls) hn.2 {}
  obtain ⟨tb2, h2⟩ := member_fenc (E := E) w hf c v hk hx tb1
  have hrt : Fn.retT f.ret = T.one t.tree := by rw [hr]; rfl
  rw [hrt] at h2
  have g := sym_of (.conv (.sFull .fConv) h1 h2) (.sFull (.fConv (tb := {}))) rfl
  have hname : ∀ w, ((T.qname ((pathT cls).snoc (.conv .nil t.tree.one))).pr E).out w =
      w ++ (showPath cls ++ c!"::operator " ++ t.cpp E) := by
    intro w
    show (T.pr E _).seq _ w = _
    have : pathT cls = tl (cls.reverse.map leaf) := rfl
    rw [this, tl_snoc, seq_snoc _ _ _ _ (by simpa using hn.1), tl_seq]
    simp only [T.pr, Pr.ofText, T.one, Pr.cons, (Ty.tree_pr hP t).2.2.2, targsOut, Pr.nil]
    simp [showPath]
  have ht := fn_text hP hc hv k hb (k.hasThis && c) (k.hasThis && v) (hsp E) _ _ hname
  rw [hrt] at ht
  have := shows_sym g rest
  rw [ht] at this
  have e2 : Ty.cvAfter (k.hasThis && c) (k.hasThis && v) = if k.hasThis then Ty.cvAfter c v else [] := by
    cases k.hasThis <;> rfl
  have e3 : f.cppRet E = t.cpp E ++ c!" " := by simp [Fn.cppRet, hr]
  rw [e2, e3] at this
  simpa using this

omit hE

/-! Concrete cases: the hypotheses hold, and the texts are what a programmer expects. -/

/-- A table of pointers into a nested class. -/
example : demangle E0 c!"?tab@N@@3PEAQEBVC@M@@EA" = .ok (.ok c!"class M::C const *const *N::tab") := by
  have := C17_variables (E := E0) rfl true (name := [c!"tab", c!"N"]) (by decide)
    (t := .ptr false false (.ptr true false (.tag .Class [c!"C", c!"M"] true false))) (by decide) []
  exact this.short (by decide) (by decide +kernel)

example : demangle E0 c!"?x@A@B@@3HAjunk" = .ok (.ok c!"int B::A::x") := by
  have := C16_qualified_names (E := E0) rfl (name := [c!"x", c!"A", c!"B"]) (by decide) c!"junk"
  exact this.short (by decide) (by decide +kernel)

/-- A function that meets the hypotheses of C18, C24 and C25. -/
def exFn : Fn := { cc := 'A', ret := some (.ptr false false (.prim .Char true false)), params := [.prim .Int false false, .ref (.tag .Struct [c!"S"] true false)], variadic := true }

theorem exFn_ok : exFn.Ok := ⟨by intro t h; cases h; decide, by decide⟩

example : demangle E0 c!"?f@N@@YAPEBDHAEBUS@@ZZ" = .ok (.ok c!"char const * __cdecl N::f(int, struct S const &, ...)") := by
  have := C18_functions (E := E0) rfl true (name := [c!"f", c!"N"]) (by decide) exFn_ok rfl (fun _ => by decide +kernel) []
  exact this.short (by decide) (by decide +kernel)

example : demangle E0 c!"?f@C@@UEBAPEBDHAEBUS@@ZZ" =
    .ok (.ok c!"public: virtual char const * __cdecl C::f(int, struct S const &, ...) const") := by
  have := C18_members (E := E0) rfl true (name := [c!"f", c!"C"]) (by decide) exFn_ok rfl (fun _ => by decide +kernel)
    (code := 'U') (what := c!"public: virtual ") (this := true) (by decide) true false []
  exact this.short (by decide) (by decide +kernel)

example : demangle E0 c!"??1C@N@@UEAA@XZ" = .ok (.ok c!"public: virtual __cdecl N::C::~C(void)") := by
  have := C24_structors (E := E0) rfl true true (s := c!"C") (outer := [c!"N"]) (by decide)
    (f := { cc := 'A', ret := none, params := [] }) ⟨by simp, by simp⟩ rfl (by simp)
    (code := 'U') (what := c!"public: virtual ") (this := true) (by decide) false false []
  exact this.short (by decide) (by decide +kernel)

example : demangle E0 c!"??BC@@QEBAPEBDXZ" =
    .ok (.ok c!"public: char const * __cdecl C::operator char const *(void) const") := by
  have := C25_conversions (E := E0) rfl true (cls := [c!"C"]) (by decide)
    (f := { cc := 'A', ret := some (.ptr false false (.prim .Char true false)), params := [] })
    ⟨by intro t h; cases h; decide, by simp⟩ rfl rfl (by simp)
    (code := 'Q') (what := c!"public: ") (this := true) (by decide) true false []
  exact this.short (by decide) (by decide +kernel)

end Props
end Undname
