/-
  Property theorems C58: blanks in the texts of declarations.
-/
import Verif.Proof.Layout
import Verif.Props.RoundTrip
import Verif.Props.Symbols

namespace Undname
namespace Spec.Cxx
variable {E : Env}

theorem cvBefore_lead (c v : Bool) : Lead (cvBefore c v) := by cases c <;> cases v <;> exact .const (by decide)

theorem table_whole (t : Table) : Whole t.name := by cases t <;> exact .const (by decide)

theorem guard_whole (th : Bool) (n : Nat) : Whole (guardName th n) := by
  unfold guardName
  refine Whole.then (by cases th <;> exact .const (by decide)) ?_
  split
  · exact .nil
  · exact (Whole.after (x := c!"{") (by decide) (whole_nat n)).append (.const (by decide))

theorem init_lead (dt : Bool) : Lead (initText dt) := by cases dt <;> exact .const (by decide)

theorem path_cons {a : Text} {p : Path} (ha : Whole a) (hp : ∀ x ∈ p.names E, Whole x) : Whole (showPath (a :: p.names E)) :=
  whole_path (by
    simp only [List.mem_cons]
    rintro x (rfl | hx)
    · exact ha
    · exact hp x hx) (by simp)

theorem Sym.layout (hn : E.flags.name_only = false) (hms : E.flags.no_ms_keywords = false) {y : Sym} (h : y.Ok E)
    (hi : ∀ s ∈ y.idents, TidyId s) : Body (y.cpp E) := by
  have hs : shows.params E = true := by simp [shows.params, hn]
  cases y with
  | decl d => exact d.layout hn hms h hi
  | table t cls c v target =>
    obtain ⟨h1, h2⟩ := h
    have hc := cls.layout hn hms h1 (ids_left hi)
    have hp := Lead.whole (Lead.part (!E.flags.name_only) (cvBefore_lead c v)) (path_cons (table_whole t) hc)
    unfold Sym.cpp
    refine (hp.then ?_).body
    split
    · exact .nil
    · rename_i ht
      rcases h2 with h2 | h2
      · exact absurd h2 ht
      · have := whole_path (target.layout hn hms (path_ok h2) (ids_right hi)) (path_ne h2)
        exact (Whole.after (x := c!"{for `") (by decide) this).append (.const (by decide))
  | baseDescriptor nv vb vt fl cls =>
    have hc := cls.layout hn hms h.2 hi
    refine (path_cons ?_ hc).body
    have h1 := Lead.whole (x := c!"`RTTI Base Class Descriptor at (") (.const (by decide)) (whole_nat nv)
    have h2 := Lead.whole (h1.lead_then (y := c!", ") (by decide)) (whole_sint vb)
    have h3 := Lead.whole (h2.lead_then (y := c!", ") (by decide)) (whole_nat vt)
    have h4 := Lead.whole (h3.lead_then (y := c!", ") (by decide)) (whole_nat fl)
    exact h4.then (.const (by decide))
  | baseArray cls => exact (path_cons (.const (by decide)) (cls.layout hn hms h hi)).body
  | hierarchy cls => exact (path_cons (.const (by decide)) (cls.layout hn hms h hi)).body
  | vcall cls n cc =>
    have hc := cls.layout hn hms h.2.2 hi
    refine (Lead.whole ((Lead.part _ (.const (by decide))).append (Lead.part _ (conv_whole h.2.1).blank)) (path_cons ?_ hc)).body
    have h1 := Lead.whole (x := c!"`vcall'{") (.const (by decide)) (whole_nat n)
    exact (h1.then (Rest.part _ (.const (by decide)))).then (.const (by decide))
  | guard th vis scope n => exact (path_cons (guard_whole th n) (scope.layout hn hms h.2 hi)).body
  | initVar dt st name scope ty k s =>
    obtain ⟨h1, _, h3⟩ := h
    have hd := (Decl.var st name scope ty).layout hn hms h1 (ids_left hi)
    have hg := s.layout hn hms h3 (ids_right hi)
    have hb := (Lead.body ((init_lead dt).append (.const (by decide : (okAll c!"`" && headOk c!"`") = true))) hd).lead_then
      (y := c!"''") (by decide) (by simp)
    unfold Sym.cpp
    rw [hs]
    exact (Whole.then (Lead.whole (((((kind_lead k).append hg.ret).append hg.conv).append hb).append (adj_lead k)) hg.params) (hg.right _)).body
  | initName dt name scope k s =>
    simp only [Sym.Ok, Decl.Ok, Head.Ok] at h
    simp only [Sym.idents, Decl.idents, Head.idents] at hi
    obtain ⟨h1, h2, h3, h4⟩ := h
    have hp := path_cons ((hi name (by simp)).whole (name_ne h2)) (scope.layout hn hms h3 (ids_right (ids_left hi)))
    have hg := s.layout hn hms h4 (ids_right hi)
    have hb := (Lead.body ((init_lead dt).append (.const (by decide : (okAll c!"'" && headOk c!"'") = true))) hp.body).lead_then
      (y := c!"''") (by decide) (by simp)
    unfold Sym.cpp
    rw [hs]
    exact (Whole.then (Lead.whole (((((kind_lead k).append hg.ret).append hg.conv).append hb).append (adj_lead k)) hg.params) (hg.right _)).body

theorem EndSym.layout (hn : E.flags.name_only = false) (hms : E.flags.no_ms_keywords = false) {y : EndSym} (h : y.Ok E)
    (hi : ∀ s ∈ y.idents, TidyId s) : Body (y.cpp E) := by
  cases y with
  | typeDescriptor t =>
    have ht := t.layout hn hms h hi
    have hc : Whole c!"`RTTI Type Descriptor'" := .const (by decide)
    unfold EndSym.cpp
    simp only
    split
    · exact ((Lead.whole (sp_lead ht.1) hc).then ht.2).body
    · exact hc.body
  | typeName t =>
    have ht := t.layout hn hms h hi
    unfold EndSym.cpp
    simp only [hn, Bool.false_eq_true, if_false]
    exact (Lead.whole (sp_lead (ht.1.then ht.2)) (.const (by decide))).body
  | guard th vis scope => exact (path_cons (guard_whole th 0) (scope.layout hn hms h hi)).body

end Spec.Cxx

namespace Props
open Spec Spec.Cxx

theorem shows_is {E : Env} {m t out : Text} (h : Shows E m t) (ho : demangle E m = .ok (.ok out)) : out = t := by
  rcases h with h | ⟨_, h⟩
  · rw [h] at ho
    split at ho
    · cases ho; rfl
    · cases ho
  · rw [h] at ho; cases ho

/-- **C58**: the text of a variable, function, constructor, destructor, operator, conversion or thunk that a compiler
mangled has no blank at either end, no two blanks in a row, no blank after an opening or before a closing bracket,
comma or colon, if its identifiers have none, under all flags but `NAME_ONLY` and `NO_MS_KEYWORDS`. -/
theorem C58_declarations {E : Env} (hn : E.flags.name_only = false) (hms : E.flags.no_ms_keywords = false) (w : Bool) {d : Decl}
    (h : d.Ok E) (hd : Distinct E d.keys) (hi : ∀ s ∈ d.idents, TidyId s) {rest out : Text}
    (ho : demangle E ((d.mangle w {}).1 ++ rest) = .ok (.ok out)) : Tidy out := by
  rw [shows_is (C49_round_trip w h hd rest) ho]
  exact (d.layout hn hms h hi).tidy

/-- **C58**: so have the texts of tables, run-time type information, guards and initializers. -/
theorem C58_symbols {E : Env} (hn : E.flags.name_only = false) (hms : E.flags.no_ms_keywords = false) (w : Bool) {y : Sym}
    (h : y.Ok E) (hd : Distinct E y.keys) (hi : ∀ s ∈ y.idents, TidyId s) {rest out : Text}
    (ho : demangle E (y.mangle w ++ rest) = .ok (.ok out)) : Tidy out := by
  rw [shows_is (C53_symbols w h hd rest) ho]
  exact (Sym.layout hn hms h hi).tidy

/-- **C58**: and those of descriptors of types. -/
theorem C58_descriptors {E : Env} (hn : E.flags.name_only = false) (hms : E.flags.no_ms_keywords = false) (w : Bool) {y : EndSym}
    (h : y.Ok E) (hd : Distinct E y.keys) (hi : ∀ s ∈ y.idents, TidyId s) {out : Text}
    (ho : demangle E (y.mangle w) = .ok (.ok out)) : Tidy out := by
  rw [shows_is (C53_final_symbols w h hd) ho]
  exact (EndSym.layout hn hms h hi).tidy

/-- **C58**: the restrictions are needed. With `NO_MS_KEYWORDS` the blank before `__restrict` stays, with `NAME_ONLY` the
blank before `noexcept` of a function type whose other parts are left out; the attributes for the calling conventions of
Swift (which the compiler of `Spec/Mangler.lean` does not have) end in a blank of their own; a symbol without a name leaves
the blank after its type. -/
theorem C58_exceptions :
    demangle (EF Flags.NO_MS_KEYWORDS) c!"?f@@YAQIAHXZ" = .ok (.ok c!"int *const  f(void)") ∧
    demangle (EF Flags.NAME_ONLY) c!"?x@?$A@H$$A6AXX_E@@3HA" = .ok (.ok c!"A<int,  noexcept>::x") ∧
    demangle E0 c!"?a@@3P6SXXZA" = .ok (.ok c!"void (__attribute__((__swiftcall__))  *a)(void)") ∧
    demangle E0 c!"??_W@3HA" = .ok (.ok c!"int ") := by
  refine ⟨?_, ?_, ?_, ?_⟩ <;> decide +kernel

/-! ### Examples -/

theorem tidyId_of {s : Text} (h : (!s.contains ' ' && s.head?.all (fun c => !noBlankBefore.contains c) &&
    s.getLast?.all (fun c => !noBlankAfter.contains c)) = true) : TidyId s := by
  simp only [Bool.and_eq_true, Bool.not_eq_true', List.contains_eq_mem, decide_eq_false_iff_not] at h
  refine ⟨h.1.1, fun c hc e => ?_, fun c hc e => ?_⟩
  · have := h.1.2; rw [e] at this; simp [hc] at this
  · have := h.2; rw [e] at this; simp [hc] at this

/-- `void f(std::string, std::string)` of C49 meets the hypotheses. -/
example : ∀ s ∈ cxxFn.idents, TidyId s := fun s hs => by
  have : ∀ s ∈ cxxFn.idents, (!s.contains ' ' && s.head?.all (fun c => !noBlankBefore.contains c) &&
    s.getLast?.all (fun c => !noBlankAfter.contains c)) = true := by decide
  exact tidyId_of (this s hs)

example : TidyId c!"<lambda_1>" := tidyId_of (by decide)

/-- The specification is not empty: `int *const  f(void)` is not tidy. -/
example : ¬ Tidy c!"int *const  f(void)" := fun h => h.before ' ' (by decide) ⟨c!"int *const", c!"f(void)", by decide⟩
example : ¬ Tidy c!"int " := fun h => h.last (by decide)

end Props
end Undname
