/-
  Property theorems C15, C22, C36, C42: the rejections.
-/
import Verif.Proof.Bad3
import Verif.Props.Special
import Verif.Proof.Eval

namespace Undname
namespace Props
open Spec

variable {E : Env}

/-! ### C15: numbers out of range -/

/-- **C15**: a pair of signed numbers is rejected if one of them is 2^63 or more in absolute value (see `C15_signed` for
the others). -/
theorem C15_out_of_range {s : Text} (hs : Name s) {x y : Text} {a b : Nat} {na nb : Bool} (hx : EncInt x a na) (hy : EncInt y b nb)
    (h : 2 ^ 63 ≤ a ∨ 2 ^ 63 ≤ b) (rest : Text) :
    Rejects E (c!"??$" ++ s ++ c!"@$F" ++ x ++ y ++ rest) .InvalidSigned := by
  have hb : ¬ (a < 2 ^ 63 ∧ b < 2 ^ 63) := by omega
  have hfid : MFid E {} (.named s .nil) (s ++ c!"@") (({} : Tbl).note s) := gram_reads (.fName hs)
  have := bad_decl_tmpl (tb := {}) hfid (bad_pair (x' := rest) (E := E) (tb := ({} : Tbl).note s) hx hy hb)
  have := bad_sym ⟨rfl, rfl⟩ this
  simpa using this

/-- **C15**: the numbers after the class of a thunk: the name is rejected if one is 2^63 or more in absolute value. -/
theorem C15_thunk_out_of_range {code what : Text} {ak : AdjKind} (h : (code, what, ak) ∈ thunkCodes) {name : List Text} (hn : IsPath name)
    {l : List (Text × Nat × Bool)} (hl : l.length = match ak with | .none => 0 | .static => 1 | .disp => 2 | .dispex => 4)
    (hx : ∀ p ∈ l, EncInt p.1 p.2.1 p.2.2) (hb : ∃ p ∈ l, 2 ^ 63 ≤ p.2.1) (rest : Text) :
    Rejects E (c!"?" ++ manglePath name ++ code ++ (l.map (·.1)).flatten ++ rest) .InvalidSigned := by
  obtain ⟨k, hk, hthis, hbare, hx', hak, rfl, hne, hsp⟩ := thunk_code h
  obtain ⟨p, hp, hpb⟩ := hb
  have hl' : l.length = adjCount ak := by cases ak <;> exact hl
  obtain ⟨hne, hp'⟩ := hn
  cases name with
  | nil => exact absurd rfl hne
  | cons s p =>
    have h1 : MSname E {} (.named s .nil) (s ++ c!"@") (({} : Tbl).note s) := gram_reads (sname_gram (E := E) (hp' s (by simp)) {})
    obtain ⟨tb1, g1⟩ := scopes_gram (E := E) (p := p) (fun s hs => hp' s (by simp [hs])) (({} : Tbl).note s)
    have h2 : MScopes E _ _ _ tb1 := gram_reads g1
    have h3 := fqs_plain h1 rfl h2
    have hb := bad_adjust (E := E) (tb := tb1) (y := rest) hk hl' hx ⟨_, hp, by omega⟩
    have hcons : ∃ c u, code = c :: u ∧ (c == '0' || c == '1' || c == '2' || c == '3' || c == '4') = false := by
      have : ∀ p ∈ thunkCodes, ∃ c u, p.1 = c :: u ∧ (c == '0' || c == '1' || c == '2' || c == '3' || c == '4') = false := by
        intro p hp
        simp only [thunkCodes, List.mem_cons, List.not_mem_nil, or_false] at hp
        rcases hp with rfl | rfl | rfl | rfl | rfl | rfl | rfl | rfl | rfl | rfl | rfl | rfl | rfl | rfl | rfl | rfl | rfl | rfl <;>
          exact ⟨_, _, rfl, rfl⟩
      exact this _ h
    obtain ⟨c, u, rfl, hc⟩ := hcons
    have h4 := bad_decl_func h3 hc hb
    have := bad_sym (((head_name (hp' s (by simp)) c!"@").append _) _) (by simpa using h4)
    simpa [manglePath_cons] using this

/-! ### C22: text after a type -/

/-- **C22**: a typeinfo name followed by anything is rejected; `x` is any type (`Gram E .tyR`). -/
theorem C22_typeinfo_complete {t : T} {x : Text} {tb' : Tbl} (h : Gram E .tyR {} t x tb') {rest : Text} (hr : rest ≠ []) :
    Rejects E (c!"." ++ x ++ rest) .InvalidTypeinfoName :=
  bad_typeinfo (gram_reads h) hr

/-- **C22**: so is an RTTI type descriptor. -/
theorem C22_rtti_complete {t : T} {x : Text} {tb' : Tbl} (h : Gram E .tyR {} t x tb') {rest : Text} (hr : rest ≠ []) :
    Rejects E (c!"??_R0" ++ x ++ c!"@8" ++ rest) .InvalidSpecialIntrinsic :=
  bad_rttiType (gram_reads h) hr

/-- **C22**: without the rest they are accepted. -/
theorem C22_typeinfo_accepted {t : T} {x : Text} {tb' : Tbl} (h : Gram E .tyR {} t x tb') :
    Shows E (c!"." ++ x) ((T.typeDescr t).text E) :=
  shows_symEnd (Gram.typeinfo h)

/-! ### C36: codes that do not exist -/

/-- **C36**: after `??`, `??_` and `??__`, a character that is neither a digit nor an upper-case letter is rejected
(apart from `??@`, `??$` and the underscores themselves, which mean something else). -/
theorem C36_no_code {c : Char} (hc : c.isDigit = false ∧ c.isUpper = false) {p : Text}
    (hp : (p = c!"??" ∧ c ∉ c!"@$_") ∨ (p = c!"??_" ∧ c ≠ '_') ∨ p = c!"??__") (rest : Text) :
    Rejects E (p ++ [c] ++ rest) .InvalidIntrinsicFunctionCode := by
  have hn : NoCode c := by
    have h1 : isDigit c = c.isDigit := by unfold isDigit; rfl
    have h2 : isUpper c = c.isUpper := by
      unfold isUpper Char.isUpper
      simp only [UInt32.le_iff_toNat_le, Char.toNat]
      first | rfl | (rw [Bool.decide_and]; rfl) | simp
    exact ⟨h1.trans hc.1, h2.trans hc.2⟩
  rcases hp with ⟨rfl, hc⟩ | ⟨rfl, hc⟩ | rfl
  · simpa using bad_code (E := E) (x := rest) (p := []) hn (.inl ⟨rfl, hc⟩)
  · simpa using bad_code (E := E) (x := rest) (p := c!"_") hn (.inr (.inl ⟨rfl, hc⟩))
  · simpa using bad_code (E := E) (x := rest) (p := c!"__") hn (.inr (.inr rfl))

/-! ### C42: bad arrays -/

theorem bad_var {name : List Text} (hn : IsPath name) {y : Text} {e : Error} (hb : ∀ tb, BadTy E tb y e) :
    Rejects E (c!"?" ++ manglePath name ++ c!"3" ++ y) e := by
  obtain ⟨hne, hp'⟩ := hn
  cases name with
  | nil => exact absurd rfl hne
  | cons s p =>
    have h1 : MSname E {} (.named s .nil) (s ++ c!"@") (({} : Tbl).note s) := gram_reads (sname_gram (E := E) (hp' s (by simp)) {})
    obtain ⟨tb1, g1⟩ := scopes_gram (E := E) (p := p) (fun s hs => hp' s (by simp [hs])) (({} : Tbl).note s)
    have h2 : MScopes E _ _ _ tb1 := gram_reads g1
    have h3 := fqs_plain h1 rfl h2
    have h4 := bad_decl_var (show ('3', StorageClass.Global) ∈ storageCodes by decide) h3 (hb tb1)
    have := bad_sym (((head_name (hp' s (by simp)) c!"@").append _) _) (by simpa using h4)
    simpa [manglePath_cons] using this

/-- **C42**: an array type of rank 0 or negative rank. -/
theorem C42_bad_rank {name : List Text} (hn : IsPath name) {x : Text} {a : Nat} {na : Bool} (hx : EncInt x a na) (h : na = true ∨ a = 0)
    (rest : Text) : Rejects E (c!"?" ++ manglePath name ++ c!"3Y" ++ x ++ rest) .InvalidArrayType := by
  have := bad_var (E := E) hn fun tb => bad_rank (y := rest) hx h
  simpa using this

/-- **C42**: an array type with a negative dimension. -/
theorem C42_bad_dimension {name : List Text} (hn : IsPath name) {x y z : Text} {r d : Nat} {dims : List Nat} (hx : EncNat x r)
    (hy : EncDims y dims) (hr : dims.length < r) (hz : EncInt z d true) (rest : Text) :
    Rejects E (c!"?" ++ manglePath name ++ c!"3Y" ++ x ++ y ++ z ++ rest) .InvalidArrayType := by
  have := bad_var (E := E) hn fun tb => bad_dim hx hy hr hz rest
  simpa using this

/-! ### Concrete cases -/

example : demangle E0 c!"??$f@$F?3IAAAAAAAAAAAAAAA@@@YAXXZ" = .ok (.error .InvalidSigned) := by
  have := C15_out_of_range (E := E0) (s := c!"f") (by decide) (.neg (.digit 3 (by decide)))
    (.pos (.hex c!"IAAAAAAAAAAAAAAA" (by decide))) (.inr (by decide)) c!"@@YAXXZ"
  exact (congrArg (demangle E0) (by decide +kernel)).trans (this.short (by decide +kernel))

example : demangle E0 c!"?f@C@@$43IAAAAAAAAAAAAAAA@EAAXXZ" = .ok (.error .InvalidSigned) := by
  have := C15_thunk_out_of_range (E := E0) (code := c!"$4") (what := c!"public: virtual ") (ak := .disp) (by decide) (name := [c!"f", c!"C"]) (by decide)
    (l := [(c!"3", 4, false), (c!"IAAAAAAAAAAAAAAA@", 2 ^ 63, false)]) rfl (by
      simp only [List.mem_cons, List.not_mem_nil, or_false, forall_eq_or_imp, forall_eq]
      exact ⟨.pos (.digit 3 (by decide)), .pos (.hex c!"IAAAAAAAAAAAAAAA" (by decide))⟩) ⟨(c!"IAAAAAAAAAAAAAAA@", 2 ^ 63, false), by simp, Nat.le_refl _⟩ c!"EAAXXZ"
  exact (congrArg (demangle E0) (by decide +kernel)).trans (this.short (by decide +kernel))

example : demangle E0 c!".?AUS@@x" = .ok (.error .InvalidTypeinfoName) := by
  have g : Gram E0 .tyR {} _ c!"?AUS@@" _ :=
    .resQual (ch := 'A') (q := {}) (by decide) (.tag .Struct (.qtn (.uName (s := c!"S") (by decide)) .scNil))
  exact (C22_typeinfo_complete g (rest := c!"x") (by decide)).short (by decide)

example : demangle E0 c!"??_a@@YAXXZ" = .ok (.error .InvalidIntrinsicFunctionCode) :=
  (C36_no_code (E := E0) (c := 'a') (by decide) (p := c!"??_") (.inr (.inl ⟨rfl, by decide⟩)) c!"@@YAXXZ").short (by decide)

example : demangle E0 c!"?x@@3Y@HA" = .ok (.error .InvalidArrayType) := by
  have := C42_bad_rank (E := E0) (name := [c!"x"]) (by decide) (.pos (.hex [] (by decide))) (.inr (by decide)) c!"HA"
  exact (congrArg (demangle E0) (by decide +kernel)).trans (this.short (by decide +kernel))

example : demangle E0 c!"?x@@3Y13?1HA" = .ok (.error .InvalidArrayType) := by
  have := C42_bad_dimension (E := E0) (name := [c!"x"]) (by decide) (.digit 1 (by decide)) (.cons (.digit 3 (by decide)) .nil) (by decide)
    (.neg (.digit 1 (by decide))) c!"HA"
  exact (congrArg (demangle E0) (by decide +kernel)).trans (this.short (by decide +kernel))

end Props
end Undname
