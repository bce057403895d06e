/-
  Which texts begin a declaration, not a special symbol.
-/
import Verif.Proof.SimTmpl

namespace Undname
open Spec (T Tbl Cat Gram Free reserved Name)

theorem find_none_iff {α : Type} (l : List (Text × α)) (x : Text) :
    (l.find? fun e => e.1.isPrefixOf x) = none ↔ ∀ code ∈ l.map Prod.fst, ¬ code <+: x := by
  simp [List.find?_eq_none, ← List.isPrefixOf_iff_prefix]

theorem reserved_iff (code : Text) : code ∈ reserved ↔ code = c!"?@" ∨ code ∈ specialIntrinsics.map Prod.fst := by
  have h1 : ∀ c ∈ reserved, c = c!"?@" ∨ c ∈ specialIntrinsics.map Prod.fst := by decide
  have h2 : ∀ c ∈ specialIntrinsics.map Prod.fst, c ∈ reserved := by decide
  exact ⟨h1 _, fun h => h.elim (fun h => h ▸ List.mem_cons_self) (h2 _)⟩

theorem free_iff (x : Text) : Free x ↔ specialOf x = none ∧ (c!"?@").isPrefixOf x = false := by
  have e1 : specialOf x = none ↔ ∀ code ∈ specialIntrinsics.map Prod.fst, ¬ code <+: x := by
    rw [← find_none_iff]
    unfold specialOf
    cases specialIntrinsics.find? fun e => e.1.isPrefixOf x <;> simp
  have e2 : (c!"?@").isPrefixOf x = false ↔ ¬ c!"?@" <+: x := by
    rw [Bool.eq_false_iff, Ne, List.isPrefixOf_iff_prefix]
  rw [e1, e2]
  constructor
  · exact fun h => ⟨fun c hc => h c ((reserved_iff c).2 (.inr hc)), h _ ((reserved_iff _).2 (.inl rfl))⟩
  · rintro ⟨h1, h2⟩ c hc
    rcases (reserved_iff c).1 hc with rfl | hc
    · exact h2
    · exact h1 c hc

theorem SymHead.free {x : Text} (h : SymHead x) : Free x := by
  have := h []
  rw [List.append_nil] at this
  exact (free_iff x).2 this

theorem free_symHead {x : Text} (h : Free x) (ha : '@' ∈ x) : SymHead x := by
  intro rest
  rw [← free_iff]
  intro code hc hp
  rcases List.prefix_or_prefix_of_prefix hp (List.prefix_append x rest) with h1 | h1
  · exact h code hc h1
  · have hca : '@' ∈ code := h1.subset ha
    have key : ∀ c ∈ reserved, '@' ∈ c → c = c!"?@" := by decide
    cases key _ hc hca
    obtain ⟨z, hz⟩ := h1
    match x, ha, hz, h with
    | [a], ha, hz, h =>
      simp at hz ha
      rw [← ha] at hz
      exact absurd hz.1 (by decide)
    | a :: b :: l, _, hz, h =>
      injection hz with e1 hz
      injection hz with e2 hz
      subst e1; subst e2
      exact h _ hc ⟨l, rfl⟩

/-- A code that names something. -/
def T.known : T → Bool
  | .op none _ => false
  | _ => true

section
variable {E : Env} {tb tb' tb1 : Tbl} {t i : T} {x x0 y : Text}

theorem head_basic (c : Char) (h1 : c ≠ '_') (h2 : c ≠ '@') : SymHead ['?', c] := by
  have h6 : ('_' == c) = false := by simpa using Ne.symm h1
  have h7 : ('@' == c) = false := by simpa using Ne.symm h2
  intro rest
  simp [specialOf, specialIntrinsics, List.find?, List.isPrefixOf, h6, h7]

theorem head_name {s : Text} (h : Name s) (y : Text) : SymHead (s ++ y) := by
  obtain ⟨c, z, rfl, h1, h2, h3⟩ := name_cons h
  exact SymHead.plain h2 _

theorem head_digit {i : Nat} (hi : i < 10) : SymHead (Spec.digit i) := by
  obtain ⟨c, hc, h1, _⟩ := digit_char hi
  rw [hc]
  exact SymHead.plain (by rintro rfl; cases h1) _

theorem head_tmpl (y : Text) : SymHead ('?' :: '$' :: y) := by
  intro rest
  simp [specialOf, specialIntrinsics, List.find?, List.isPrefixOf]

theorem tmpl_form (h : Gram E .tmpl tb i x tb') : ∃ y, x = '?' :: '$' :: y := by
  cases h <;> exact ⟨_, rfl⟩

theorem fid_head (h : Gram E .fid tb i x tb') (hk : T.known i = true) : SymHead x := by
  cases h with
  | fName h => exact head_name h _
  | fOp h =>
    have key : ∀ p ∈ Spec.basicOps, p.1 ≠ '_' ∧ p.1 ≠ '@' := by decide
    exact head_basic _ (key _ h).1 (key _ h).2
  | fOpUnder h =>
    next c k =>
    have key : ∀ p ∈ Spec.underOps,
      (('7' == p.1) = false ∧ ('8' == p.1) = false ∧ ('9' == p.1) = false ∧ ('A' == p.1) = false ∧ ('B' == p.1) = false ∧ ('C' == p.1) = false ∧
      ('P' == p.1) = false ∧ ('R' == p.1) = false ∧ ('S' == p.1) = false ∧ ('_' == p.1) = false) := by decide
    obtain ⟨h1, h2, h3, h4, h5, h6, h7, h8, h9, h10⟩ := key _ h
    intro rest
    simp [specialOf, specialIntrinsics, List.find?, List.isPrefixOf, h1, h2, h3, h4, h5, h6, h7, h8, h9, h10]
  | fOpDunder h =>
    have key : ∀ p ∈ Spec.dunderOps, (('E' == p.1) = false ∧ ('F' == p.1) = false ∧ ('J' == p.1) = false) := by decide
    obtain ⟨h1, h2, h3⟩ := key _ h
    intro rest
    simp [specialOf, specialIntrinsics, List.find?, List.isPrefixOf, h1, h2, h3]
  | fOpNone h => cases hk
  | fOpNone2 h => cases hk
  | fLit h1 h2 => intro rest; simp [specialOf, specialIntrinsics, List.find?, List.isPrefixOf]
  | fCtor => exact head_basic _ (by decide) (by decide)
  | fDtor => exact head_basic _ (by decide) (by decide)
  | fConv => exact head_basic _ (by decide) (by decide)

theorem sname_head (h : Gram E .sname tb i x tb') (hk : T.known i = true) : SymHead x := by
  cases h with
  | sBack h1 _ => exact head_digit h1
  | sFull h => exact fid_head h hk
  | sTmpl h =>
    obtain ⟨y, rfl⟩ := tmpl_form h
    exact head_tmpl y

/-- Phrases with scopes or template arguments contain an `@`. -/
def HasAt : Cat → Text → Prop
  | .scopes, x | .targs, x | .decl, x => '@' ∈ x
  | _, _ => True

theorem gram_at {cat : Cat} (h : Gram E cat tb t x tb') : HasAt cat x := by
  induction h <;> first | trivial | (simp_all [HasAt]; done)

/-- A declaration whose name is not one of the codes without a meaning is a symbol. -/
theorem sym_of (h : Gram E .decl tb t x tb') {tb0 tb1 : Tbl} (h0 : Gram E .sname tb0 i x0 tb1) (hk : T.known i = true)
    (hp : x0 <+: x := by repeat (first | with_reducible exact List.prefix_append _ _ | with_reducible refine List.IsPrefix.trans ?_ (List.prefix_append _ _))) :
    Gram E .sym tb t ('?' :: x) tb' := by
  obtain ⟨z, rfl⟩ := hp
  exact .sym h ((sname_head h0 hk).append z).free

end

end Undname
