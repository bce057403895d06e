/-
  The first decision of the parser: which kind of symbol a name denotes.
-/
import Verif.Proof.Emit

namespace Undname

theorem tryTable_eq {α : Type} (l : List (Text × α)) (t : Text) (c : Cache) (ns ps : List Handle) :
    exec (tryTable l) (mk t c ns ps) =
      match l.find? fun e => e.1.isPrefixOf t with
      | some (u, a) => .ok (some a, mk (t.drop u.length) c ns ps)
      | none => .ok (none, mk t c ns ps) := by
  induction l with
  | nil => rfl
  | cons e l ih =>
    obtain ⟨u, a⟩ := e
    unfold tryTable
    rw [List.find?_cons]
    cases hu : u.isPrefixOf t with
    | true =>
      obtain ⟨t', rfl⟩ := List.isPrefixOf_iff_prefix.mp hu
      rw [run_bind_eq, tryStr_hit]
      simp [run]
    | false =>
      rw [run_bind_eq, tryStr_miss _ _ _ _ _ hu]
      simp only [run, Bool.false_eq_true, if_false, ih]

/-- The kind of special symbol announced by the text after the first `?`, and what follows it. -/
def specialOf (t : Text) : Option (SpecialIntrinsicKind × Text) :=
  match specialIntrinsics.find? fun e => e.1.isPrefixOf t with
  | some (u, a) => some (a, t.drop u.length)
  | none => none

theorem consume_special_eq (t : Text) (c : Cache) (ns ps : List Handle) :
    exec consume_special_intrinsic_kind (mk t c ns ps) =
      match specialOf t with
      | some (a, t') => .ok (some a, mk t' c ns ps)
      | none => .ok (none, mk t c ns ps) := by
  unfold consume_special_intrinsic_kind specialOf
  rw [tryTable_eq]
  cases specialIntrinsics.find? fun e => e.1.isPrefixOf t <;> rfl

section
variable {rend : Renderer} {r : Fns} {t t' : Text} {c : Cache} {ns ps : List Handle}

theorem do_parse_head (hm : (c!"?@").isPrefixOf t = false) : exec (do_parse rend r) (mk ('?' :: t) c ns ps) =
    match specialOf t with
    | some (k, t') => exec (special_intrinsic rend r k) (mk t' c ns ps)
    | none => exec (demangle_declarator rend r) (mk t c ns ps) := by
  have h1 : (MStr.new ('?' :: t)).starts_with c!"." = false := rfl
  have h2 : (MStr.new ('?' :: t)).starts_with c!"??@" = false := hm
  unfold do_parse
  simp only [run_bind_eq, query_mk, andThen_ok, h1, h2, Bool.false_eq_true, if_false, expectChar_cons,
    beq_self_eq_true, if_true, consume_special_eq]
  cases specialOf t with
  | none => rfl
  | some p => rfl

theorem do_parse_special {k : SpecialIntrinsicKind} (h : specialOf t = some (k, t')) :
    exec (do_parse rend r) (mk ('?' :: t) c ns ps) = exec (special_intrinsic rend r k) (mk t' c ns ps) := by
  have hm : (c!"?@").isPrefixOf t = false := by
    cases hp : (c!"?@").isPrefixOf t with
    | false => rfl
    | true =>
      obtain ⟨u, rfl⟩ := List.isPrefixOf_iff_prefix.mp hp
      have : specialOf (c!"?@" ++ u) = none := rfl
      rw [this] at h; cases h
  rw [do_parse_head hm, h]

theorem do_parse_declarator (hm : (c!"?@").isPrefixOf t = false) (h : specialOf t = none) :
    exec (do_parse rend r) (mk ('?' :: t) c ns ps) = exec (demangle_declarator rend r) (mk t c ns ps) := by
  rw [do_parse_head hm, h]

end

theorem parse_def (rend : Renderer) (t : Text) :
    parse rend t = exec (do_parse rend (fns rend t.length)) (mk t [] [] []) := rfl

end Undname
