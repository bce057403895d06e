/-
  More texts the parser rejects: text after a type, operator codes, arrays.
-/
import Verif.Proof.Bad2

namespace Undname
open Spec

section
variable {E : Env} {tb tb' tb1 : Tbl} {t : T} {x y : Text} {e : Error}

theorem not_empty (h : y ≠ []) : (MStr.new y).is_empty = false := by
  cases y with
  | nil => exact absurd rfl h
  | cons c y => rfl

/-- Text after the type of a typeinfo name. -/
theorem bad_typeinfo (h : MTyR E {} t x tb') (hy : y ≠ []) : Rejects E ('.' :: x ++ y) .InvalidTypeinfoName := by
  refine rejects_of ?_
  show Fails (do_parse (render E) (fns (render E) _)) _ _
  unfold do_parse
  refine Fails.query ?_
  rw [mk_str, show (MStr.new ('.' :: x ++ y)).starts_with c!"." = true from rfl, if_pos rfl]
  unfold demangle_typeinfo_name
  refine Fails.step (expectChar_cons _ _ _ _ _ _ _) ?_
  refine Runs.fail (w := []) (h.run _) (Tab.empty []) fun ty w1 ns1 ps1 hp1 ht1 H1 => ?_
  refine Fails.query ?_
  rw [mk_str, not_empty hy]
  exact Fails.err

/-- Text after an RTTI type descriptor. -/
theorem bad_rttiType (h : MTyR E {} t x tb') (hy : y ≠ []) : Rejects E (c!"??_R0" ++ x ++ c!"@8" ++ y) .InvalidSpecialIntrinsic := by
  refine rejects_of ?_
  refine Fails.of_eq (m := (fns (render E) (_ + 1)).parse) (do_parse_special (k := .RttiTypeDescriptor) (t := c!"?_R0" ++ x ++ c!"@8" ++ y) (t' := x ++ (c!"@8" ++ y)) ?_) ?_
  · have : ∀ s, specialOf (c!"?_R0" ++ s) = some (.RttiTypeDescriptor, s) := fun _ => rfl
    rw [← this]; simp
  · unfold special_intrinsic demangle_rtti_type_descriptor
    refine Runs.fail (w := []) (h.run _) (Tab.empty []) fun ty w1 ns1 ps1 hp1 ht1 H1 => ?_
    refine Fails.step (expectStr_hit (s := c!"@8")) (Fails.query ?_)
    rw [mk_str, not_empty hy]
    exact Fails.err

/-! ### Operator codes -/

/-- Characters that are no code. -/
def NoCode (c : Char) : Prop := isDigit c = false ∧ isUpper c = false

theorem NoCode.ne {c d : Char} (h : NoCode c) (hd : (isDigit d || isUpper d) = true) : (d == c) = false := by
  rw [Bool.eq_false_iff]
  intro e
  rw [beq_iff_eq] at e
  subst e
  rw [h.1, h.2] at hd
  cases hd

theorem fails_group {c : Char} (h : NoCode c) (g : CodeGroup) (w : Cache) (ns ps : List Handle) :
    Fails (demangle_function_identifier_code_group g) (mk (c :: x) w ns ps) .InvalidIntrinsicFunctionCode := by
  unfold demangle_function_identifier_code_group
  refine Fails.step (expectAny_cons _ _ _ _ _ _) ?_
  have h0 : (c == '0') = false := by rw [Bool.beq_comm]; exact h.ne rfl
  have h1 : (c == '1') = false := by rw [Bool.beq_comm]; exact h.ne rfl
  have hB : (c == 'B') = false := by rw [Bool.beq_comm]; exact h.ne rfl
  have hK : (c == 'K') = false := by rw [Bool.beq_comm]; exact h.ne rfl
  simp only [h0, h1, hB, hK, Bool.or_self, Bool.and_false, Bool.false_eq_true, if_false]
  refine Fails.left ?_
  have : translate_intrinsic_function_code c g = .error (.err .InvalidIntrinsicFunctionCode) := by
    unfold translate_intrinsic_function_code
    simp [h.1, h.2]
  rw [this]
  exact Fails.eq rfl

set_option linter.unusedSimpArgs false in
/-- The name of a symbol: a code that does not exist. -/
theorem bad_code {c : Char} {p : Text} (h : NoCode c) (hp : (p = [] ∧ c ∉ c!"@$_") ∨ (p = c!"_" ∧ c ≠ '_') ∨ p = c!"__") :
    Rejects E ('?' :: ('?' :: p ++ c :: x)) .InvalidIntrinsicFunctionCode := by
  have hne : ∀ d, (isDigit d || isUpper d) = true → (d == c) = false := fun d hd => h.ne hd
  have key : ∀ d : Char, (isDigit d || isUpper d) = true → (d == c) = false := hne
  refine bad_sym ?_ ?_
  · unfold specialOf
    have h7 := key '7' rfl; have h8 := key '8' rfl; have h9 := key '9' rfl
    have hA := key 'A' rfl; have hB := key 'B' rfl; have hC := key 'C' rfl; have hP := key 'P' rfl; have hR := key 'R' rfl
    have hS := key 'S' rfl; have hE := key 'E' rfl; have hF := key 'F' rfl; have hJ := key 'J' rfl
    rcases hp with ⟨rfl, hc⟩ | ⟨rfl, hc⟩ | rfl
    · simp only [List.mem_cons, List.not_mem_nil, or_false, not_or] at hc
      have ha : ('@' == c) = false := by simpa using Ne.symm hc.1
      have hu : ('_' == c) = false := by simpa using Ne.symm hc.2.2
      constructor
      · simp [specialIntrinsics, List.find?, List.isPrefixOf, hu]
      · simp [List.isPrefixOf, ha]
    · have hu : ('_' == c) = false := by simpa using Ne.symm hc
      constructor
      · simp [specialIntrinsics, List.find?, List.isPrefixOf, hu, h7, h8, h9, hA, hB, hC, hP, hR, hS, hE, hF, hJ]
      · simp [List.isPrefixOf]
    · constructor
      · simp [specialIntrinsics, List.find?, List.isPrefixOf, h7, h8, h9, hA, hB, hC, hP, hR, hS, hE, hF, hJ]
      · simp [List.isPrefixOf]
  · intro n w ns ps ht
    unfold demangle_declarator
    refine Fails.left ?_
    unfold demangle_fully_qualified_symbol_name
    refine Fails.left ?_
    unfold demangle_unqualified_symbol_name
    refine Fails.step (firstIs_cons _ _ _ _ _ _) ?_
    rw [show isDigit '?' = false from rfl]
    refine Fails.query ?_
    have e1 : (mk ('?' :: (p ++ c :: x)) w.c ns ps).str.starts_with c!"?$" = false := by
      have : (c!"?$").isPrefixOf ('?' :: (p ++ c :: x)) = false := by
        rcases hp with ⟨rfl, hc⟩ | ⟨rfl, hc⟩ | rfl
        · simp only [List.mem_cons, List.not_mem_nil, or_false, not_or] at hc
          have : ('$' == c) = false := by simpa using Ne.symm hc.2.1
          simp [List.isPrefixOf, this]
        · rfl
        · rfl
      exact this
    have e2 : (mk ('?' :: (p ++ c :: x)) w.c ns ps).str.starts_with c!"?" = true := rfl
    refine Fails.of_eq (congrArg (fun b : Bool => exec (if b = true then _ else _) _) e1) ?_
    refine Fails.query ?_
    refine Fails.of_eq (congrArg (fun b : Bool => exec (if b = true then _ else _) _) e2) ?_
    show Fails demangle_function_identifier_code _ _
    unfold demangle_function_identifier_code
    refine Fails.step (expectChar_cons _ _ _ _ _ _ _) ?_
    rcases hp with ⟨rfl, hc⟩ | ⟨rfl, hc⟩ | rfl
    · simp only [List.mem_cons, List.not_mem_nil, or_false, not_or] at hc
      have hu : ('_' == c) = false := by simpa using Ne.symm hc.2.2
      refine Fails.step (tryStr_miss _ _ _ _ _ (show (c!"__").isPrefixOf (c :: x) = false by simp [List.isPrefixOf, hu])) ?_
      refine Fails.step (a := false) (tryChar_head (show (c :: x).head? ≠ some '_' by simpa using hc.2.2)) ?_
      exact fails_group h _ _ _ _
    · have hu : ('_' == c) = false := by simpa using Ne.symm hc
      refine Fails.step (tryStr_miss _ _ _ _ _ (show (c!"__").isPrefixOf ('_' :: c :: x) = false by simp [List.isPrefixOf, hu])) ?_
      refine Fails.step (tryChar_cons _ _ _ _ _ _) ?_
      exact fails_group h _ _ _ _
    · refine Fails.step (tryStr_hit _ c!"__" _ _ _) ?_
      exact fails_group h _ _ _ _

/-! ### Arrays -/

theorem bad_rank {a : Nat} {na : Bool} (hx : EncInt x a na) (h : na = true ∨ a = 0) : BadTy E tb ('Y' :: x ++ y) .InvalidArrayType := by
  refine ⟨rfl, fun n w ns ps ht => ?_⟩
  refine Fails.of_eq body_array ?_
  unfold demangle_array_type
  refine Fails.step (expectChar_cons _ _ _ _ _ _ _) ?_
  refine Fails.step (encInt_run hx) ?_
  have : (na || a == 0) = true := by rcases h with rfl | rfl <;> simp
  simp only [this, if_true]
  exact Fails.err

theorem fails_dims {dims : List Nat} (hy : EncDims y dims) {z : Text} {d : Nat} (hz : EncInt z d true) (rest : Text) (k : Nat) :
    ∀ (acc : List Handle) (w : World) (ns ps : List Handle),
      Fails (SM.forN (dims.length + (k + 1)) arrayDim acc) (mk (y ++ (z ++ rest)) w.c ns ps) .InvalidArrayType := by
  induction hy with
  | nil =>
    intro acc w ns ps
    rw [show ([] : List Nat).length + (k + 1) = k + 1 by simp]
    show Fails (arrayDim acc >>= SM.forN k arrayDim) _ _
    refine Fails.left ?_
    unfold arrayDim
    rw [List.nil_append]
    refine Fails.step (encInt_run hz) ?_
    exact Fails.err
  | @cons x y n dims hx _ ih =>
    intro acc w ns ps
    rw [show (n :: dims).length + (k + 1) = dims.length + (k + 1) + 1 by simp; omega]
    show Fails (arrayDim acc >>= SM.forN _ arrayDim) _ _
    rw [List.append_assoc]
    unfold arrayDim
    refine Fails.bind (Q := fun hs s => ∃ w' : World, s = mk (y ++ (z ++ rest)) w'.c ns ps) ?_ ?_
    · refine Sim.step (encNat_run hx) ?_
      refine Sim.intern true ?_
      exact ⟨_, rfl⟩
    · rintro hs s ⟨w', rfl⟩
      exact ih hs w' ns ps

theorem bad_dim {r : Nat} {dims : List Nat} (hx : EncNat x r) (hy : EncDims y dims) (hr : dims.length < r) {z : Text} {d : Nat}
    (hz : EncInt z d true) (rest : Text) : BadTy E tb ('Y' :: x ++ y ++ z ++ rest) .InvalidArrayType := by
  refine ⟨rfl, fun n w ns ps ht => ?_⟩
  simp only [List.append_assoc, List.cons_append]
  refine Fails.of_eq body_array ?_
  unfold demangle_array_type
  refine Fails.step (expectChar_cons _ _ _ _ _ _ _) ?_
  refine Fails.step (encNat_run hx) ?_
  have : (false || r == 0) = false := by
    cases r with
    | zero => omega
    | succ r => rfl
  simp only [this, Bool.false_eq_true, if_false]
  obtain ⟨k, rfl⟩ : ∃ k, r = dims.length + (k + 1) := ⟨r - dims.length - 1, by omega⟩
  exact Fails.left (fails_dims hy hz rest k _ _ _ _)

theorem fails_many {dims : List Nat} (hy : EncDims y dims) (rest : Text) :
    ∀ (acc : List Handle) (c : Cache) (ns ps : List Handle), 2048 < c.length + dims.length → (dims = [] → c.length ≤ 2048) →
      Fails (SM.forN dims.length arrayDim acc) (mk (y ++ rest) c ns ps) .MaliciousInput := by
  induction hy with
  | nil =>
    intro acc c ns ps h h'
    have := h' rfl
    simp at h
    omega
  | @cons x y n dims hx _ ih =>
    intro acc c ns ps h _
    show Fails (arrayDim acc >>= SM.forN _ arrayDim) _ _
    rw [List.append_assoc]
    by_cases hc : c.length < 2048
    · have : exec (arrayDim acc) (mk (x ++ (y ++ rest)) c ns ps) =
          .ok (acc ++ [c.length], mk (y ++ rest) (c ++ [.IntegerLiteral n false]) ns ps) := by
        unfold arrayDim
        rw [run_bind_eq, encNat_run hx]
        show exec (intern _ >>= _) _ = _
        rw [run_bind_eq, intern_mk, if_pos hc]
        rfl
      refine Fails.step this (ih _ _ _ _ ?_ ?_)
      · simp at h ⊢; omega
      · intro _; simp; omega
    · refine Fails.left ?_
      refine Fails.eq ?_
      unfold arrayDim
      rw [run_bind_eq, encNat_run hx]
      show exec (intern _ >>= _) _ = _
      rw [run_bind_eq, intern_mk, if_neg hc]
      rfl

theorem bad_many_dims {dims : List Nat} (hx : EncNat x dims.length) (hy : EncDims y dims) (hr : 2048 < dims.length) (rest : Text) :
    BadTy E tb ('Y' :: x ++ y ++ rest) .MaliciousInput := by
  refine ⟨rfl, fun n w ns ps ht => ?_⟩
  simp only [List.append_assoc, List.cons_append]
  refine Fails.of_eq body_array ?_
  unfold demangle_array_type
  refine Fails.step (expectChar_cons _ _ _ _ _ _ _) ?_
  refine Fails.step (encNat_run hx) ?_
  have : (false || dims.length == 0) = false := by
    cases dims with
    | nil => simp at hr
    | cons d dims => rfl
  simp only [this, Bool.false_eq_true, if_false]
  exact Fails.left (fails_many hy rest _ _ _ _ (by omega) (by rintro rfl; simp at hr))

end

end Undname
