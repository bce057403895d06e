/-
  What the text must have been when a leaf parser succeeds.
-/
import Verif.Proof.Acc

namespace Undname
open Spec (CV FnKind Sig Adjust AdjKind Access T Tbl Ext Name Fits cvCodes memberCvCodes ptrCodes refCodes primCode tagCode IsHex EncNat EncInt EncSigned)

section
variable {β : Type} {c : Cache} {ns ps : List Handle} {s : Text} {R : β → St → Prop}

/-! ### Qualifiers -/

theorem quals_inv : Wh demangle_qualifiers (mk s c ns ps) (∃ ch q u, s = ch :: u ∧ (ch, q) ∈ cvCodes ++ memberCvCodes) := by
  unfold demangle_qualifiers
  refine After.expectAny fun y u e => ?_
  subst e
  split
  all_goals first
    | exact After.now ⟨_, {}, _, rfl, by decide⟩
    | exact After.now ⟨_, { c := true }, _, rfl, by decide⟩
    | exact After.now ⟨_, { v := true }, _, rfl, by decide⟩
    | exact After.now ⟨_, { c := true, v := true }, _, rfl, by decide⟩
    | exact After.err

theorem pcv_inv : Wh demangle_pointer_cv_qualifiers (mk s c ns ps) (∃ code cv a u, s = code ++ u ∧ (code, cv, a) ∈ refCodes) := by
  unfold demangle_pointer_cv_qualifiers
  refine After.tryStr (fun u e => ?_) fun _ => ?_
  · exact After.now ⟨_, _, _, u, e, show (c!"$$Q", {}, .RValueReference) ∈ refCodes by decide⟩
  · refine After.expectAny fun y u e => ?_
    subst e
    split
    · exact After.now ⟨[_], _, _, u, rfl, show (c!"A", {}, .Reference) ∈ refCodes by decide⟩
    · exact After.now ⟨[_], _, _, u, rfl, show (c!"P", {}, .Pointer) ∈ refCodes by decide⟩
    · exact After.now ⟨[_], _, _, u, rfl, show (c!"Q", { c := true }, .Pointer) ∈ refCodes by decide⟩
    · exact After.now ⟨[_], _, _, u, rfl, show (c!"R", { v := true }, .Pointer) ∈ refCodes by decide⟩
    · exact After.now ⟨[_], _, _, u, rfl, show (c!"S", { c := true, v := true }, .Pointer) ∈ refCodes by decide⟩
    · exact After.err

theorem After.ext {k : Qualifiers → P β} (h : ∀ (e : Ext) u q, s = e.code ++ u → After (k q) (mk u c ns ps) R) :
    After (demangle_pointer_ext_qualifiers >>= k) (mk s c ns ps) R := by
  have key : ∃ (e : Ext) (u : Text) (q : Qualifiers), s = e.code ++ u ∧
      exec demangle_pointer_ext_qualifiers (mk s c ns ps) = .ok (q, mk u c ns ps) := by
    have one : ∀ (y : Char) (s : Text), ∃ (b : Bool) (u : Text), s = (if b then [y] else []) ++ u ∧
        exec (Undname.tryChar y) (mk s c ns ps) = .ok (b, mk u c ns ps) := by
      intro y s
      by_cases h : s.head? = some y
      · cases s with
        | nil => cases h
        | cons z u =>
          cases h
          exact ⟨true, u, rfl, by rw [tryChar_cons]; simp⟩
      · exact ⟨false, s, rfl, tryChar_head h⟩
    obtain ⟨b1, u1, e1, h1⟩ := one 'E' s
    obtain ⟨b2, u2, e2, h2⟩ := one 'I' u1
    obtain ⟨b3, u3, e3, h3⟩ := one 'F' u2
    have e4 : ∃ q, exec demangle_pointer_ext_qualifiers (mk s c ns ps) = .ok (q, mk u3 c ns ps) :=
      ⟨_, run_bind h1 (run_bind h2 (run_bind h3 rfl))⟩
    obtain ⟨q, e4⟩ := e4
    exact ⟨⟨b1, b2, b3⟩, u3, _, by rw [e1, e2, e3]; simp [Ext.code], e4⟩
  obtain ⟨e, u, q, e1, e2⟩ := key
  exact After.step e2 (h e u q e1)

theorem After.refq {k : Option FunctionRefQualifier → P β} (h : ∀ r u, s = Spec.refCode r ++ u → After (k r) (mk u c ns ps) R) :
    After (demangle_function_ref_qualifier >>= k) (mk s c ns ps) R := by
  by_cases hg : s.head? = some 'G'
  · cases s with
    | nil => cases hg
    | cons z u =>
      cases hg
      exact After.step (by simp [demangle_function_ref_qualifier, run]) (h (some .Reference) u rfl)
  · by_cases hh : s.head? = some 'H'
    · cases s with
      | nil => cases hh
      | cons z u =>
        cases hh
        exact After.step (by simp [demangle_function_ref_qualifier, run]) (h (some .RValueReference) u rfl)
    · exact After.step (ref_run none hg hh) (h none s rfl)

theorem throw_inv : Wh demangle_throw_specification (mk s c ns ps) (∃ b u, s = Spec.throwCode b ++ u) := by
  unfold demangle_throw_specification
  refine After.tryStr (fun u e => After.now ⟨true, u, e⟩) fun _ => ?_
  rw [if_neg (by simp)]
  refine After.tryChar (fun u e => After.now ⟨false, u, e⟩) fun _ => ?_
  rw [if_neg (by simp)]
  exact After.err

theorem storage_inv : Wh demangle_variable_storage_class (mk s c ns ps) (∃ ch sc u, s = ch :: u ∧ (ch, sc) ∈ Spec.storageCodes) := by
  unfold demangle_variable_storage_class
  refine After.expectAny fun y u e => ?_
  subst e
  split
  all_goals first
    | exact After.now ⟨_, .PrivateStatic, _, rfl, by decide⟩
    | exact After.now ⟨_, .ProtectedStatic, _, rfl, by decide⟩
    | exact After.now ⟨_, .PublicStatic, _, rfl, by decide⟩
    | exact After.now ⟨_, .Global, _, rfl, by decide⟩
    | exact After.now ⟨_, .FunctionLocalStatic, _, rfl, by decide⟩
    | exact After.err

theorem prim_inv : Wh primitive_kind (mk s c ns ps) (∃ k u, s = primCode k ++ u) := by
  unfold primitive_kind
  refine After.tryStr (fun u e => After.now ⟨.Nullptr, u, e⟩) fun _ => ?_
  rw [if_neg (by simp)]
  refine After.expectAny fun y u e => ?_
  subst e
  by_cases hy : y = '_'
  · subst hy
    refine After.iteB (fun _ => ?_) (by simp)
    refine After.expectAny fun y u e => ?_
    subst e
    refine After.okOr_end fun k hk => ?_
    refine ⟨k, u, ?_⟩
    unfold primitiveUnderOf at hk
    split at hk <;> first | (cases hk; rfl) | cases hk
  · refine After.iteB (by simp [hy]) fun _ => ?_
    refine After.okOr_end fun k hk => ?_
    refine ⟨k, u, ?_⟩
    unfold primitiveOf at hk
    split at hk <;> first | (cases hk; rfl) | cases hk

/-! ### Numbers -/

theorem number_loop_inv : ∀ (n : Nat) (v : Nat) (y : Char) (u : Text),
    Wh (SM.iterate n numberBody (v, y)) (mk u c ns ps) (∃ ds rest, y :: u = ds ++ '@' :: rest ∧ ∀ x ∈ ds, IsHex x) := by
  intro n
  induction n with
  | zero => intro v y u; exact After.iter_zero
  | succ n ih =>
    intro v y u
    refine After.round ?_
    unfold numberBody
    refine After.iteB (fun h => ?_) fun _ => ?_
    · refine After.pure ?_
      have : y = '@' := by simpa using h
      subst this
      exact ⟨[], u, rfl, by simp⟩
    · refine After.iteB (fun h => ?_) fun _ => After.err
      refine After.ite (fun _ => ?_) fun _ => After.crash
      refine After.expectAny fun z v' e => ?_
      subst e
      refine After.pure ?_
      refine After.mono (ih _ _ _) ?_
      rintro _ _ ⟨ds, rest, e, hds⟩
      refine ⟨y :: ds, rest, by rw [e]; rfl, ?_⟩
      intro x hx
      rcases List.mem_cons.1 hx with rfl | hx
      · exact (isHex_iff _).1 h
      · exact hds x hx

theorem number_inv : Wh demangle_number (mk s c ns ps) (∃ x n neg u, s = x ++ u ∧ EncInt x n neg) := by
  have key : ∀ (b : Bool) (t : Text), Wh (Undname.expectAny .InvalidNumber >>= fun c => if isDigit c then pure (c.toNat - '0'.toNat + 1, b)
      else do
        let n ← loopInput numberBody (0, c)
        pure (n, b)) (mk t c ns ps) (∃ x n u, t = x ++ u ∧ EncNat x n) := by
    intro b t
    refine After.expectAny fun y u e => ?_
    subst e
    refine After.iteB (fun h => ?_) fun _ => ?_
    · obtain ⟨d, hd, rfl⟩ := isDigit_of h
      exact After.now ⟨_, _, u, rfl, .digit d hd⟩
    · refine After.bind (Q := fun _ _ => ∃ ds rest, y :: u = ds ++ '@' :: rest ∧ ∀ x ∈ ds, IsHex x) (number_loop_inv _ _ _ _) ?_
      rintro _ _ ⟨ds, rest, e, hds⟩
      exact After.now ⟨ds ++ ['@'], _, rest, by simp [e], .hex ds hds⟩
  unfold demangle_number
  refine After.tryChar (fun u e => ?_) fun _ => ?_
  · refine After.mono (key true u) ?_
    rintro _ _ ⟨x, n, v, rfl, h⟩
    exact ⟨'?' :: x, n, true, v, by simp [e], .neg h⟩
  · refine After.mono (key false s) ?_
    rintro _ _ ⟨x, n, v, rfl, h⟩
    exact ⟨x, n, false, v, rfl, .pos h⟩

theorem unsigned_inv : Wh demangle_unsigned (mk s c ns ps) (∃ x n u, s = x ++ u ∧ EncNat x n) := by
  unfold demangle_unsigned
  refine After.know number_inv ?_
  rintro ⟨x, n, neg, u, rfl, h⟩
  refine After.step (encInt_run h) ?_
  cases h with
  | pos h => exact After.now ⟨_, _, _, rfl, h⟩
  | neg h => exact After.err

theorem signed_inv : Wh demangle_signed (mk s c ns ps) (∃ x n u, s = x ++ u ∧ EncSigned x n) := by
  unfold demangle_signed
  refine After.know number_inv ?_
  rintro ⟨x, n, neg, u, rfl, h⟩
  refine After.step (encInt_run h) ?_
  refine After.ite (fun hn => ?_) fun _ => After.err
  exact After.now ⟨_, _, _, rfl, ⟨h, hn⟩⟩

/-! ### Function classes -/

theorem class_inv : Wh demangle_function_class (mk s c ns ps)
    (∃ u, s = '9' :: u ∨ ∃ code k ak, s = code ++ u ∧ (code, k, ak) ∈ Spec.classCodes) := by
  have mem : ∀ code : Text, code ∈ Spec.classCodes.map (·.1) → ∃ k ak, (code, k, ak) ∈ Spec.classCodes := by
    intro code h
    obtain ⟨⟨a, k, ak⟩, h1, rfl⟩ := List.mem_map.1 h
    exact ⟨k, ak, h1⟩
  unfold demangle_function_class
  refine After.expectAny fun y u e => ?_
  subst e
  by_cases hy : y = '$'
  · subst hy
    refine After.iteB (fun _ => ?_) (by simp)
    refine After.tryChar (fun u e => ?_) fun _ => ?_
    · subst e
      refine After.expectAny fun y u e => ?_
      subst e
      refine After.okOr_end fun f hf => ?_
      refine ⟨u, .inr ?_⟩
      have : ∃ k ak, (['$', 'R', y], k, ak) ∈ Spec.classCodes := by
        apply mem
        unfold virtualFunctionClassOf at hf
        split at hf <;> first | (clear hf; decide) | cases hf
      obtain ⟨k, ak, h⟩ := this
      exact ⟨_, k, ak, rfl, h⟩
    · refine After.expectAny fun y u e => ?_
      subst e
      refine After.okOr_end fun f hf => ?_
      refine ⟨u, .inr ?_⟩
      have : ∃ k ak, (['$', y], k, ak) ∈ Spec.classCodes := by
        apply mem
        unfold virtualFunctionClassOf at hf
        split at hf <;> first | (clear hf; decide) | cases hf
      obtain ⟨k, ak, h⟩ := this
      exact ⟨_, k, ak, rfl, h⟩
  · refine After.iteB (by simp [hy]) fun _ => ?_
    refine After.okOr_end fun f hf => ?_
    refine ⟨u, ?_⟩
    by_cases h9 : y = '9'
    · subst h9; exact .inl rfl
    · refine .inr ?_
      have : ∃ k ak, ([y], k, ak) ∈ Spec.classCodes := by
        apply mem
        unfold functionClassOf at hf
        split at hf <;> first | (clear hf; decide) | exact (h9 rfl).elim | cases hf
      obtain ⟨k, ak, h⟩ := this
      exact ⟨_, k, ak, rfl, h⟩

/-- The numbers after the class of a function. -/
theorem adjust_inv {f : FuncClass} {ak : AdjKind} (hf : adjBits f ak = true) :
    Wh (thunk_adjust f) (mk s c ns ps) (∃ x adj u, s = x ++ u ∧ Spec.EncAdjust ak x adj) := by
  unfold thunk_adjust
  cases ak with
  | none => exact After.now ⟨_, _, s, rfl, .none⟩
  | static =>
    simp only [adjBits] at hf
    rw [if_pos hf]
    refine After.know signed_inv ?_
    rintro ⟨x, n, u, rfl, h⟩
    exact After.now ⟨_, _, _, rfl, .static h⟩
  | disp =>
    simp only [adjBits, Bool.and_eq_true, Bool.not_eq_true'] at hf
    rw [if_neg (by simp [hf]), if_pos hf.1.2, if_neg (by simp [hf])]
    refine After.know signed_inv ?_
    rintro ⟨x, n, u, rfl, h⟩
    refine After.step (signed_run h) ?_
    refine After.know signed_inv ?_
    rintro ⟨x2, n2, u2, rfl, h2⟩
    exact After.now ⟨_, _, u2, (List.append_assoc _ _ _).symm, .disp h h2⟩
  | dispex =>
    simp only [adjBits, Bool.and_eq_true, Bool.not_eq_true'] at hf
    rw [if_neg (by simp [hf]), if_pos hf.1.2, if_pos (by simp [hf])]
    refine After.know signed_inv ?_
    rintro ⟨x, n, u, rfl, h⟩
    refine After.step (signed_run h) ?_
    refine After.know signed_inv ?_
    rintro ⟨x2, n2, u2, rfl, h2⟩
    refine After.step (signed_run h2) ?_
    refine After.know signed_inv ?_
    rintro ⟨x3, n3, u3, rfl, h3⟩
    refine After.step (signed_run h3) ?_
    refine After.know signed_inv ?_
    rintro ⟨x4, n4, u4, rfl, h4⟩
    exact After.now ⟨_, _, u4, by simp only [List.append_assoc], .dispex h h2 h3 h4⟩

/-! ### Names -/

theorem find_inv {i : Nat} (h : (MStr.new s).find_char '@' = some i) :
    ∃ x u, s = x ++ '@' :: u ∧ '@' ∉ x ∧ i = utf8Len x := by
  have h' : MStr.findChar '@' s = some i := h
  clear h
  induction s generalizing i with
  | nil => cases h'
  | cons y s ih =>
    unfold MStr.findChar at h'
    by_cases hy : y = '@'
    · subst hy
      simp only [beq_self_eq_true, if_true, Option.some.injEq] at h'
      exact ⟨[], s, rfl, by simp, h'.symm⟩
    · rw [if_neg (by simpa using hy)] at h'
      cases hf : MStr.findChar '@' s with
      | none => rw [hf] at h'; cases h'
      | some j =>
        obtain ⟨x, u, rfl, hx, rfl⟩ := ih hf
        rw [hf] at h'
        cases h'
        exact ⟨y :: x, u, rfl, by simp [hx, Ne.symm hy], rfl⟩

theorem sstring_inv (b : Bool) : Wh (demangle_simple_string b) (mk s c ns ps) (∃ x u, s = x ++ '@' :: u ∧ x ≠ [] ∧ '@' ∉ x) := by
  unfold demangle_simple_string
  refine After.query (After.okOr fun i hi => ?_)
  obtain ⟨x, u, rfl, hx, rfl⟩ := find_inv hi
  refine After.iteB (fun _ => After.err) fun h => ?_
  refine After.now ⟨x, u, rfl, ?_, hx⟩
  rintro rfl
  simp [utf8Len] at h

theorem backref_inv {ns : List Handle} : Wh demangle_back_ref_name (mk s c ns ps) (∃ i u, i < 10 ∧ s = Spec.digit i ++ u ∧ ∃ h, ns[i]? = some h) := by
  unfold demangle_back_ref_name
  refine After.tryIf (fun y u e hy => ?_) fun _ => After.okOr fun a h => by cases h
  refine After.okOr fun a ha => ?_
  cases ha
  subst e
  obtain ⟨d, hd, rfl⟩ := isDigit_of hy
  refine After.get (After.okOr_end fun h hh => ⟨d, u, hd, rfl, h, ?_⟩)
  have : (Char.ofNat ('0'.toNat + d)).toNat - '0'.toNat = d :=
    (by decide : ∀ d, d < 10 → (Char.ofNat ('0'.toNat + d)).toNat - '0'.toNat = d) d hd
  rw [this] at hh
  exact hh

theorem All2.get' {α β : Type} {R : α → β → Prop} {as : List α} {bs : List β} (h : All2 R as bs) {i : Nat} {b : β} (e : bs[i]? = some b) :
    ∃ a, as[i]? = some a ∧ R a b := by
  induction h generalizing i with
  | nil => simp at e
  | cons h _ ih =>
    cases i with
    | zero => simp at e; subst e; exact ⟨_, rfl, h⟩
    | succ i => simp at e; simpa using ih e

end

end Undname
