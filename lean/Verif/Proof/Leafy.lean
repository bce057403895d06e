/-
  Parsers that only look at the input: they neither read nor change the rest of the state.
-/
import Verif.Proof.Run
import Verif.Proof.Leaf

namespace Undname

/-- The parser depends only on the input, changes nothing else, and leaves a suffix of the input. -/
def Leafy {α : Type} (m : P α) : Prop := ∀ str : MStr, ∃ r : Except Fail (α × MStr),
  (∀ s : St, s.str = str → exec m s = andThen r fun x => .ok (x.1, { s with str := x.2 })) ∧
  (∀ a x, r = .ok (a, x) → x.string <:+ str.string)

namespace Leafy
variable {α β γ : Type} {m : P α} {f : α → P β}

theorem bind (h : Leafy m) (hf : ∀ a, Leafy (f a)) : Leafy (m >>= f) := by
  intro str
  obtain ⟨r, hr, hs⟩ := h str
  cases r with
  | error e =>
    exact ⟨.error e, fun s hs => by rw [run_bind_eq, hr s hs]; rfl, fun _ _ h => by cases h⟩
  | ok p =>
    obtain ⟨a, x⟩ := p
    obtain ⟨r', hr', hs'⟩ := hf a x
    refine ⟨r', fun s h => ?_, fun b y hb => (hs' b y hb).trans (hs a x rfl)⟩
    rw [run_bind_eq, hr s h]
    exact hr' _ rfl

theorem pure (a : α) : Leafy (Pure.pure a) := fun str =>
  ⟨.ok (a, str), fun s h => by subst h; rfl, fun _ _ h => by cases h; exact List.suffix_rfl⟩
theorem pure' (a : α) : Leafy (SM.pure a : P α) := pure a
theorem err (e : Error) : Leafy (SM.err e : P α) := fun _ =>
  ⟨.error (.err e), fun _ _ => rfl, fun _ _ h => by cases h⟩
theorem crash (e : Crash) : Leafy (SM.crash e : P α) := fun _ =>
  ⟨.error (.crash e), fun _ _ => rfl, fun _ _ h => by cases h⟩
theorem okOr (e : Error) (o : Option α) : Leafy (SM.okOr e o) := by
  cases o
  · exact err e
  · exact pure _
theorem lift (x : Except Fail α) : Leafy (SM.lift x : P α) := by
  cases x with
  | error e => exact fun _ => ⟨.error e, fun _ _ => rfl, fun _ _ h => by cases h⟩
  | ok a => exact pure _
theorem query (g : MStr → α) : Leafy (query g) := fun str =>
  ⟨.ok (g str, str), fun s h => by subst h; rfl, fun _ _ h => by cases h; exact List.suffix_rfl⟩
theorem queryE (g : MStr → Except Fail α) : Leafy (queryE g) := fun str => by
  cases h : g str with
  | error e =>
    refine ⟨.error e, fun s hs => ?_, fun _ _ h => by cases h⟩
    subst hs
    show exec (SM.lift (g s.str)) s = _
    rw [h]; rfl
  | ok a =>
    refine ⟨.ok (a, str), fun s hs => ?_, fun _ _ h => by cases h; exact List.suffix_rfl⟩
    subst hs
    show exec (SM.lift (g s.str)) s = _
    rw [h]; rfl
theorem ite {b : Prop} [Decidable b] {m' : P α} (h : b → Leafy m) (h' : ¬ b → Leafy m') : Leafy (if b then m else m') := by
  split
  · next hb => exact h hb
  · next hb => exact h' hb
theorem firstIs (g : Char → Bool) : Leafy (firstIs g) := query _

theorem onStr {g : SM MStr α} (h : ∀ x a y, exec g x = .ok (a, y) → y.string <:+ x.string) : Leafy (onStr g) := by
  intro str
  refine ⟨exec g str, fun s hs => ?_, fun a x he => h _ _ _ he⟩
  subst hs
  show Undname.onStr g s = _
  unfold Undname.onStr andThen exec
  cases g s.str <;> rfl

theorem charIf (g : Char → Bool) : ∀ (x : MStr) a y, exec (MStr.try_consume_char_if g) x = .ok (a, y) → y.string <:+ x.string := by
  rintro ⟨t, n⟩ a y h
  cases t with
  | nil => cases h; exact List.suffix_rfl
  | cons c cs =>
    simp only [MStr.try_consume_char_if, run] at h
    by_cases hc : g c = true
    · simp only [hc, if_true] at h
      by_cases hn : 1 ≤ n
      · simp only [hn, if_true, run] at h
        cases h; exact List.suffix_cons _ _
      · simp only [hn, if_false, run] at h; cases h
    · simp only [hc, if_false, run] at h
      cases h; exact List.suffix_rfl

theorem tryIf (g : Char → Bool) : Leafy (tryIf g) := onStr (charIf g)
theorem tryAny : Leafy tryAny := onStr (charIf _)
theorem tryChar (c : Char) : Leafy (tryChar c) := bind (onStr (charIf _)) fun _ => pure _
theorem tryStr (t : Text) : Leafy (tryStr t) := by
  refine bind (onStr ?_) fun _ => pure _
  rintro ⟨u, n⟩ a y h
  simp only [MStr.try_consume_str, run] at h
  by_cases hp : (MStr.starts_with ⟨u, n⟩ t) = true
  · simp only [hp, if_true, run] at h
    by_cases hn : t.length ≤ n
    · simp only [hn, if_true, run] at h
      cases h; exact List.drop_suffix _ _
    · simp only [hn, if_false, run] at h; cases h
  · simp only [hp, if_false, run] at h
    cases h; exact List.suffix_rfl
theorem tryBytes (k : Nat) : Leafy (tryBytes k) := by
  refine onStr ?_
  rintro ⟨u, n⟩ a y h
  simp only [MStr.try_consume_n_bytes, run] at h
  cases hp : splitAtBytes k u with
  | none => simp only [hp, run] at h; cases h; exact List.suffix_rfl
  | some p =>
    obtain ⟨p1, p2⟩ := p
    simp only [hp, run] at h
    by_cases hn : p1.length ≤ n
    · simp only [hn, if_true, run] at h
      cases h
      exact ⟨p1, (splitAtBytes_append hp).symm⟩
    · simp only [hn, if_false, run] at h; cases h
theorem try2 : Leafy (Undname.onStr MStr.try_consume_2_chars) := by
  refine onStr ?_
  rintro ⟨u, n⟩ a y h
  simp only [MStr.try_consume_2_chars, run] at h
  match u, h with
  | [], h => cases h; exact List.suffix_rfl
  | [_], h => cases h; exact List.suffix_rfl
  | c1 :: c2 :: cs, h =>
    simp only [run] at h
    by_cases hn : 2 ≤ n
    · simp only [hn, if_true, run] at h
      cases h; exact ⟨[c1, c2], rfl⟩
    · simp only [hn, if_false, run] at h; cases h
theorem expectChar (c : Char) (e : Error) : Leafy (expectChar c e) :=
  bind (tryChar c) fun _ => ite (fun _ => pure _) fun _ => err _
theorem expectStr (c : Text) (e : Error) : Leafy (expectStr c e) :=
  bind (tryStr c) fun _ => ite (fun _ => pure _) fun _ => err _
theorem expectAny (e : Error) : Leafy (expectAny e) := bind tryAny fun _ => okOr _ _
theorem tryTable (l : List (Text × α)) : Leafy (tryTable l) := by
  induction l with
  | nil => exact pure _
  | cons p l ih => exact bind (tryStr _) fun _ => ite (fun _ => pure _) fun _ => ih
theorem whenB {b : Bool} {m : P Unit} (h : b = true → Leafy m) : Leafy (whenB b m) := by
  cases b
  · exact pure _
  · exact h rfl

theorem iterate {body : β → P (β ⊕ γ)} (h : ∀ b, Leafy (body b)) : ∀ n b, Leafy (SM.iterate n body b) := by
  intro n
  induction n with
  | zero => exact fun b => crash _
  | succ n ih =>
    intro b
    refine bind (h b) fun x => ?_
    cases x with
    | inl b' => exact ih b'
    | inr c => exact pure _

theorem loopInput {body : β → P (β ⊕ γ)} (h : ∀ b, Leafy (body b)) (b : β) : Leafy (loopInput body b) := by
  intro str
  obtain ⟨r, hr, hs⟩ := iterate h (str.string.length + 1) b str
  refine ⟨r, fun s hs => ?_, hs⟩
  rw [← hr s hs, ← hs]
  rfl

theorem forN {body : β → P β} (h : ∀ b, Leafy (body b)) : ∀ n b, Leafy (SM.forN n body b) := by
  intro n
  induction n with
  | zero => exact fun b => pure _
  | succ n ih => exact fun b => bind (h b) fun b' => ih b'

theorem runW (m : W Unit) (t : Text) : Leafy (runW m t) := by
  intro str
  cases h : m t with
  | error e =>
    refine ⟨.error e, fun s hs => ?_, fun _ _ h => by cases h⟩
    show Undname.runW m t s = _
    unfold Undname.runW
    rw [h]; rfl
  | ok p =>
    refine ⟨.ok (p.2, str), fun s hs => ?_, fun _ _ h => by cases h; exact List.suffix_rfl⟩
    subst hs
    show Undname.runW m t s = _
    unfold Undname.runW
    rw [h]; rfl

end Leafy

/-- Goes through a parser built from leaves. -/
macro "leafy" : tactic => `(tactic| repeat' (first
  | exact Leafy.pure _ | exact Leafy.pure' _ | exact Leafy.err _ | exact Leafy.crash _ | exact Leafy.okOr _ _ | exact Leafy.lift _
  | exact Leafy.query _ | exact Leafy.queryE _ | exact Leafy.firstIs _ | exact Leafy.tryIf _ | exact Leafy.tryAny
  | exact Leafy.tryChar _ | exact Leafy.tryStr _ | exact Leafy.tryBytes _ | exact Leafy.try2 | exact Leafy.expectChar _ _
  | exact Leafy.expectStr _ _ | exact Leafy.expectAny _ | exact Leafy.tryTable _ | exact Leafy.runW _ _
  | assumption
  | with_reducible refine Leafy.bind ?_ fun _ => ?_
  | with_reducible refine Leafy.ite (fun _ => ?_) fun _ => ?_
  | with_reducible refine Leafy.whenB fun _ => ?_
  | split))

namespace Leafy

theorem number : Leafy demangle_number := by
  unfold demangle_number
  have : ∀ x, Leafy (Undname.loopInput numberBody x) := loopInput fun x => by
    unfold numberBody; leafy
  leafy
  exact this _
theorem unsigned : Leafy demangle_unsigned := by
  have := number
  unfold demangle_unsigned; leafy
theorem signed : Leafy demangle_signed := by
  have := number
  unfold demangle_signed; leafy
theorem qualifiers : Leafy demangle_qualifiers := by unfold demangle_qualifiers; leafy
theorem ptrQuals : Leafy demangle_pointer_cv_qualifiers := by unfold demangle_pointer_cv_qualifiers; leafy
theorem extQuals : Leafy demangle_pointer_ext_qualifiers := by unfold demangle_pointer_ext_qualifiers; leafy
theorem refQual : Leafy demangle_function_ref_qualifier := by unfold demangle_function_ref_qualifier; leafy
theorem fclass : Leafy demangle_function_class := by unfold demangle_function_class; leafy
theorem callconv : Leafy demangle_calling_convention := by unfold demangle_calling_convention; leafy
theorem storage : Leafy demangle_variable_storage_class := by unfold demangle_variable_storage_class; leafy
theorem throwSpec : Leafy demangle_throw_specification := by unfold demangle_throw_specification; leafy
theorem primKind : Leafy primitive_kind := by unfold primitive_kind; leafy
theorem thisQuals (b : Bool) : Leafy (function_this_quals b) := by
  have := extQuals; have := refQual; have := qualifiers
  unfold function_this_quals; leafy
theorem typeQuals (q : QMM) : Leafy (type_quals q) := by
  have := qualifiers
  cases q <;> unfold type_quals <;> leafy
theorem thunkAdjust (fc : FuncClass) : Leafy (thunk_adjust fc) := by
  have := signed
  unfold thunk_adjust; leafy
theorem charLiteral : Leafy demangle_char_literal := by
  have : ∀ o, Leafy (demangle_char_literal.unchecked o) := fun o => by
    unfold demangle_char_literal.unchecked; leafy
  unfold demangle_char_literal
  leafy <;> exact this _
theorem wcharLiteral : Leafy demangle_wchar_literal := by
  have := charLiteral
  unfold demangle_wchar_literal; leafy
theorem wideBody (b : Bool) (x : Nat × Text) : Leafy (wideBody b x) := by
  have := wcharLiteral
  unfold Undname.wideBody; leafy
theorem narrowBody (x : List Nat) : Leafy (narrowBody x) := by
  have := charLiteral
  unfold Undname.narrowBody; leafy
theorem decodeBody (a b c d x) : Leafy (decodeBody a b c d x) := by
  unfold Undname.decodeBody; leafy
theorem specialKind : Leafy consume_special_intrinsic_kind := by unfold consume_special_intrinsic_kind; leafy

end Leafy
end Undname
