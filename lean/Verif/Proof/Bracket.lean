/-
  Properly nested brackets of several kinds (C30).
-/
import Verif.Proof.Top

namespace Undname

/-- Is this bracket tracked? Angle brackets only if `a`. -/
def kept (a : Bool) (c : Char) : Bool := a || (c != '<' && c != '>')

/-- The operators whose texts contain `<` or `>`: `>>`, `<<`, `->`, `->*`, `<`, `<=`, `>`, `>=`, `>>=`, `<<=`, `<=>`. -/
def angleOps : List Text := [c!"5", c!"6", c!"C", c!"J", c!"M", c!"N", c!"O", c!"P", c!"_2", c!"_3", c!"__M"]

theorem stackAfter_append {a b : Text} {d e : List Char} {f : Option (List Char)} (ha : stackAfter d a = some e) (hb : stackAfter e b = f) :
    stackAfter d (a ++ b) = f := by
  induction a generalizing d with
  | nil => simp [stackAfter] at ha; subst ha; exact hb
  | cons c cs ih =>
    simp only [List.cons_append]
    unfold stackAfter at ha ⊢
    split at ha
    · next h => rw [if_pos h]; exact ih ha
    · next h =>
      rw [if_neg h]
      split at ha
      · next h' =>
        rw [if_pos h']
        cases d with
        | nil => simp at ha
        | cons o d =>
          dsimp only at ha ⊢
          split at ha
          · next hb' => rw [if_pos hb']; exact ih ha
          · cases ha
      · next h' => rw [if_neg h']; exact ih ha

theorem stackAfter_shift {a : Text} {d e : List Char} (k : List Char) (ha : stackAfter d a = some e) : stackAfter (d ++ k) a = some (e ++ k) := by
  induction a generalizing d with
  | nil => simp [stackAfter] at ha ⊢; rw [ha]
  | cons c cs ih =>
    unfold stackAfter at ha ⊢
    split at ha
    · next h => rw [if_pos h]; exact ih ha
    · next h =>
      rw [if_neg h]
      split at ha
      · next h' =>
        rw [if_pos h']
        cases d with
        | nil => simp at ha
        | cons o d =>
          dsimp only [List.cons_append] at ha ⊢
          split at ha
          · next hb' => rw [if_pos hb']; exact ih ha
          · cases ha
      · next h' => rw [if_neg h']; exact ih ha

theorem stackAfter_plain {t : Text} (h : ∀ c ∈ t, c!"()[]{}<>".contains c = false) (d : List Char) : stackAfter d t = some d := by
  induction t generalizing d with
  | nil => rfl
  | cons c cs ih =>
    have hc := h c (by simp)
    simp at hc
    unfold stackAfter
    rw [if_neg (by simp [hc]), if_neg (by simp [hc])]
    exact ih (fun x hx => h x (by simp [hx])) d

theorem stackAfter_noise {a : Bool} {t : Text} (h : ∀ c ∈ t, c!"()[]{}<>".contains c = true → kept a c = false) (d : List Char) :
    stackAfter d (t.filter (kept a)) = some d := by
  refine stackAfter_plain (fun c hc => ?_) d
  obtain ⟨h1, h2⟩ := List.mem_filter.1 hc
  rw [Bool.eq_false_iff]
  intro h3
  rw [h c h1 h3] at h2
  cases h2

/-- Are the brackets of this operator nested? -/
def opOK (a : Bool) (k : IFK) : Bool := stackAfter [] (k.text.filter (kept a)) == some []

theorem opOK_false (k : IFK) : opOK false k = true := by cases k <;> decide

theorem opOK_true_basic : ∀ n < 91, ∀ k, translate_intrinsic_function_code (Char.ofNat n) .Basic = .ok (some k) → opOK true k = true ∨
    [Char.ofNat n] ∈ angleOps := by
  intro n hn k h
  have key : ∀ n < 91, (match translate_intrinsic_function_code (Char.ofNat n) .Basic with
    | .ok (some k) => opOK true k || angleOps.contains [Char.ofNat n] | _ => true) = true := by decide +kernel
  have := key n hn
  rw [h] at this
  simpa using this

theorem opOK_true_under : ∀ n < 91, ∀ k, translate_intrinsic_function_code (Char.ofNat n) .Under = .ok (some k) → opOK true k = true ∨
    ['_', Char.ofNat n] ∈ angleOps := by
  intro n hn k h
  have key : ∀ n < 91, (match translate_intrinsic_function_code (Char.ofNat n) .Under with
    | .ok (some k) => opOK true k || angleOps.contains ['_', Char.ofNat n] | _ => true) = true := by decide +kernel
  have := key n hn
  rw [h] at this
  simpa using this

theorem opOK_true_double : ∀ n < 91, ∀ k, translate_intrinsic_function_code (Char.ofNat n) .DoubleUnder = .ok (some k) → opOK true k = true ∨
    ['_', '_', Char.ofNat n] ∈ angleOps := by
  intro n hn k h
  have key : ∀ n < 91, (match translate_intrinsic_function_code (Char.ofNat n) .DoubleUnder with
    | .ok (some k) => opOK true k || angleOps.contains ['_', '_', Char.ofNat n] | _ => true) = true := by decide +kernel
  have := key n hn
  rw [h] at this
  simpa using this

theorem opOK_or {g : CodeGroup} {ch : Char} {k : IFK} (h : translate_intrinsic_function_code ch g = .ok (some k)) (a : Bool) :
    opOK a k = true ∨ a = true ∧ groupCode g ++ [ch] ∈ angleOps := by
  cases a with
  | false => exact Or.inl (opOK_false k)
  | true =>
    have hn : ch.toNat < 91 := by
      unfold translate_intrinsic_function_code at h
      split at h
      · next hc =>
        simp only [isDigit, isUpper, Bool.or_eq_true, Bool.and_eq_true, decide_eq_true_eq] at hc
        rcases hc with hc | hc
        · have : ch.toNat ≤ 57 := hc.2
          omega
        · have : ch.toNat ≤ 90 := hc.2
          omega
      · cases h
    have e : Char.ofNat ch.toNat = ch := Char.ofNat_toNat ch
    cases g
    · have := opOK_true_basic ch.toNat hn k (by rw [e]; exact h)
      rw [e] at this
      exact this.imp id fun x => ⟨rfl, x⟩
    · have := opOK_true_under ch.toNat hn k (by rw [e]; exact h)
      rw [e] at this
      exact this.imp id fun x => ⟨rfl, x⟩
    · have := opOK_true_double ch.toNat hn k (by rw [e]; exact h)
      rw [e] at this
      exact this.imp id fun x => ⟨rfl, x⟩

theorem opens_of {o c : Char} (h : (o, c) ∈ brackets) : c!"([{<".contains o = true := by
  have key : ∀ p ∈ brackets, c!"([{<".contains p.1 = true := by decide
  exact key _ h

theorem closes_of {o c : Char} (h : (o, c) ∈ brackets) : c!"([{<".contains c = false ∧ c!")]}>".contains c = true := by
  have key : ∀ p ∈ brackets, c!"([{<".contains p.2 = false ∧ c!")]}>".contains p.2 = true := by decide
  exact key _ h

theorem kept_pair (a : Bool) {o c : Char} (h : (o, c) ∈ brackets) : kept a c = kept a o := by
  have key : ∀ p ∈ brackets, kept a p.2 = kept a p.1 := by cases a <;> decide
  exact key _ h

/-- Nesting of the tracked brackets. -/
def bracketSpec (a : Bool) : TSpec where
  inp t := (∀ c ∈ t, c!"()[]{}<>".contains c = true → kept a c = false) ∧ ¬ c!"?_C" <:+: t ∧
    (a = true → ∀ x ∈ angleOps, ¬ (c!"??" ++ x) <:+: t ∧ ¬ (c!"?$?" ++ x) <:+: t)
  run d t e := stackAfter (d.filter (kept a)) (t.filter (kept a)) = some (e.filter (kept a))
  lit _ := False
  inp_infix h hb := ⟨fun c hc => hb.1 c (h.subset hc), fun h' => hb.2.1 (h'.trans h),
    fun ha x hx => ⟨fun h' => (hb.2.2 ha x hx).1 (h'.trans h), fun h' => (hb.2.2 ha x hx).2 (h'.trans h)⟩⟩
  inp_run h _ d := stackAfter_noise h.1 _
  md5_run _ h d := stackAfter_noise h.1 _
  nil _ := rfl
  append ha hb := by rw [List.filter_append]; exact stackAfter_append ha hb
  shift k h := by rw [List.filter_append, List.filter_append]; exact stackAfter_shift _ h
  plain h d := stackAfter_noise (fun c hc hb => by
    have := h c hc
    simp [isPlain] at this
    simp at hb
    simp [this] at hb) _
  opn {o c} h d := by
    by_cases hk : kept a o = true
    · rw [List.filter_cons_of_pos hk, List.filter_cons_of_pos hk]
      unfold stackAfter
      rw [if_pos (opens_of h)]
      rfl
    · rw [List.filter_cons_of_neg hk, List.filter_cons_of_neg hk]
      rfl
  cls {o c} h d := by
    by_cases hk : kept a o = true
    · rw [List.filter_cons_of_pos hk, List.filter_cons_of_pos (by rw [kept_pair a h]; exact hk)]
      unfold stackAfter
      rw [if_neg (by rw [(closes_of h).1]; simp), if_pos (closes_of h).2]
      dsimp only
      rw [if_pos (List.contains_iff_mem.2 h)]
      rfl
    · rw [List.filter_cons_of_neg hk, List.filter_cons_of_neg (by rw [kept_pair a h]; exact hk)]
      rfl
  lit_run h := h.elim
  op_run {g ch k} hi h d := by
    rcases opOK_or h a with h1 | ⟨ha, h1⟩
    · have := stackAfter_shift (d.filter (kept a)) (by simpa [opOK] using h1)
      simpa using this
    · rcases hi with hi | hi
      · exact absurd (by rw [List.append_assoc]; exact List.infix_refl _) (hi.2.2 ha _ h1).1
      · exact absurd (by rw [List.append_assoc]; exact List.infix_refl _) (hi.2.2 ha _ h1).2
  lit_ok h _ := h.2.1 (List.infix_refl _)

theorem bracketSpec_flags {E : Env} (a : Bool) (h : E.flags.name_only = false) : FlagsOK (bracketSpec a) E := fun h' => by
  rw [h] at h'; cases h'

end Undname
