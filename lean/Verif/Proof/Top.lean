/-
  The soundness theorem for the whole API, from the specifications of the parser and of the renderer.
-/
import Verif.Proof.Specials

namespace Undname
variable {T : TSpec}

/-- The flags permit the text specification: with `NAME_ONLY` the nesting depth is not tracked. -/
def FlagsOK (T : TSpec) (E : Env) : Prop :=
  E.flags.name_only = true → ∀ d u d' e e', T.run d u d' → T.run e u e'

theorem goodRend (E : Env) (hN : FlagsOK T E) : GoodRend T (render E) :=
  fun c _ _ _ _ hg => render_ok E c hN hg

/-- What a parse that succeeds delivers. -/
theorem parse_wp (E : Env) (hN : FlagsOK T E) {m : Text} (hm : T.inp m) :
    wp (fns (render E) (m.length + 1)).parse (fun h s => Inv T (fun _ => True) s ∧
      Good T s.cache (fun _ => True) .sym h ∧ s.str.string.length < m.length) (initSt m) :=
  wp.mono (parse_ok (goodRend E hN) hm) fun _ _ h => ⟨h.1, h.2.2.1, h.2.2.2⟩

theorem demangle_into_ok (E : Env) (hN : FlagsOK T E) {m : Text} (hm : T.inp m) (buf : Text) :
    (∃ e, demangle_into E m buf = .ok (.error e, []) ∧ e.allowed) ∨
    ∃ t, demangle_into E m buf = .ok (.ok (), t) ∧ utf8Len t < OUTPUT_LIMIT ∧ T.run [] t [] := by
  have h1 := parse_wp E hN hm
  unfold demangle_into parse_into parse
  unfold wp at h1
  cases hp : (fns (render E) (m.length + 1)).parse (initSt m) with
  | error f =>
    rw [hp] at h1
    cases f with
    | crash c => exact h1.elim
    | err e => exact Or.inl ⟨e, rfl, h1⟩
  | ok p =>
    obtain ⟨h, s⟩ := p
    rw [hp] at h1
    have h2 := goodRend E hN _ _ _ _ h1.1.size h1.2.1 [] (by decide)
    unfold wp at h2
    simp only [clear]
    cases hr : render E s.cache .ISymbolNode h [] with
    | error f =>
      rw [hr] at h2
      cases f with
      | crash c => exact h2.elim
      | err e => exact Or.inl ⟨e, rfl, h2⟩
    | ok q =>
      obtain ⟨⟨⟩, t⟩ := q
      rw [hr] at h2
      obtain ⟨h3, u, h4, h5⟩ := h2
      simp only [List.nil_append] at h4
      subst h4
      exact Or.inr ⟨t, rfl, h3, h5⟩

/-! ### Two text specifications -/

theorem brackets_printable : ∀ p ∈ brackets, isPrintable p.1 = true ∧ isPrintable p.2 = true := by decide
theorem IFK.printable (k : IFK) : k.text.all isPrintable = true := by cases k <;> decide

/-- Characters: every character of the output occurs in the input or is printable ASCII. -/
def charSpec (m : Text) : TSpec where
  inp t := ∀ c ∈ t, c ∈ m
  run _ t _ := ∀ c ∈ t, c ∈ m ∨ isPrintable c = true
  lit t := ∀ c ∈ t, isPrintable c = true
  inp_infix h hb c hc := hb c (h.subset hc)
  inp_run h _ _ c hc := Or.inl (h c hc)
  md5_run _ h _ c hc := Or.inl (h c hc)
  nil _ c hc := by simp at hc
  append ha hb c hc := by
    rcases List.mem_append.1 hc with h | h
    · exact ha c h
    · exact hb c h
  shift _ h := h
  plain h _ c hc := Or.inr (isPlain_printable (h c hc))
  opn {o _} h _ x hx := by simp at hx; subst hx; exact Or.inr (brackets_printable _ h).1
  cls {_ c} h _ x hx := by simp at hx; subst hx; exact Or.inr (brackets_printable _ h).2
  op_run {_ _ k} _ _ _ c hc := Or.inr (List.all_eq_true.1 (IFK.printable k) c hc)
  lit_run h _ c hc := Or.inr (h c hc)
  lit_ok _ h := h

theorem charSpec_flags (m : Text) (E : Env) : FlagsOK (charSpec m) E := fun _ _ _ _ _ _ h => h

/-- The nesting depth of parentheses after a text, starting at depth `d`. -/
def depthAfter : Nat → Text → Option Nat
  | d, [] => some d
  | d, c :: cs =>
    if c = '(' then depthAfter (d + 1) cs
    else if c = ')' then match d with
      | 0 => none
      | d + 1 => depthAfter d cs
    else depthAfter d cs

theorem depthAfter_append {a b : Text} {d e f : Nat} (ha : depthAfter d a = some e)
    (hb : depthAfter e b = some f) : depthAfter d (a ++ b) = some f := by
  induction a generalizing d with
  | nil => simp [depthAfter] at ha; subst ha; exact hb
  | cons c cs ih =>
    simp only [List.cons_append]
    unfold depthAfter at ha ⊢
    split at ha
    · next h => rw [if_pos h]; exact ih ha
    · next h =>
      rw [if_neg h]
      split at ha
      · next h' =>
        rw [if_pos h']
        cases d with
        | zero => simp at ha
        | succ d => exact ih ha
      · next h' => rw [if_neg h']; exact ih ha

theorem depthAfter_shift {a : Text} {d e : Nat} (k : Nat) (ha : depthAfter d a = some e) :
    depthAfter (d + k) a = some (e + k) := by
  induction a generalizing d with
  | nil => simp [depthAfter] at ha ⊢; omega
  | cons c cs ih =>
    unfold depthAfter at ha ⊢
    split at ha
    · next h => rw [if_pos h]; have := ih ha; rw [show d + 1 + k = d + k + 1 by omega] at this; exact this
    · next h =>
      rw [if_neg h]
      split at ha
      · next h' =>
        rw [if_pos h']
        cases d with
        | zero => simp at ha
        | succ d => rw [show d + 1 + k = d + k + 1 by omega]; exact ih ha
      · next h' => rw [if_neg h']; exact ih ha

theorem depthAfter_none {t : Text} (h1 : '(' ∉ t) (h2 : ')' ∉ t) (d : Nat) : depthAfter d t = some d := by
  induction t generalizing d with
  | nil => rfl
  | cons c cs ih =>
    simp only [List.mem_cons, not_or] at h1 h2
    unfold depthAfter
    rw [if_neg (Ne.symm h1.1), if_neg (Ne.symm h2.1)]
    exact ih h1.2 h2.2 d

theorem IFK.depth (k : IFK) : depthAfter 0 k.text = some 0 := by cases k <;> decide

/-- Nesting: the output is balanced, for inputs without parentheses and string literals. -/
def nestSpec : TSpec where
  inp t := '(' ∉ t ∧ ')' ∉ t ∧ ¬ c!"?_C" <:+: t
  run d t e := depthAfter (d.count '(') t = some (e.count '(')
  lit _ := False
  inp_infix h hb := ⟨fun h' => hb.1 (h.subset h'), fun h' => hb.2.1 (h.subset h'),
    fun h' => hb.2.2 (h'.trans h)⟩
  inp_run h _ d := depthAfter_none h.1 h.2.1 _
  md5_run _ h d := depthAfter_none h.1 h.2.1 _
  nil _ := rfl
  append ha hb := depthAfter_append ha hb
  shift k h := by rw [List.count_append, List.count_append]; exact depthAfter_shift _ h
  plain h d := depthAfter_none (fun h' => by have := h _ h'; revert this; decide)
    (fun h' => by have := h _ h'; revert this; decide) _
  opn {o c} h d := by
    simp only [brackets, List.mem_cons, Prod.mk.injEq, List.not_mem_nil, or_false] at h
    rcases h with ⟨rfl, rfl⟩ | ⟨rfl, rfl⟩ | ⟨rfl, rfl⟩ | ⟨rfl, rfl⟩ <;> simp [depthAfter]
  cls {o c} h d := by
    simp only [brackets, List.mem_cons, Prod.mk.injEq, List.not_mem_nil, or_false] at h
    rcases h with ⟨rfl, rfl⟩ | ⟨rfl, rfl⟩ | ⟨rfl, rfl⟩ | ⟨rfl, rfl⟩ <;> simp [depthAfter]
  lit_run h := h.elim
  op_run {_ _ k} _ _ d := by have := depthAfter_shift (d.count '(') (IFK.depth k); simpa using this
  lit_ok h _ := h.2.2 (List.infix_refl _)

theorem nestSpec_flags {E : Env} (h : E.flags.name_only = false) : FlagsOK nestSpec E := fun h' => by
  rw [h] at h'; cases h'

end Undname
