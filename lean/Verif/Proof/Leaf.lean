/-
  The parser's state invariant and the leaf parsers.
-/
import Verif.Proof.Render

namespace Undname

/-- Number of remaining characters. -/
def St.len (s : St) : Nat := s.str.string.length

/-- The invariant of the parser, relative to the set `A` of nodes that may be used. -/
structure Inv (T : TSpec) (A : Handle → Prop) (s : St) : Prop where
  chars : s.str.chars = s.str.string.length
  inp : T.inp s.str.string
  size : s.cache.length ≤ NODE_LIMIT
  names_len : s.names.length ≤ 10
  params_len : s.function_params.length ≤ 10
  names : ∀ h ∈ s.names, Good T s.cache A .named h
  params : ∀ h ∈ s.function_params, Good T s.cache A .type h
  fresh : ∀ i, s.cache.length ≤ i → A i

/-- Nodes that are never changed after they were interned. -/
def Node.frozen : Node → Bool
  | .QualifiedName _ | .NodeArray _ => true
  | _ => false

/-- What every parser does to the state: well-formed trees stay well-formed, the input shrinks, the
cache grows. -/
structure Step (T : TSpec) (s s' : St) : Prop where
  ext : ∀ {A g h}, Good T s.cache A g h → Good T s'.cache A g h
  len : s'.len ≤ s.len
  clen : s.cache.length ≤ s'.cache.length
  frz : ∀ {i : Nat} {nd : Node}, s.cache[i]? = some nd → nd.frozen = true → s'.cache[i]? = some nd

variable {T : TSpec} {A B : Handle → Prop} {s s' : St}

theorem Step.refl (s : St) : Step T s s := ⟨id, Nat.le_refl _, Nat.le_refl _, fun h _ => h⟩

theorem Step.trans {s1 s2 s3 : St} (h : Step T s1 s2) (h' : Step T s2 s3) : Step T s1 s3 :=
  ⟨fun hg => h'.ext (h.ext hg), Nat.le_trans h'.len h.len, Nat.le_trans h.clen h'.clen,
    fun h1 h2 => h'.frz (h.frz h1 h2) h2⟩

theorem Inv.mono (hi : Inv T A s) (hab : ∀ i, A i → B i) : Inv T B s :=
  { hi with
    names := fun h hh => (hi.names h hh).mono hab
    params := fun h hh => (hi.params h hh).mono hab
    fresh := fun i hi' => hab i (hi.fresh i hi') }

/-- Parser specification: `m` keeps the invariant, makes a step and establishes `Q`. -/
def Tr (T : TSpec) (A : Handle → Prop) {α : Type} (m : P α) (Q : α → St → Prop) (s : St) : Prop :=
  wp m (fun a s' => Inv T A s' ∧ Step T s s' ∧ Q a s') s

namespace Tr
variable {α β γ : Type} {Q : α → St → Prop} {R : β → St → Prop}

theorem mono {Q' : α → St → Prop} {m : P α} (h : Tr T A m Q s)
    (hq : ∀ a s', Inv T A s' → Step T s s' → Q a s' → Q' a s') : Tr T A m Q' s :=
  wp.mono h fun a s' ⟨h1, h2, h3⟩ => ⟨h1, h2, hq a s' h1 h2 h3⟩

theorem pure {a : α} (hi : Inv T A s) (h : Q a s) : Tr T A (Pure.pure a) Q s :=
  wp.pure ⟨hi, Step.refl s, h⟩

theorem pure' {a : α} (hi : Inv T A s) (h : Q a s) : Tr T A (SM.pure a) Q s :=
  wp.pure' ⟨hi, Step.refl s, h⟩

theorem bind {m : P α} {f : α → P β} (h1 : Tr T A m Q s)
    (h2 : ∀ a s', Inv T A s' → Step T s s' → Q a s' → Tr T A (f a) R s') : Tr T A (m >>= f) R s := by
  refine wp.bind (wp.mono h1 ?_)
  rintro a s1 ⟨hi, hs, hq⟩
  refine wp.mono (h2 a s1 hi hs hq) ?_
  rintro b s2 ⟨hi2, hs2, hq2⟩
  exact ⟨hi2, hs.trans hs2, hq2⟩

theorem err {e : Error} (h : e.allowed := by trivial) : Tr T A (SM.err e : P α) Q s := wp.err h

theorem okOr {e : Error} {o : Option α} (hi : Inv T A s) (h : ∀ a, o = some a → Q a s)
    (he : e.allowed := by trivial) : Tr T A (SM.okOr e o) Q s :=
  wp.okOr he fun a ha => ⟨hi, Step.refl s, h a ha⟩

theorem okOrB {e : Error} {o : Option α} {k : α → P β} (h : ∀ a, o = some a → Tr T A (k a) R s)
    (he : e.allowed := by trivial) : Tr T A (SM.okOr e o >>= k) R s := by
  cases o with
  | none => exact wp.bind (wp.err he)
  | some a => exact h a rfl

theorem get {f : St → P β} (h : Tr T A (f s) R s) : Tr T A (SM.get >>= f) R s := wp.bind (wp.get h)

theorem query {f : MStr → α} {k : α → P β} (h : Tr T A (k (f s.str)) R s) :
    Tr T A (query f >>= k) R s := h

theorem lift {x : Except Fail α} {a : α} {k : α → P β} (hx : x = .ok a) (h : Tr T A (k a) R s) :
    Tr T A (SM.lift x >>= k) R s := by subst hx; exact h

theorem ite {b : Prop} [Decidable b] {m m' : P α} (h1 : b → Tr T A m Q s) (h0 : ¬ b → Tr T A m' Q s) :
    Tr T A (if b then m else m') Q s := by
  split
  · next h => exact h1 h
  · next h => exact h0 h

theorem whenB {b : Bool} {m : P Unit} {Q : Unit → St → Prop} (hi : Inv T A s)
    (h1 : b = true → Tr T A m Q s) (h0 : b = false → Q () s) : Tr T A (whenB b m) Q s := by
  cases b with
  | true => exact h1 rfl
  | false => exact pure' hi (h0 rfl)

/-- Narrowing the set of nodes for a while. -/
theorem narrow {m : P α} (h : Tr T B m Q s) (hba : ∀ i, B i → A i) :
    Tr T A m (fun a s' => Inv T B s' ∧ Q a s') s :=
  wp.mono h fun _ _ ⟨h1, h2, h3⟩ => ⟨h1.mono hba, h2, h1, h3⟩

theorem loop {body : β → P (β ⊕ γ)} {b : β} {R : γ → St → Prop} (I : β → St → Prop)
    (hi : Inv T A s) (h0 : I b s)
    (hb : ∀ b s', Inv T A s' → Step T s s' → I b s' → Tr T A (body b) (fun x s'' => match x with
      | .inl b' => I b' s'' ∧ s''.len < s'.len
      | .inr c => R c s'') s') : Tr T A (loopInput body b) R s := by
  unfold Tr loopInput
  refine wp.iterate (fun b s' => Inv T A s' ∧ Step T s s' ∧ I b s') (fun s => s.len)
    ⟨hi, Step.refl s, h0⟩ (by simp [St.len]) ?_
  rintro b s1 ⟨hi1, hs1, hI1⟩
  refine wp.mono (hb b s1 hi1 hs1 hI1) ?_
  rintro x s2 ⟨hi2, hs2, hq⟩
  cases x with
  | inl b' => exact ⟨⟨hi2, hs1.trans hs2, hq.1⟩, hq.2⟩
  | inr c => exact ⟨hi2, hs1.trans hs2, hq⟩

theorem forN {n : Nat} {body : β → P β} {b : β} (I : β → St → Prop)
    (hi : Inv T A s) (h0 : I b s)
    (hb : ∀ b s', Inv T A s' → Step T s s' → I b s' → Tr T A (body b) I s') :
    Tr T A (SM.forN n body b) I s := by
  unfold Tr
  refine wp.forN (fun b s' => Inv T A s' ∧ Step T s s' ∧ I b s') ⟨hi, Step.refl s, h0⟩ ?_
  rintro b s1 ⟨hi1, hs1, hI1⟩
  refine wp.mono (hb b s1 hi1 hs1 hI1) ?_
  rintro x s2 ⟨hi2, hs2, hq⟩
  exact ⟨hi2, hs1.trans hs2, hq⟩

/-- Reading the input. -/
theorem onStr {m : SM MStr α} (hi : Inv T A s)
    (h : wp m (fun a x => x.chars = x.string.length ∧ x.string <:+ s.str.string ∧
      Q a { s with str := x }) s.str) : Tr T A (onStr m) Q s := by
  unfold Tr wp Undname.onStr
  unfold wp at h
  cases hm : m s.str with
  | error e => rw [hm] at h; cases e <;> simp_all
  | ok p =>
    rw [hm] at h
    obtain ⟨h1, h2, h3⟩ := h
    exact ⟨{ hi with chars := h1, inp := T.inp_infix h2.isInfix hi.inp },
      ⟨id, h2.length_le, Nat.le_refl _, fun h _ => h⟩, h3⟩

end Tr

/-! ### Input primitives -/

theorem wp_advance {m : MStr} {rest : Text} {n : Nat} {Q : Unit → MStr → Prop}
    (hn : n ≤ m.chars) (h : Q () ⟨rest, m.chars - n⟩) : wp (MStr.advance rest n) Q m := by
  unfold wp MStr.advance
  simp [hn, h]

theorem wp_char_if {m : MStr} {f : Char → Bool} {Q : Option Char → MStr → Prop}
    (hm : m.chars = m.string.length) (h0 : Q none m)
    (h1 : ∀ c cs, m.string = c :: cs → f c = true → Q (some c) ⟨cs, cs.length⟩) :
    wp (MStr.try_consume_char_if f) Q m := by
  unfold MStr.try_consume_char_if
  refine wp.bind (wp.get ?_)
  split
  · exact wp.pure h0
  · next c cs hc =>
    split
    · next hf =>
      refine wp.bind (wp_advance (by simp [hm, hc]) (wp.pure ?_))
      have : m.chars - 1 = cs.length := by simp [hm, hc]
      rw [this]
      exact h1 c cs hc hf
    · exact wp.pure h0

section
variable {Q : Option Char → St → Prop}

theorem tr_tryIf (hi : Inv T A s) (f : Char → Bool) :
    Tr T A (tryIf f) (fun o s' => s'.cache = s.cache ∧ s'.names = s.names ∧
      s'.function_params = s.function_params ∧ (o = none → s'.str = s.str) ∧
      ∀ c, o = some c → f c = true ∧ s.str.string = c :: s'.str.string) s := by
  unfold tryIf
  refine Tr.onStr hi (wp_char_if hi.chars ?_ ?_)
  · exact ⟨hi.chars, List.suffix_refl _, rfl, rfl, rfl, fun _ => rfl, by simp⟩
  · intro c cs hc hf
    refine ⟨rfl, by rw [hc]; exact List.suffix_cons c cs, rfl, rfl, rfl, by simp, ?_⟩
    intro c' hc'
    cases hc'
    exact ⟨hf, hc⟩

end

/-- Only the input changed. -/
structure Same (s s' : St) : Prop where
  cache : s'.cache = s.cache
  names : s'.names = s.names
  params : s'.function_params = s.function_params

theorem Same.refl (s : St) : Same s s := ⟨rfl, rfl, rfl⟩

theorem Same.trans {s1 s2 s3 : St} (h : Same s1 s2) (h' : Same s2 s3) : Same s1 s3 :=
  ⟨h'.cache.trans h.cache, h'.names.trans h.names, h'.params.trans h.params⟩

theorem tr_tryIf' (hi : Inv T A s) (f : Char → Bool) :
    Tr T A (tryIf f) (fun o s' => Same s s' ∧
      ∀ c, o = some c → f c = true ∧ s'.len < s.len) s :=
  (tr_tryIf hi f).mono fun o s' _ _ h => ⟨⟨h.1, h.2.1, h.2.2.1⟩, fun c hc => by
    obtain ⟨h1, h2⟩ := h.2.2.2.2 c hc
    exact ⟨h1, by simp [St.len, h2]⟩⟩

theorem tr_tryAny (hi : Inv T A s) :
    Tr T A tryAny (fun o s' => Same s s' ∧ (∀ c, o = some c → s'.len < s.len ∧
      s.str.string = c :: s'.str.string)) s :=
  (tr_tryIf hi (fun _ => true)).mono fun o s' _ _ h => ⟨⟨h.1, h.2.1, h.2.2.1⟩, fun c hc => by
    obtain ⟨h1, h2⟩ := h.2.2.2.2 c hc
    exact ⟨by simp [St.len, h2], h2⟩⟩

theorem tr_tryChar (hi : Inv T A s) (c : Char) :
    Tr T A (tryChar c) (fun b s' => Same s s' ∧ (b = true → s'.len < s.len) ∧
      (b = false → s' = s)) s := by
  unfold tryChar
  refine Tr.bind (tr_tryIf hi (fun x => x == c)) ?_
  intro o s1 hi1 hs1 h
  refine Tr.pure hi1 ⟨⟨h.1, h.2.1, h.2.2.1⟩, ?_, ?_⟩
  · intro ho
    obtain ⟨c', hc'⟩ := Option.isSome_iff_exists.1 ho
    obtain ⟨h1, h2⟩ := h.2.2.2.2 c' hc'
    simp [St.len, h2]
  · intro ho
    have ho' : o = none := by simpa using ho
    have := h.2.2.2.1 ho'
    cases s; cases s1; simp_all

/-- The text without the character `c` at its start. -/
def dropIf (c : Char) (l : Text) : Text := if l.head? == some c then l.tail else l

/-- What `tryChar` reads. -/
theorem tr_tryChar' (hi : Inv T A s) (c : Char) :
    Tr T A (tryChar c) (fun b s' => Same s s' ∧ s'.str.string = dropIf c s.str.string ∧
      b = (s.str.string.head? == some c)) s := by
  unfold tryChar
  refine Tr.bind (Q := fun o s' => Same s s' ∧ s'.str.string = dropIf c s.str.string ∧
      o.isSome = (s.str.string.head? == some c)) ?_ ?_
  · refine Tr.onStr hi ?_
    unfold MStr.try_consume_char MStr.try_consume_char_if
    refine wp.bind (wp.get ?_)
    split
    · next h => exact wp.pure ⟨hi.chars, List.suffix_refl _, ⟨rfl, rfl, rfl⟩, by simp [dropIf, h], by simp [h]⟩
    · next d ds h =>
      split
      · next hf =>
        refine wp.bind (wp_advance (by simp [hi.chars, h]) (wp.pure ?_))
        refine ⟨by simp [hi.chars, h], by rw [h]; exact List.suffix_cons d ds, ⟨rfl, rfl, rfl⟩, ?_, ?_⟩
        · have : d = c := by simpa using hf
          simp [dropIf, h, this]
        · simpa [h] using hf
      · next hf =>
        refine wp.pure ⟨hi.chars, List.suffix_refl _, ⟨rfl, rfl, rfl⟩, ?_, ?_⟩
        · have : ¬ d = c := by simpa using hf
          simp [dropIf, h, this]
        · simpa [h] using hf
  · intro o s1 hi1 hs1 h
    exact Tr.pure hi1 h

/-- A character that is there. -/
theorem tr_expectChar' (hi : Inv T A s) (c : Char) (e : Error) (h : s.str.string.head? = some c) :
    Tr T A (expectChar c e) (fun _ s' => Same s s' ∧ s'.len < s.len ∧ s.str.string = c :: s'.str.string) s := by
  unfold expectChar
  refine Tr.bind (tr_tryChar' hi c) ?_
  rintro b s1 hi1 hs1 ⟨h1, h2, rfl⟩
  refine Tr.ite (fun hb => Tr.pure hi1 ⟨h1, ?_⟩) fun hb => absurd (by simp [h]) hb
  obtain ⟨l, e⟩ : ∃ l, s.str.string = c :: l := by
    cases hl : s.str.string with
    | nil => rw [hl] at h; simp at h
    | cons d l => rw [hl] at h; simp at h; exact ⟨l, by rw [h]⟩
  have h3 : s1.str.string = l := by rw [h2, e]; simp [dropIf]
  exact ⟨by simp [St.len, e, h3], by rw [e, h3]⟩

theorem tr_expectChar (hi : Inv T A s) (c : Char) (e : Error) (he : e.allowed := by trivial) :
    Tr T A (expectChar c e) (fun _ s' => Same s s' ∧ s'.len < s.len) s := by
  unfold expectChar
  refine Tr.bind (tr_tryChar hi c) ?_
  intro b s1 hi1 hs1 h
  refine Tr.ite (fun hb => Tr.pure hi1 ⟨h.1, h.2.1 hb⟩) fun _ => Tr.err he

theorem tr_expectChar_str (hi : Inv T A s) (c : Char) (e : Error) (he : e.allowed := by trivial) :
    Tr T A (expectChar c e) (fun _ s' => Same s s' ∧ s'.len < s.len ∧ s.str.string = c :: s'.str.string) s := by
  unfold expectChar
  refine Tr.bind (tr_tryChar' hi c) ?_
  rintro b s1 hi1 hs1 ⟨h1, h2, rfl⟩
  refine Tr.ite (fun hb => Tr.pure hi1 ⟨h1, ?_⟩) fun _ => Tr.err he
  cases hl : s.str.string with
  | nil => rw [hl] at hb; simp at hb
  | cons d l =>
    rw [hl] at hb h2
    have hd : d = c := by simpa using hb
    subst hd
    have h3 : s1.str.string = l := by simpa [dropIf] using h2
    exact ⟨by simp [St.len, hl, h3], by rw [h3]⟩

theorem tr_expectAny (hi : Inv T A s) (e : Error) (he : e.allowed := by trivial) :
    Tr T A (expectAny e) (fun c s' => Same s s' ∧ s'.len < s.len ∧
      s.str.string = c :: s'.str.string) s := by
  unfold expectAny
  refine Tr.bind (tr_tryAny hi) ?_
  intro o s1 hi1 hs1 h
  exact Tr.okOr hi1 (fun c hc => ⟨h.1, h.2 c hc⟩) he

/-- A character that is there. -/
theorem tr_expectAny' (hi : Inv T A s) (e : Error) (h : s.str.string ≠ []) :
    Tr T A (expectAny e) (fun c s' => Same s s' ∧ s'.len < s.len ∧
      s.str.string = c :: s'.str.string) s := by
  unfold expectAny
  refine Tr.bind (Q := fun o s' => Same s s' ∧ ∃ c, o = some c ∧ s'.len < s.len ∧ s.str.string = c :: s'.str.string) ?_ ?_
  · unfold tryAny
    refine Tr.onStr hi ?_
    unfold MStr.try_consume MStr.try_consume_char_if
    refine wp.bind (wp.get ?_)
    split
    · next h' => exact absurd h' h
    · next d ds h' =>
      rw [if_pos rfl]
      refine wp.bind (wp_advance (by simp [hi.chars, h']) (wp.pure ?_))
      exact ⟨by simp [hi.chars, h'], by rw [h']; exact List.suffix_cons d ds, ⟨rfl, rfl, rfl⟩, d, rfl,
        by simp [St.len, h'], h'⟩
  · rintro o s1 hi1 hs1 ⟨h1, c, rfl, h2, h3⟩
    exact Tr.pure' hi1 ⟨h1, h2, h3⟩

theorem isPrefixOf_drop {t l : Text} (h : t.isPrefixOf l = true) : l = t ++ l.drop t.length := by
  rw [List.isPrefixOf_iff_prefix] at h
  obtain ⟨r, rfl⟩ := h
  simp

theorem tr_tryStr (hi : Inv T A s) (t : Text) :
    Tr T A (tryStr t) (fun b s' => Same s s' ∧ (b = true → s.str.string = t ++ s'.str.string) ∧
      (b = false → s' = s)) s := by
  unfold tryStr
  refine Tr.bind (Q := fun o s' => Same s s' ∧ (o.isSome → s.str.string = t ++ s'.str.string) ∧
      (o = none → s' = s)) (Tr.onStr hi ?_) ?_
  · unfold MStr.try_consume_str
    refine wp.bind (wp.get ?_)
    split
    · next hp =>
      have hd := isPrefixOf_drop hp
      have hl : s.str.string.length = t.length + (s.str.string.drop t.length).length := by
        rw [← List.length_append, ← hd]
      refine wp.bind (wp_advance (by rw [hi.chars]; omega) (wp.pure ?_))
      refine ⟨?_, List.drop_suffix _ _, ⟨rfl, rfl, rfl⟩, fun _ => hd, by simp⟩
      show s.str.chars - t.length = (s.str.string.drop t.length).length
      rw [hi.chars]; omega
    · exact wp.pure ⟨hi.chars, List.suffix_refl _, ⟨rfl, rfl, rfl⟩, by simp, fun _ => rfl⟩
  · intro o s1 hi1 hs1 h
    exact Tr.pure hi1 ⟨h.1, fun ho => h.2.1 ho, fun ho => h.2.2 (by simpa using ho)⟩

theorem tr_tryStr' (hi : Inv T A s) (t : Text) (ht : t ≠ [] := by simp) :
    Tr T A (tryStr t) (fun b s' => Same s s' ∧ (b = true → s'.len < s.len) ∧
      (b = false → s' = s)) s :=
  (tr_tryStr hi t).mono fun b s' _ _ h => ⟨h.1, fun hb => by
    have := h.2.1 hb
    have hp := List.length_pos_iff.2 ht
    simp only [St.len, this, List.length_append]; omega, h.2.2⟩

theorem tr_expectStr (hi : Inv T A s) (t : Text) (e : Error) (ht : t ≠ [] := by simp)
    (he : e.allowed := by trivial) :
    Tr T A (expectStr t e) (fun _ s' => Same s s' ∧ s'.len < s.len) s := by
  unfold expectStr
  refine Tr.bind (tr_tryStr' hi t ht) ?_
  intro b s1 hi1 hs1 h
  refine Tr.ite (fun hb => Tr.pure hi1 ⟨h.1, h.2.1 hb⟩) fun _ => Tr.err he

theorem tr_expectStr_str (hi : Inv T A s) (t : Text) (e : Error) (ht : t ≠ [] := by simp)
    (he : e.allowed := by trivial) :
    Tr T A (expectStr t e) (fun _ s' => Same s s' ∧ s'.len < s.len ∧ s.str.string = t ++ s'.str.string) s := by
  unfold expectStr
  refine Tr.bind (tr_tryStr hi t) ?_
  intro b s1 hi1 hs1 h
  refine Tr.ite (fun hb => Tr.pure hi1 ⟨h.1, ?_, h.2.1 hb⟩) fun _ => Tr.err he
  have := h.2.1 hb
  have hp := List.length_pos_iff.2 ht
  simp only [St.len, this, List.length_append]; omega

theorem splitAtBytes_append {n : Nat} {l a b : Text} (h : splitAtBytes n l = some (a, b)) : l = a ++ b := by
  induction l generalizing n a b with
  | nil =>
    cases n with
    | zero => simp [splitAtBytes] at h; simp [h.1, h.2]
    | succ n => simp [splitAtBytes] at h
  | cons c cs ih =>
    cases n with
    | zero => simp [splitAtBytes] at h; obtain ⟨rfl, rfl⟩ := h; simp
    | succ n =>
      unfold splitAtBytes at h
      split at h
      · split at h
        · next a' b' hab =>
          simp only [Option.some.injEq, Prod.mk.injEq] at h
          obtain ⟨rfl, rfl⟩ := h
          simp [ih hab]
        · simp at h
      · simp at h

theorem tr_tryBytes (hi : Inv T A s) (n : Nat) :
    Tr T A (tryBytes n) (fun o s' => Same s s' ∧ ∀ t, o = some t →
      s.str.string = t ++ s'.str.string ∧ splitAtBytes n s.str.string = some (t, s'.str.string)) s := by
  unfold tryBytes
  refine Tr.onStr hi ?_
  unfold MStr.try_consume_n_bytes
  refine wp.bind (wp.get ?_)
  split
  · next a b hab =>
    have := splitAtBytes_append hab
    have hl : s.str.string.length = a.length + b.length := by rw [this, List.length_append]
    refine wp.bind (wp_advance (by rw [hi.chars]; omega) (wp.pure ?_))
    refine ⟨?_, ⟨a, this.symm⟩, ⟨rfl, rfl, rfl⟩, ?_⟩
    · show s.str.chars - a.length = b.length
      rw [hi.chars]; omega
    · intro t ht
      cases ht
      exact ⟨this, hab⟩
  · exact wp.pure ⟨hi.chars, List.suffix_refl _, ⟨rfl, rfl, rfl⟩, by simp⟩

theorem tr_2chars (hi : Inv T A s) :
    Tr T A (onStr MStr.try_consume_2_chars) (fun _ s' => Same s s') s := by
  refine Tr.onStr hi ?_
  unfold MStr.try_consume_2_chars
  refine wp.bind (wp.get ?_)
  split
  · next c1 c2 cs hc =>
    have hl : s.str.string.length = cs.length + 2 := by rw [hc]; simp
    refine wp.bind (wp_advance (by rw [hi.chars]; omega) (wp.pure ?_))
    refine ⟨?_, ⟨[c1, c2], by simp [hc]⟩, ⟨rfl, rfl, rfl⟩⟩
    show s.str.chars - 2 = cs.length
    rw [hi.chars]; omega
  · exact wp.pure ⟨hi.chars, List.suffix_refl _, ⟨rfl, rfl, rfl⟩⟩

/-! ### Nodes -/

theorem Good.new {T : TSpec} {c : Cache} {A : Handle → Prop} {g : GK} {nd : Node} (ha : A c.length)
    (hg : g.ok nd = true) (hn : nodeOK T nd) (hk : ∀ p ∈ kids g nd, Good T c A p.1 p.2) :
    Good T (c ++ [nd]) A g c.length :=
  Good.intro ha (by simp) hg hn fun p hp => (hk p hp).append _

theorem tr_intern (hi : Inv T A s) (nd : Node) :
    Tr T A (intern nd) (fun h s' => h = s.cache.length ∧ s'.cache = s.cache ++ [nd] ∧
      s'.str = s.str ∧ s'.names = s.names ∧ s'.function_params = s.function_params) s := by
  unfold Tr wp intern
  split
  · next heq =>
    split at heq
    · simp at heq
    · next hlt =>
      simp only [Except.ok.injEq, Prod.mk.injEq] at heq
      obtain ⟨rfl, rfl⟩ := heq
      refine ⟨?_, ⟨fun hg => hg.append _, Nat.le_refl _, by simp, fun h1 _ => by
        rw [List.getElem?_append_left (List.getElem?_eq_some_iff.1 h1).1]; exact h1⟩, rfl, rfl, rfl, rfl, rfl⟩
      exact { hi with
        size := by simp; omega
        names := fun h hh => (hi.names h hh).append _
        params := fun h hh => (hi.params h hh).append _
        fresh := fun i hii => hi.fresh i (by simp at hii; omega) }
  · next heq =>
    split at heq
    · simp only [Except.error.injEq, Fail.err.injEq] at heq; subst heq; trivial
    · simp at heq
  · next heq => split at heq <;> simp at heq

/-- Interning a node whose children are good. -/
theorem tr_intern_good (hi : Inv T A s) {nd : Node} (g : GK) (hg : g.ok nd = true) (hn : nodeOK T nd)
    (hk : ∀ p ∈ kids g nd, Good T s.cache A p.1 p.2) :
    Tr T A (intern nd) (fun h s' => Good T s'.cache A g h ∧ h = s.cache.length ∧
      s'.cache = s.cache ++ [nd] ∧ s'.len = s.len) s :=
  (tr_intern hi nd).mono fun h s' _ _ hq => by
    obtain ⟨h1, h2, h3, _⟩ := hq
    refine ⟨?_, h1, h2, by simp [St.len, h3]⟩
    subst h1
    rw [h2]
    exact Good.new (hi.fresh _ (Nat.le_refl _)) hg hn hk

theorem resolve_good {c : Cache} {kd : Kind} {h : Handle} (hg : Good T c A (.k kd) h) :
    ∃ nd, resolve kd c h = .ok nd ∧ c[h]? = some nd ∧ nd.is kd = true := by
  obtain ⟨nd, h1, h2, h3, _⟩ := hg.resolve
  exact ⟨nd, h1, h2, h3⟩

theorem tr_resolveP {kd : Kind} {h : Handle} {β : Type} {R : β → St → Prop} {k : Node → P β}
    (hg : Good T s.cache A (.k kd) h)
    (hk : ∀ nd, s.cache[h]? = some nd → nd.is kd = true → nodeOK T nd →
      (∀ p ∈ kidsOf nd, Good T s.cache A p.1 p.2) → Tr T B (k nd) R s) :
    Tr T B (resolveP kd h >>= k) R s := by
  obtain ⟨nd, h1, h2, h3, h4, h5⟩ := hg.resolve
  have : resolveP kd h s = .ok (nd, s) := by
    show SM.lift (resolve kd s.cache h) s = _
    rw [h1]; rfl
  have := hk nd h2 h3 h4 h5
  refine wp.bind ?_
  unfold wp
  rw [‹resolveP kd h s = _›]
  exact this

theorem tr_downcastP {src dst : Kind} {h : Handle} {β : Type} {R : β → St → Prop}
    {k : Option Handle → P β}
    (hg : Good T s.cache A (.k src) h)
    (hk : ∀ nd, s.cache[h]? = some nd → nd.is src = true →
      Tr T B (k (if nd.is dst then some h else none)) R s) :
    Tr T B (downcastP src dst h >>= k) R s := by
  obtain ⟨nd, h1, h2, h3, h4, h5⟩ := hg.resolve
  have h6 : downcastP src dst h s = .ok ((if nd.is dst then some h else none), s) := by
    show SM.lift (downcast src dst s.cache h) s = _
    unfold downcast
    rw [h1]; rfl
  have := hk nd h2 h3
  refine wp.bind ?_
  unfold wp
  rw [h6]
  exact this

/-- The result of `modifyNode` on a node with the right interface. -/
theorem modifyNode_eq {kd : Kind} {h : Handle} {f : Node → Node} {nd : Node}
    (h1 : s.cache[h]? = some nd) (h2 : nd.is kd = true) :
    modifyNode kd h f s = .ok ((), { s with cache := s.cache.set h (f nd) }) := by
  have : resolveP kd h s = .ok (nd, s) := by
    show SM.lift (resolve kd s.cache h) s = _
    unfold resolve
    simp [h1, h2, SM.lift]
  show SM.bind (resolveP kd h) _ s = _
  unfold SM.bind
  rw [this]
  rfl

/-- Updating a node without changing its children or interfaces. -/
theorem tr_modify_same (hi : Inv T A s) {kd : Kind} {h : Handle} {f : Node → Node}
    (hg : Good T s.cache B (.k kd) h)
    (hk : ∀ nd, nd.is kd = true → (∀ g : GK, g.ok nd = true → g.ok (f nd) = true) ∧
      (nodeOK T nd → nodeOK T (f nd)) ∧ (∀ g, kids g (f nd) = kids g nd) ∧ (nd.frozen = true → f nd = nd)) :
    Tr T A (modifyNode kd h f) (fun _ s' => s'.str = s.str ∧ s'.names = s.names ∧
      s'.function_params = s.function_params ∧ s'.cache.length = s.cache.length ∧
      (∀ i, i ≠ h → s'.cache[i]? = s.cache[i]?)) s := by
  obtain ⟨nd, _, h2, h3⟩ := resolve_good hg
  obtain ⟨k1, k2, k3, k4⟩ := hk nd h3
  unfold Tr wp
  rw [modifyNode_eq h2 h3]
  have hext : ∀ {A g i}, Good T s.cache A g i → Good T (s.cache.set h (f nd)) A g i :=
    fun hg => hg.set_same h2 k1 k2 k3
  refine ⟨?_, ⟨hext, Nat.le_refl _, by simp, fun {i nd'} h1 h4 => ?_⟩, rfl, rfl, rfl, by simp, fun i hne => ?_⟩
  rotate_left
  · show (s.cache.set h (f nd))[i]? = _
    by_cases hih : i = h
    · subst hih
      rw [h1] at h2; cases h2
      rw [k4 h4, getElem?_set_self' h1]
    · rw [List.getElem?_set_ne (Ne.symm hih)]; exact h1
  rotate_left
  · exact { hi with
      size := by simpa using hi.size
      names := fun i hh => hext (hi.names i hh)
      params := fun i hh => hext (hi.params i hh)
      fresh := fun i hii => hi.fresh i (by simpa using hii) }
  · show (s.cache.set h (f nd))[i]? = _
    rw [List.getElem?_set_ne (Ne.symm hne)]

theorem append_quals_same (q : Qualifiers) (nd : Node) : (∀ g : GK, g.ok nd = true → g.ok (nd.append_quals q) = true) ∧
    (nodeOK T nd → nodeOK T (nd.append_quals q)) ∧ (∀ g, kids g (nd.append_quals q) = kids g nd) ∧
    (nd.frozen = true → nd.append_quals q = nd) := by
  refine ⟨?_, ?_, ?_, ?_⟩
  · intro g
    cases g with
    | k kd => cases kd <;> cases nd <;> exact id
    | dims => cases nd <;> exact id
    | comps => cases nd <;> exact id
    | intLit => cases nd <;> exact id
  · cases nd <;> exact id
  · intro g; cases g <;> cases nd <;> rfl
  · cases nd <;> intro h <;> first | rfl | cases h

theorem set_quals_same (q : Qualifiers) (nd : Node) : (∀ g : GK, g.ok nd = true → g.ok (nd.set_quals q) = true) ∧
    (nodeOK T nd → nodeOK T (nd.set_quals q)) ∧ (∀ g, kids g (nd.set_quals q) = kids g nd) ∧
    (nd.frozen = true → nd.set_quals q = nd) := by
  refine ⟨?_, ?_, ?_, ?_⟩
  · intro g
    cases g with
    | k kd => cases kd <;> cases nd <;> exact id
    | dims => cases nd <;> exact id
    | comps => cases nd <;> exact id
    | intLit => cases nd <;> exact id
  · cases nd <;> exact id
  · intro g; cases g <;> cases nd <;> rfl
  · cases nd <;> intro h <;> first | rfl | cases h

/-! ### Leaf parsers that only read the input -/

theorem hexdigit_lt {c : Char} (h : is_rebased_ascii_hexdigit c = true) : c.toNat - 'A'.toNat < 16 := by
  simp only [is_rebased_ascii_hexdigit, Bool.and_eq_true, decide_eq_true_eq] at h
  have h1 : 65 ≤ c.toNat := h.1
  have h2 : c.toNat ≤ 80 := h.2
  show c.toNat - 65 < 16
  omega

theorem number_no_overflow (n k : Nat) (hk : k < 16) : n * 16 % 2 ^ 64 + k < 2 ^ 64 := by omega

theorem tr_number (hi : Inv T A s) :
    Tr T A demangle_number (fun x s' => Same s s' ∧ s'.len < s.len ∧ x.1 < 2 ^ 64) s := by
  unfold demangle_number
  refine Tr.bind (tr_tryChar hi '?') ?_
  intro neg s1 hi1 hs1 h1
  refine Tr.bind (tr_expectAny hi1 .InvalidNumber) ?_
  intro c s2 hi2 hs2 h2
  have hlen : s2.len < s.len := by have := h2.2.1; have := hs1.len; omega
  refine Tr.ite (fun hc => Tr.pure hi2 ⟨h1.1.trans h2.1, hlen, ?_⟩) fun _ => ?_
  · simp only [isDigit, Bool.and_eq_true, decide_eq_true_eq] at hc
    have h1 : c.toNat ≤ 57 := hc.2
    show c.toNat - 48 + 1 < _
    omega
  · refine Tr.bind (Q := fun (n : Nat) s' => Same s2 s' ∧ n < 2 ^ 64)
      (Tr.loop (fun (x : Nat × Char) s' => Same s2 s' ∧ x.1 < 2 ^ 64) hi2 ⟨Same.refl s2, by simp⟩ ?_) ?_
    · rintro ⟨n, c⟩ s3 hi3 hs3 ⟨hsame, hn⟩
      unfold numberBody
      refine Tr.ite (fun _ => Tr.pure hi3 ⟨hsame, hn⟩) fun _ => ?_
      refine Tr.ite (fun hc => ?_) fun _ => Tr.err
      refine Tr.ite (fun hlt => ?_) fun hge => ?_
      · refine Tr.bind (tr_expectAny hi3 .InvalidNumber) ?_
        intro c' s4 hi4 hs4 h4
        exact Tr.pure hi4 ⟨⟨hsame.trans h4.1, hlt⟩, h4.2.1⟩
      · exact absurd (number_no_overflow n _ (hexdigit_lt hc)) hge
    · intro n s3 hi3 hs3 hq
      refine Tr.pure hi3 ⟨(h1.1.trans h2.1).trans hq.1, ?_, hq.2⟩
      have := hs3.len; omega

theorem tr_unsigned (hi : Inv T A s) :
    Tr T A demangle_unsigned (fun _ s' => Same s s' ∧ s'.len < s.len) s := by
  unfold demangle_unsigned
  refine Tr.bind (tr_number hi) ?_
  rintro ⟨n, b⟩ s1 hi1 hs1 h1
  exact Tr.ite (fun _ => Tr.err) fun _ => Tr.pure hi1 ⟨h1.1, h1.2.1⟩

theorem tr_signed (hi : Inv T A s) :
    Tr T A demangle_signed (fun _ s' => Same s s' ∧ s'.len < s.len) s := by
  unfold demangle_signed
  refine Tr.bind (tr_number hi) ?_
  rintro ⟨n, b⟩ s1 hi1 hs1 h1
  exact Tr.ite (fun _ => Tr.pure hi1 ⟨h1.1, h1.2.1⟩) fun _ => Tr.err

theorem tr_qualifiers (hi : Inv T A s) :
    Tr T A demangle_qualifiers (fun _ s' => Same s s' ∧ s'.len < s.len) s := by
  unfold demangle_qualifiers
  refine Tr.bind (tr_expectAny hi _) ?_
  intro c s1 hi1 hs1 h1
  split <;> first | exact Tr.err | exact Tr.pure hi1 ⟨h1.1, h1.2.1⟩

/-- The qualifiers of a pointer to a data member. -/
theorem tr_member_qualifiers (hi : Inv T A s)
    (h : ∃ c l, s.str.string = c :: l ∧ (c = 'Q' ∨ c = 'R' ∨ c = 'S' ∨ c = 'T')) :
    Tr T A demangle_qualifiers (fun q s' => Same s s' ∧ s'.len < s.len ∧ q.2 = true) s := by
  unfold demangle_qualifiers
  refine Tr.bind (tr_expectAny hi _) ?_
  intro c s1 hi1 hs1 h1
  obtain ⟨c', l, h2, h3⟩ := h
  rw [h1.2.2] at h2
  obtain rfl : c = c' := (List.cons.inj h2).1
  rcases h3 with rfl | rfl | rfl | rfl <;> exact Tr.pure hi1 ⟨h1.1, h1.2.1, rfl⟩

theorem pointer_first {m : MStr} (h : m.is_pointer_type = true) (hq : m.starts_with c!"$$Q" = false) :
    ∃ c l, m.string = c :: l ∧ (c = 'A' ∨ c = 'P' ∨ c = 'Q' ∨ c = 'R' ∨ c = 'S') := by
  unfold MStr.is_pointer_type at h
  rw [hq, Bool.false_or] at h
  unfold MStr.first_char at h
  cases hl : m.string with
  | nil => rw [hl] at h; simp at h
  | cons c l =>
    rw [hl] at h
    refine ⟨c, l, rfl, ?_⟩
    simpa [or_assoc] using h

theorem tr_pointer_cv (hi : Inv T A s) (hp : s.str.is_pointer_type = true) :
    Tr T A demangle_pointer_cv_qualifiers (fun q s' => Same s s' ∧ s'.len < s.len ∧
      ∀ c l, s.str.string = c :: l → (c = 'P' ∨ c = 'Q' ∨ c = 'R' ∨ c = 'S') → q.2 = .Pointer ∧ s'.str.string = l) s := by
  unfold demangle_pointer_cv_qualifiers
  refine Tr.bind (Q := fun b s' => Same s s' ∧ (b = true → s'.len < s.len ∧ ∃ l, s.str.string = '$' :: l) ∧
    (b = false → s' = s ∧ s.str.starts_with c!"$$Q" = false)) ?_ ?_
  · unfold tryStr
    refine Tr.bind (Q := fun o s' => Same s s' ∧ (o.isSome = true → s'.len < s.len ∧ ∃ l, s.str.string = '$' :: l) ∧
      (o = none → s' = s ∧ s.str.starts_with c!"$$Q" = false)) (Tr.onStr hi ?_) ?_
    · unfold MStr.try_consume_str
      refine wp.bind (wp.get ?_)
      split
      · next hp =>
        have hd := isPrefixOf_drop hp
        have hl : s.str.string.length = 3 + (s.str.string.drop 3).length := by
          have := congrArg List.length hd
          rw [List.length_append] at this
          exact this
        refine wp.bind (wp_advance (by rw [hi.chars]; simp only [List.length_cons, List.length_nil]; omega) (wp.pure ?_))
        refine ⟨?_, List.drop_suffix _ _, ⟨rfl, rfl, rfl⟩, fun _ => ⟨?_, _, hd⟩, by simp⟩
        · show s.str.chars - 3 = (s.str.string.drop 3).length
          rw [hi.chars]; omega
        · show (s.str.string.drop 3).length < _
          simp only [St.len]; omega
      · next hn =>
        exact wp.pure ⟨hi.chars, List.suffix_refl _, ⟨rfl, rfl, rfl⟩, by simp, fun _ => ⟨rfl, Bool.eq_false_iff.2 hn⟩⟩
    · intro o s1 hi1 hs1 h
      exact Tr.pure hi1 ⟨h.1, fun ho => h.2.1 ho, fun ho => h.2.2 (by simpa using ho)⟩
  intro b s1 hi1 hs1 h1
  refine Tr.ite (fun hb => Tr.pure hi1 ⟨h1.1, (h1.2.1 hb).1, ?_⟩) fun hb => ?_
  · intro c l hc hk
    obtain ⟨l', hl⟩ := (h1.2.1 hb).2
    rw [hl] at hc
    obtain rfl := (List.cons.inj hc).1
    simp at hk
  obtain ⟨rfl, hq⟩ := h1.2.2 (by simpa using hb)
  obtain ⟨c, l, hc, hk⟩ := pointer_first hp hq
  refine Tr.bind (tr_expectAny' hi1 _ (by rw [hc]; simp)) ?_
  intro c' s2 hi2 hs2 h2
  rw [h2.2.2] at hc
  obtain ⟨rfl, hl⟩ := List.cons.inj hc
  have fin : ∀ c'' l', s1.str.string = c'' :: l' → c'' = c' ∧ s2.str.string = l' := by
    intro c'' l' h
    rw [h2.2.2] at h
    exact ⟨(List.cons.inj h).1.symm, (List.cons.inj h).2⟩
  rcases hk with rfl | rfl | rfl | rfl | rfl <;> refine Tr.pure hi2 ⟨h2.1, h2.2.1, fun c'' l' h hk => ?_⟩
  · obtain ⟨rfl, -⟩ := fin _ _ h; simp at hk
  all_goals exact ⟨rfl, (fin _ _ h).2⟩

theorem tr_ext_quals (hi : Inv T A s) :
    Tr T A demangle_pointer_ext_qualifiers (fun _ s' => Same s s' ∧
      s'.str.string = dropIf 'F' (dropIf 'I' (dropIf 'E' s.str.string))) s := by
  unfold demangle_pointer_ext_qualifiers
  refine Tr.bind (tr_tryChar' hi _) ?_
  intro b1 s1 hi1 hs1 h1
  refine Tr.bind (tr_tryChar' hi1 _) ?_
  intro b2 s2 hi2 hs2 h2
  refine Tr.bind (tr_tryChar' hi2 _) ?_
  intro b3 s3 hi3 hs3 h3
  exact Tr.pure hi3 ⟨(h1.1.trans h2.1).trans h3.1, by rw [h3.2.1, h2.2.1, h1.2.1]⟩

theorem tr_ref_qual (hi : Inv T A s) :
    Tr T A demangle_function_ref_qualifier (fun _ s' => Same s s') s := by
  unfold demangle_function_ref_qualifier
  refine Tr.bind (tr_tryChar hi _) ?_
  intro b1 s1 hi1 hs1 h1
  refine Tr.ite (fun _ => Tr.pure hi1 h1.1) fun _ => ?_
  refine Tr.bind (tr_tryChar hi1 _) ?_
  intro b2 s2 hi2 hs2 h2
  exact Tr.ite (fun _ => Tr.pure hi2 (h1.1.trans h2.1)) fun _ => Tr.pure hi2 (h1.1.trans h2.1)

theorem tr_function_class (hi : Inv T A s) :
    Tr T A demangle_function_class (fun _ s' => Same s s' ∧ s'.len < s.len) s := by
  unfold demangle_function_class
  refine Tr.bind (tr_expectAny hi _) ?_
  intro c s1 hi1 hs1 h1
  refine Tr.ite (fun _ => ?_) fun _ => Tr.okOr hi1 fun _ _ => ⟨h1.1, h1.2.1⟩
  refine Tr.bind (tr_tryChar hi1 _) ?_
  intro b s2 hi2 hs2 h2
  refine Tr.bind (tr_expectAny hi2 _) ?_
  intro c' s3 hi3 hs3 h3
  refine Tr.okOr hi3 fun _ _ => ⟨(h1.1.trans h2.1).trans h3.1, ?_⟩
  have := h1.2.1; have := hs2.len; have := hs3.len; omega

theorem tr_calling_convention (hi : Inv T A s) :
    Tr T A demangle_calling_convention (fun _ s' => Same s s' ∧ s'.len < s.len) s := by
  unfold demangle_calling_convention
  refine Tr.bind (tr_expectAny hi _) ?_
  intro c s1 hi1 hs1 h1
  exact Tr.pure hi1 ⟨h1.1, h1.2.1⟩

theorem tr_storage_class (hi : Inv T A s)
    (h : ∃ c l, s.str.string = c :: l ∧ (c = '0' ∨ c = '1' ∨ c = '2' ∨ c = '3' ∨ c = '4')) :
    Tr T A demangle_variable_storage_class (fun _ s' => Same s s' ∧ s'.len < s.len) s := by
  unfold demangle_variable_storage_class
  obtain ⟨c, l, hc, hk⟩ := h
  refine Tr.bind (tr_expectAny' hi _ (by rw [hc]; simp)) ?_
  intro c' s1 hi1 hs1 h1
  rw [h1.2.2] at hc
  obtain ⟨rfl, -⟩ := List.cons.inj hc
  rcases hk with rfl | rfl | rfl | rfl | rfl <;> exact Tr.pure hi1 ⟨h1.1, h1.2.1⟩

theorem tr_throw (hi : Inv T A s) :
    Tr T A demangle_throw_specification (fun _ s' => Same s s') s := by
  unfold demangle_throw_specification
  refine Tr.bind (tr_tryStr' hi c!"_E") ?_
  intro b1 s1 hi1 hs1 h1
  refine Tr.ite (fun _ => Tr.pure hi1 h1.1) fun _ => ?_
  refine Tr.bind (tr_tryChar hi1 _) ?_
  intro b2 s2 hi2 hs2 h2
  exact Tr.ite (fun _ => Tr.pure hi2 (h1.1.trans h2.1)) fun _ => Tr.err

theorem tr_primitive (hi : Inv T A s) :
    Tr T A demangle_primitive_type (fun h s' => Good T s'.cache A .type h ∧ s'.len < s.len) s := by
  unfold demangle_primitive_type
  refine Tr.bind (Q := fun _ s' => s'.len < s.len) ?_ ?_
  · unfold primitive_kind
    refine Tr.bind (tr_tryStr' hi c!"$$T") ?_
    intro b1 s1 hi1 hs1 h1
    refine Tr.ite (fun hb => Tr.pure hi1 (h1.2.1 hb)) fun _ => ?_
    refine Tr.bind (tr_expectAny hi1 _) ?_
    intro c s2 hi2 hs2 h2
    have hl2 : s2.len < s.len := by have := hs1.len; have := h2.2.1; omega
    refine Tr.ite (fun _ => ?_) fun _ => Tr.okOr hi2 fun _ _ => hl2
    refine Tr.bind (tr_expectAny hi2 _) ?_
    intro c' s3 hi3 hs3 h3
    exact Tr.okOr hi3 fun _ _ => by have := hs3.len; omega
  · intro k s1 hi1 hs1 h1
    refine (tr_intern_good (nd := .PrimitiveType Qualifiers.Q_None k) hi1 .type rfl trivial (by simp [kids, kidsOf])).mono ?_
    intro h s2 hi2 hs2 h2
    exact ⟨h2.1, by have := hs2.len; omega⟩

/-! ### Names -/

theorem names_contain_ok {c : Cache} (t : Text) : ∀ (l : List Handle), (∀ h ∈ l, Good T c A .named h) →
    ∃ b, memorize_string.names_contain c t l = .ok b
  | [], _ => ⟨false, rfl⟩
  | h :: hs, hg => by
    obtain ⟨nd, h1, _, h3⟩ := resolve_good (hg h (by simp))
    obtain ⟨b, hb⟩ := names_contain_ok (c := c) t hs fun x hx => hg x (by simp [hx])
    unfold memorize_string.names_contain
    cases nd <;> simp [Node.is] at h3
    case NamedIdentifier tp name =>
      rw [h1]
      simp only
      split
      · exact ⟨true, rfl⟩
      · exact ⟨b, hb⟩

theorem tr_memorize (hi : Inv T A s) {t : Text} (ht : T.name t) :
    Tr T A (memorize_string t) (fun _ s' => s'.str = s.str) s := by
  unfold memorize_string
  refine Tr.get ?_
  obtain ⟨b, hb⟩ := names_contain_ok (T := T) t s.names hi.names
  refine Tr.lift hb ?_
  refine Tr.ite (fun hc => ?_) fun _ => Tr.pure hi rfl
  simp only [Bool.and_eq_true, decide_eq_true_eq] at hc
  refine Tr.bind (tr_intern hi _) ?_
  rintro h s1 hi1 hs1 ⟨rfl, h2, h3, h4, h5⟩
  have hg : Good T s1.cache A .named s.cache.length := by
    rw [h2]
    exact Good.new (hi.fresh _ (Nat.le_refl _)) rfl ht (by simp [kids, kidsOf, optKid])
  unfold memorize_string.push_name
  refine Tr.get ?_
  have hl : s1.names.length < 10 := by rw [h4]; exact hc.1
  rw [if_pos hl]
  refine wp.set ⟨?_, ⟨id, Nat.le_refl _, Nat.le_refl _, fun h _ => h⟩, h3⟩
  exact { hi1 with
    names_len := by simp; omega
    names := fun x hx => by
      rcases List.mem_append.1 hx with hx | hx
      · exact hi1.names x hx
      · simp only [List.mem_singleton] at hx; subst hx; exact hg }

theorem Inv.name_infix (hi : Inv T A s) {t : Text} (h : t <:+: s.str.string) (h' : '@' ∉ t) : T.name t :=
  fun d => T.inp_run (T.inp_infix h hi.inp) h' d

theorem findChar_split {x : Char} {l : Text} {n : Nat} (h : MStr.findChar x l = some n) :
    ∃ a b, l = a ++ x :: b ∧ x ∉ a ∧ utf8Len a = n := by
  induction l generalizing n with
  | nil => simp [MStr.findChar] at h
  | cons c cs ih =>
    unfold MStr.findChar at h
    split at h
    · next hc =>
      simp only [beq_iff_eq] at hc
      subst hc
      simp only [Option.some.injEq] at h
      exact ⟨[], cs, rfl, by simp, by simp [utf8Len, h]⟩
    · next hc =>
      simp only [Option.map_eq_some_iff] at h
      obtain ⟨m, hm, hmn⟩ := h
      obtain ⟨a, b, h1, h2, h3⟩ := ih hm
      refine ⟨c :: a, b, by simp [h1], ?_, by simp [utf8Len, h3, hmn]⟩
      simp only [List.mem_cons, not_or]
      exact ⟨fun h => hc (by simp [h]), h2⟩

theorem utf8Size_pos (c : Char) : 1 ≤ c.utf8Size := Char.utf8Size_pos c

theorem splitAtBytes_len (a b : Text) : splitAtBytes (utf8Len a) (a ++ b) = some (a, b) := by
  induction a with
  | nil => simp [utf8Len, splitAtBytes]
  | cons c cs ih =>
    have := utf8Size_pos c
    simp only [utf8Len, List.cons_append]
    obtain ⟨k, hk⟩ : ∃ k, c.utf8Size + utf8Len cs = k + 1 := ⟨c.utf8Size + utf8Len cs - 1, by omega⟩
    rw [hk]
    unfold splitAtBytes
    have h1 : c.utf8Size ≤ k + 1 := by omega
    have h2 : k + 1 - c.utf8Size = utf8Len cs := by omega
    simp [h1, h2, ih]

theorem splitAtBytes_utf8Len {n : Nat} {l a b : Text} (h : splitAtBytes n l = some (a, b)) : utf8Len a = n := by
  induction l generalizing n a b with
  | nil =>
    cases n with
    | zero => simp [splitAtBytes] at h; simp [h.1, utf8Len]
    | succ n => simp [splitAtBytes] at h
  | cons c cs ih =>
    cases n with
    | zero => simp [splitAtBytes] at h; simp [h.1, utf8Len]
    | succ n =>
      unfold splitAtBytes at h
      split at h
      · split at h
        · next a' b' hab =>
          simp only [Option.some.injEq, Prod.mk.injEq] at h
          obtain ⟨rfl, rfl⟩ := h
          simp [utf8Len, ih hab]; omega
        · simp at h
      · simp at h

theorem split_find {x : Char} {l a b : Text} {n : Nat} (h : MStr.findChar x l = some n) (hs : splitAtBytes n l = some (a, b)) : x ∉ a := by
  obtain ⟨a', b', rfl, h2, rfl⟩ := findChar_split h
  rw [splitAtBytes_len] at hs
  cases hs
  exact h2

theorem tr_simple_string (hi : Inv T A s) (m : Bool) :
    Tr T A (demangle_simple_string m) (fun t s' => T.name t ∧ s'.len < s.len) s := by
  unfold demangle_simple_string
  refine Tr.query ?_
  refine Tr.okOrB fun pos hpos => ?_
  refine Tr.ite (fun _ => Tr.err) fun _ => ?_
  refine Tr.bind (tr_tryBytes hi pos) ?_
  intro o s1 hi1 hs1 h1
  refine Tr.okOrB fun t ho => ?_
  refine Tr.bind (tr_expectChar hi1 '@' _) ?_
  intro _ s2 hi2 hs2 h2
  have hn : T.name t := hi.name_infix ⟨[], s1.str.string, by simp [(h1.2 t ho).1]⟩ (split_find hpos (h1.2 t ho).2)
  have hl : s2.len < s.len := by have := hs1.len; have := h2.2; omega
  refine Tr.bind (Q := fun _ s' => s'.str = s2.str) (Tr.whenB hi2 (fun _ => tr_memorize hi2 hn) fun _ => rfl) ?_
  intro _ s3 hi3 hs3 h3
  exact Tr.pure hi3 ⟨hn, by have := hs3.len; omega⟩

/-- Interning a node that is not used by anything else. -/
theorem tr_intern_fresh (hi : Inv T A s) {nd : Node} (g : GK) (hg : g.ok nd = true) (hn : nodeOK T nd)
    (hk : ∀ p ∈ kids g nd, Good T s.cache A p.1 p.2) :
    Tr T A (intern nd) (fun h s' => Good T s'.cache A g h ∧ h = s.cache.length ∧
      s'.cache = s.cache ++ [nd] ∧ s'.len = s.len ∧ Inv T (fun i => A i ∧ i ≠ h) s') s :=
  (tr_intern hi nd).mono fun h s' hi' _ hq => by
    obtain ⟨h1, h2, h3, h4, h5⟩ := hq
    subst h1
    have key : ∀ {g h}, Good T s.cache A g h → Good T s'.cache (fun i => A i ∧ i ≠ s.cache.length) g h := by
      intro g h hg
      rw [h2]
      exact (hg.bound.append _).mono fun i hi => ⟨hi.1, Nat.ne_of_lt hi.2⟩
    refine ⟨?_, rfl, h2, by simp [St.len, h3], ?_⟩
    · rw [h2]; exact Good.new (hi.fresh _ (Nat.le_refl _)) hg hn hk
    · exact { hi' with
        names := fun x hx => key (hi.names x (by rw [← h4]; exact hx))
        params := fun x hx => key (hi.params x (by rw [← h5]; exact hx))
        fresh := fun i hii => ⟨hi'.fresh i hii, by rw [h2, List.length_append] at hii; exact Nat.ne_of_gt hii⟩ }

theorem tr_simple_name (hi : Inv T A s) (m : Bool) :
    Tr T A (demangle_simple_name m) (fun h s' => Good T s'.cache A .ident h ∧ s'.len < s.len ∧
      s.cache.length ≤ h ∧ Inv T (fun i => A i ∧ i ≠ h) s') s := by
  unfold demangle_simple_name
  refine Tr.bind (tr_simple_string hi m) ?_
  intro t s1 hi1 hs1 h1
  refine (tr_intern_fresh (nd := .NamedIdentifier none t) hi1 .ident rfl h1.1 (by simp [kids, kidsOf, optKid])).mono ?_
  rintro h s2 hi2 hs2 ⟨h2, rfl, _, h4, h5⟩
  exact ⟨h2, by have := h1.2; omega, by have := hs1.clen; omega, h5⟩

theorem tr_anonymous (hi : Inv T A s) :
    Tr T A demangle_anonymous_namespace_name (fun h s' => Good T s'.cache A .ident h ∧ s'.len < s.len) s := by
  unfold demangle_anonymous_namespace_name
  refine Tr.bind (tr_expectStr hi c!"?A" _) ?_
  intro _ s1 hi1 hs1 h1
  refine Tr.query ?_
  refine Tr.okOrB fun pos hpos => ?_
  refine Tr.bind (tr_tryBytes hi1 pos) ?_
  intro o s2 hi2 hs2 h2
  refine Tr.okOrB fun t ho => ?_
  have hn : T.name t := hi1.name_infix ⟨[], s2.str.string, by simp [(h2.2 t ho).1]⟩ (split_find hpos (h2.2 t ho).2)
  refine Tr.bind (tr_memorize hi2 hn) ?_
  intro _ s3 hi3 hs3 h3
  refine Tr.bind (tr_expectChar hi3 '@' _) ?_
  intro _ s4 hi4 hs4 h4
  refine (tr_intern_good hi4 .ident (by rfl) (by exact T.name_of_lit (by decide)) (by simp [kids, kidsOf, optKid])).mono ?_
  rintro h s5 hi5 hs5 ⟨h5, _⟩
  exact ⟨h5, by have := h1.2; have := hs2.len; have := hs3.len; have := hs4.len; have := hs5.len; omega⟩

theorem tr_back_ref (hi : Inv T A s) :
    Tr T A demangle_back_ref_name (fun h s' => Good T s'.cache A .named h ∧ h ∈ s.names ∧ Same s s' ∧
      s'.len < s.len) s := by
  unfold demangle_back_ref_name
  refine Tr.bind (tr_tryIf' hi isDigit) ?_
  intro o s1 hi1 hs1 h1
  refine Tr.okOrB fun c ho => ?_
  refine Tr.get (Tr.okOr hi1 fun h hh => ?_)
  have hm : h ∈ s1.names := List.mem_of_getElem? hh
  exact ⟨hi1.names h hm, by rw [← h1.1.names]; exact hm, h1.1, (h1.2 c ho).2⟩

theorem tr_synth_id (hi : Inv T A s) {i : Handle} (hg : Good T s.cache A .ident i) :
    Tr T A (synthesize_from_id i) (fun h s' => Good T s'.cache A .qn h ∧ s'.len = s.len ∧
      s.cache.length ≤ h) s := by
  unfold synthesize_from_id
  refine Tr.bind (tr_intern_good (nd := .NodeArray [i]) hi .comps rfl trivial
    (by simpa [kids, kidsOf] using hg)) ?_
  rintro a s1 hi1 hs1 ⟨h1, h2, h3, h4⟩
  refine (tr_intern_good (nd := .QualifiedName a) hi1 .qn rfl trivial (by simpa [kids, kidsOf] using h1)).mono ?_
  rintro h s2 hi2 hs2 ⟨h5, rfl, _, h7⟩
  exact ⟨h5, by omega, by have := hs1.clen; omega⟩

theorem tr_synth_name (hi : Inv T A s) {t : Text} (ht : T.name t) :
    Tr T A (synthesize_from_name t) (fun h s' => Good T s'.cache A .qn h ∧ s'.len = s.len ∧
      s.cache.length ≤ h) s := by
  unfold synthesize_from_name
  refine Tr.bind (tr_intern_good (nd := .NamedIdentifier none t) hi .ident rfl ht
    (by simp [kids, kidsOf, optKid])) ?_
  rintro i s1 hi1 hs1 ⟨h1, h2, h3, h4⟩
  refine (tr_synth_id hi1 h1).mono ?_
  rintro h s2 hi2 hs2 ⟨h5, h6, h7⟩
  exact ⟨h5, by omega, by have := hs1.clen; omega⟩

theorem utf8Len_take_cons (a b : Text) : utf8Len (a ++ b) = utf8Len a + utf8Len b := Out.utf8Len_append a b

theorem tr_md5 (hi : Inv T A s) :
    Tr T A demangle_md5_name (fun h s' => Good T s'.cache A .sym h ∧ s'.len < s.len) s := by
  unfold demangle_md5_name
  refine Tr.query ?_
  refine Tr.bind (Q := fun _ s' => Same s s' ∧ s.str.string = c!"??@" ++ s'.str.string) ?_ ?_
  · unfold expectStr
    refine Tr.bind (tr_tryStr hi _) ?_
    intro b s1 hi1 hs1 h1
    exact Tr.ite (fun hb => Tr.pure hi1 ⟨h1.1, h1.2.1 hb⟩) fun _ => Tr.err
  intro _ s1 hi1 hs1 h1
  refine Tr.query ?_
  refine Tr.okOrB fun stop _ => ?_
  refine Tr.bind (tr_tryBytes hi1 (stop + 1)) ?_
  intro o s2 hi2 hs2 h2
  refine Tr.okOrB fun t ho => ?_
  obtain ⟨h3, h4⟩ := h2.2 t ho
  have htl : utf8Len t = stop + 1 := splitAtBytes_utf8Len h4
  refine Tr.bind (tr_tryStr hi2 _) ?_
  intro r4 s3 hi3 hs3 h5
  have hl : s3.len < s.len := by
    have : s.len = 3 + s1.len := by simp [St.len, h1.2]; omega
    have := hs2.len; have := hs3.len; omega
  have hsplit : ∃ md5 rest, splitAtBytes ((if r4 then stop + 3 + 6 else stop + 3) + 1) s.str.string
      = some (md5, rest) := by
    cases r4 with
    | false =>
      refine ⟨c!"??@" ++ t, s2.str.string, ?_⟩
      have e1 : s.str.string = (c!"??@" ++ t) ++ s2.str.string := by rw [h1.2, h3]; simp
      have e2 : (if false = true then stop + 3 + 6 else stop + 3) + 1 = utf8Len (c!"??@" ++ t) := by
        rw [utf8Len_take_cons, htl]
        have : utf8Len c!"??@" = 3 := by decide
        simp; omega
      rw [e1, e2]; exact splitAtBytes_len _ _
    | true =>
      refine ⟨c!"??@" ++ t ++ c!"??_R4@", s3.str.string, ?_⟩
      have e1 : s.str.string = (c!"??@" ++ t ++ c!"??_R4@") ++ s3.str.string := by
        rw [h1.2, h3, h5.2.1 rfl]; simp
      have e2 : (if true = true then stop + 3 + 6 else stop + 3) + 1 = utf8Len (c!"??@" ++ t ++ c!"??_R4@") := by
        rw [utf8Len_take_cons, utf8Len_take_cons, htl]
        have : utf8Len c!"??@" = 3 := by decide
        have : utf8Len c!"??_R4@" = 6 := by decide
        simp; omega
      rw [e1, e2]; exact splitAtBytes_len _ _
  obtain ⟨md5, rest, hsp⟩ := hsplit
  simp only [hsp]
  have hn : T.name md5 := fun d => T.md5_run (T.inp_infix ⟨[], s1.str.string, by rw [h1.2]; simp⟩ hi.inp) (T.inp_infix ⟨[], rest, by simp [splitAtBytes_append hsp]⟩ hi.inp) d
  refine Tr.bind (tr_synth_name hi3 hn) ?_
  rintro q s4 hi4 hs4 ⟨h6, h7, _⟩
  refine (tr_intern_good (nd := .Md5Symbol q) hi4 .sym rfl trivial (by simpa [kids, kidsOf] using h6)).mono ?_
  rintro h s5 hi5 hs5 ⟨h8, _, _, h9⟩
  exact ⟨h8, by omega⟩

/-! ### Operators -/

theorem tables_length : basicTable.length = 36 ∧ underTable.length = 36 ∧ doubleUnderTable.length = 36 := by
  decide

theorem translate_ok (ch : Char) (g : CodeGroup) :
    (∃ op, translate_intrinsic_function_code ch g = .ok op) ∨
      translate_intrinsic_function_code ch g = .error (.err .InvalidIntrinsicFunctionCode) := by
  unfold translate_intrinsic_function_code
  split
  · next h =>
    left
    have hb : (if isDigit ch then ch.toNat - '0'.toNat else ch.toNat - 'A'.toNat + 10) < 36 := by
      by_cases hd : isDigit ch = true
      · simp only [hd, if_true]
        simp only [isDigit, Bool.and_eq_true, decide_eq_true_eq] at hd
        have : ch.toNat ≤ 57 := hd.2
        show ch.toNat - 48 < 36
        omega
      · simp only [hd, Bool.or_eq_true, Bool.false_eq_true, false_or] at h
        simp only [hd, if_false, Bool.false_eq_true]
        simp only [isUpper, Bool.and_eq_true, decide_eq_true_eq] at h
        have : ch.toNat ≤ 90 := by simpa using h.2
        show ch.toNat - 65 + 10 < 36
        omega
    generalize (if isDigit ch then ch.toNat - '0'.toNat else ch.toNat - 'A'.toNat + 10) = i at hb ⊢
    obtain ⟨h1, h2, h3⟩ := tables_length
    cases g
    · exact ⟨basicTable[i], by (simp [List.getElem?_eq_getElem (show i < basicTable.length by omega)]; rfl)⟩
    · exact ⟨underTable[i], by (simp [List.getElem?_eq_getElem (show i < underTable.length by omega)]; rfl)⟩
    · exact ⟨doubleUnderTable[i], by
        (simp [List.getElem?_eq_getElem (show i < doubleUnderTable.length by omega)]; rfl)⟩
  · right; rfl

theorem tr_code_group (hi : Inv T A s) (g : CodeGroup) (hg : T.inp (c!"??" ++ groupCode g ++ s.str.string) ∨ T.inp (c!"?$?" ++ groupCode g ++ s.str.string)) :
    Tr T A (demangle_function_identifier_code_group g) (fun h s' => Good T s'.cache A .ident h ∧
      s'.len < s.len ∧ s.cache.length ≤ h ∧ Inv T (fun i => A i ∧ i ≠ h) s') s := by
  unfold demangle_function_identifier_code_group
  refine Tr.bind (tr_expectAny hi _) ?_
  intro ch s1 hi1 hs1 h1
  have fin : ∀ {nd : Node}, GK.ident.ok nd = true → nodeOK T nd → kids .ident nd = [] →
      ∀ {s2}, Inv T A s2 → Step T s1 s2 → Tr T A (intern nd) (fun h s' => Good T s'.cache A .ident h ∧
      s'.len < s.len ∧ s.cache.length ≤ h ∧ Inv T (fun i => A i ∧ i ≠ h) s') s2 := by
    intro nd ha hb hc s2 hi2 hs2
    refine (tr_intern_fresh hi2 .ident ha hb (by simp [hc])).mono ?_
    rintro h s3 hi3 hs3 ⟨h2, rfl, _, h4, h5⟩
    exact ⟨h2, by have := h1.2; have := hs2.len; omega, by have := hs1.clen; have := hs2.clen; omega, h5⟩
  refine Tr.ite (fun _ => fin (by rfl) (by trivial) (by rfl) hi1 (Step.refl _)) fun _ => ?_
  refine Tr.ite (fun _ => fin (by rfl) (by trivial) (by rfl) hi1 (Step.refl _)) fun _ => ?_
  refine Tr.ite (fun _ => ?_) fun _ => ?_
  · unfold demangle_literal_operator_identifier
    refine Tr.bind (tr_simple_string hi1 false) ?_
    intro t s2 hi2 hs2 h2
    exact fin (by rfl) (by exact h2.1) (by rfl) hi2 hs2
  · rcases translate_ok ch g with ⟨op, hop⟩ | he
    · refine Tr.lift hop (fin (by rfl) ?_ (by rfl) hi1 (Step.refl _))
      rintro k rfl
      refine T.op_run ?_ hop
      rw [h1.2.2] at hg
      exact hg.imp (T.inp_infix ⟨[], s1.str.string, by simp⟩) (T.inp_infix ⟨[], s1.str.string, by simp⟩)
    · rw [he]; exact Tr.err

theorem tr_identifier_code (hi : Inv T A s) (hL : T.lead s.str.string) :
    Tr T A demangle_function_identifier_code (fun h s' => Good T s'.cache A .ident h ∧
      s'.len < s.len ∧ s.cache.length ≤ h ∧ Inv T (fun i => A i ∧ i ≠ h) s') s := by
  unfold demangle_function_identifier_code
  refine Tr.bind (tr_expectChar_str hi _ _) ?_
  intro _ s1 hi1 hs1 h1
  have h0 := hL (by rw [h1.2.2]; rfl)
  rw [h1.2.2] at h0
  have fin : ∀ g, ∀ {s2}, Inv T A s2 → Step T s1 s2 → T.inp (c!"??" ++ groupCode g ++ s2.str.string) ∨ T.inp (c!"?$?" ++ groupCode g ++ s2.str.string) →
      Tr T A (demangle_function_identifier_code_group g) (fun h s' => Good T s'.cache A .ident h ∧
      s'.len < s.len ∧ s.cache.length ≤ h ∧ Inv T (fun i => A i ∧ i ≠ h) s') s2 := by
    intro g s2 hi2 hs2 hg
    refine (tr_code_group hi2 g hg).mono ?_
    rintro h s3 hi3 hs3 ⟨h2, h3, h4, h5⟩
    exact ⟨h2, by have := h1.2; have := hs2.len; omega, by have := hs1.clen; have := hs2.clen; omega, h5⟩
  refine Tr.bind (tr_tryStr hi1 _) ?_
  intro b s2 hi2 hs2 h2
  refine Tr.ite (fun hb => fin _ hi2 hs2 ?_) fun hb => ?_
  · have e := h2.2.1 hb
    rw [e] at h0
    exact h0
  · have e := h2.2.2 (by simpa using hb)
    subst e
    refine Tr.bind (tr_tryChar' hi2 _) ?_
    rintro b s3 hi3 hs3 ⟨-, h3, rfl⟩
    refine Tr.ite (fun hb => fin _ hi3 (hs2.trans hs3) ?_) fun hb => fin _ hi3 (hs2.trans hs3) ?_
    · rw [h3]
      cases hl : s2.str.string with
      | nil => rw [hl] at hb; simp at hb
      | cons c l =>
        rw [hl] at hb h0
        have hc : c = '_' := by simpa using hb
        subst hc
        simpa [dropIf, groupCode] using h0
    · rw [h3]
      have hd : dropIf '_' s2.str.string = s2.str.string := by
        unfold dropIf; rw [if_neg hb]
      rw [hd]
      exact h0

theorem tr_table {α : Type} (l : List (Text × α)) (hl : ∀ p ∈ l, p.1 ≠ []) (hi : Inv T A s) :
    Tr T A (tryTable l) (fun o s' => Same s s' ∧ (o = none → s' = s) ∧
      ∀ a, o = some a → s'.len < s.len ∧ ∃ t, (t, a) ∈ l ∧ s.str.string = t ++ s'.str.string) s := by
  induction l with
  | nil => exact Tr.pure hi ⟨Same.refl s, fun _ => rfl, by simp⟩
  | cons p l ih =>
    obtain ⟨t, a⟩ := p
    unfold tryTable
    refine Tr.bind (tr_tryStr hi t) ?_
    intro b s1 hi1 hs1 h1
    refine Tr.ite (fun hb => Tr.pure hi1 ⟨h1.1, by simp, ?_⟩) fun hb => ?_
    · intro a' ha'
      cases ha'
      have := h1.2.1 hb
      have hp := List.length_pos_iff.2 (hl (t, a) (by simp))
      refine ⟨by simp only [St.len, this, List.length_append]; simp at hp; omega, t, by simp, this⟩
    · have := h1.2.2 (by simpa using hb)
      subst this
      refine (ih (fun q hq => hl q (by simp [hq]))).mono ?_
      intro o s2 hi2 hs2 h2
      refine ⟨h2.1, h2.2.1, fun a' ha' => ?_⟩
      obtain ⟨h3, t', h4, h5⟩ := h2.2.2 a' ha'
      exact ⟨h3, t', by simp [h4], h5⟩

end Undname
