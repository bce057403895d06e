/-
  Reading texts back: words, tables, lists with separators, numbers.
-/
import Verif.Spec.Plain

namespace Undname.Spec.Cxx

/-- The text does not start with a character of identifiers. -/
def NI (a : Text) : Prop := ∀ c, a.head? = some c → idc c = false

theorem NI.nil : NI [] := by intro c h; simp at h
theorem NI.cons {c : Char} {a : Text} (h : idc c = false) : NI (c :: a) := by
  intro d hd; simp at hd; subst hd; exact h
theorem NI.append {x a : Text} (hx : x ≠ []) (h : NI x) : NI (x ++ a) := by
  cases x with
  | nil => exact absurd rfl hx
  | cons c x => exact NI.cons (h c rfl)

theorem word_read {w w' a b : Text} (h : ∀ c ∈ w, idc c = true) (h' : ∀ c ∈ w', idc c = true) (ha : NI a) (hb : NI b)
    (e : w ++ a = w' ++ b) : w = w' ∧ a = b := by
  induction w generalizing w' with
  | nil =>
    cases w' with
    | nil => exact ⟨rfl, e⟩
    | cons d w' =>
      rw [List.nil_append, List.cons_append] at e
      have := ha d (by rw [e]; rfl)
      rw [h' d (by simp)] at this
      simp at this
  | cons c w ih =>
    cases w' with
    | nil =>
      rw [List.nil_append, List.cons_append] at e
      have := hb c (by rw [← e]; rfl)
      rw [h c (by simp)] at this
      simp at this
    | cons d w' =>
      rw [List.cons_append, List.cons_append, List.cons.injEq] at e
      obtain ⟨rfl, e⟩ := e
      obtain ⟨rfl, rfl⟩ := ih (fun c hc => h c (by simp [hc])) (fun c hc => h' c (by simp [hc])) e
      exact ⟨rfl, rfl⟩

theorem append_cases {p q a b : Text} (e : p ++ a = q ++ b) :
    (∃ r, q = p ++ r ∧ a = r ++ b) ∨ (∃ r, p = q ++ r ∧ b = r ++ a) := by
  rcases List.append_eq_append_iff.mp e with ⟨r, h1, h2⟩ | ⟨r, h1, h2⟩
  · exact .inl ⟨r, h1, h2⟩
  · exact .inr ⟨r, h1, h2⟩

/-- Entries of a table are read if what follows an entry does not make it another one. -/
theorem table_read {p q a b : Text} (e : p ++ a = q ++ b)
    (ha : ∀ r, q = p ++ r → r ≠ [] → ¬r <+: a) (hb : ∀ r, p = q ++ r → r ≠ [] → ¬r <+: b) : p = q ∧ a = b := by
  rcases append_cases e with ⟨r, h1, h2⟩ | ⟨r, h1, h2⟩
  · cases r with
    | nil => exact ⟨by simp [h1], by simpa using h2⟩
    | cons c r => exact absurd ⟨b, h2.symm⟩ (ha _ h1 (by simp))
  · cases r with
    | nil => exact ⟨by simp [h1], by simpa using h2.symm⟩
    | cons c r => exact absurd ⟨a, h2.symm⟩ (hb _ h1 (by simp))

/-- Elements of a list, each after a separator. -/
def tails {α : Type} (sep : Text) (f : α → Text) (l : List α) : Text := l.flatMap fun x => sep ++ f x

theorem join_cons {α : Type} (sep : Text) (f : α → Text) (x : α) (l : List α) :
    join sep ((x :: l).map f) = f x ++ tails sep f l := by
  induction l generalizing x with
  | nil => simp [join, tails]
  | cons y l ih =>
    have := ih y
    simp only [List.map_cons] at this ⊢
    rw [join, this]
    · simp [tails, List.append_assoc]
    · simp

theorem tails_cons {α : Type} (sep : Text) (f : α → Text) (x : α) (l : List α) :
    tails sep f (x :: l) = sep ++ (f x ++ tails sep f l) := by simp [tails]

theorem tails_nil {α : Type} (sep : Text) (f : α → Text) : tails sep f [] = [] := rfl

/-- Lists are read if their elements are, and the end differs from another element. -/
theorem tails_read {α : Type} {sep : Text} {f : α → Text} {Ok : α → Prop} {St : α → Text → Prop} {l l' : List α}
    (rd : ∀ x ∈ l, ∀ y, Ok y → ∀ a b, St x a → St y b → f x ++ a = f y ++ b → x = y ∧ a = b)
    (hl : ∀ x ∈ l, Ok x) (hl' : ∀ x ∈ l', Ok x) (hs : ∀ x, Ok x → ∀ r, St x (sep ++ r)) {a b : Text}
    (ha : ∀ x ∈ l, St x a) (hb : ∀ x ∈ l', St x b)
    (na : ∀ y r, Ok y → St y r → a ≠ sep ++ (f y ++ r)) (nb : ∀ y r, Ok y → St y r → b ≠ sep ++ (f y ++ r))
    (e : tails sep f l ++ a = tails sep f l' ++ b) : l = l' ∧ a = b := by
  have st : ∀ {z : α} {m : List α} {c : Text}, Ok z → St z c → St z (tails sep f m ++ c) := by
    intro z m c hz hc
    cases m with
    | nil => exact hc
    | cons w m => rw [tails_cons, List.append_assoc]; exact hs z hz _
  induction l generalizing l' with
  | nil =>
    cases l' with
    | nil => exact ⟨rfl, e⟩
    | cons y l' =>
      rw [tails_nil, List.nil_append, tails_cons] at e
      exact absurd (by rw [e]; simp) (na y (tails sep f l' ++ b) (hl' y (by simp)) (st (hl' y (by simp)) (hb y (by simp))))
  | cons x l ih =>
    cases l' with
    | nil =>
      rw [tails_nil, List.nil_append, tails_cons] at e
      exact absurd (by rw [← e]; simp) (nb x (tails sep f l ++ a) (hl x (by simp)) (st (hl x (by simp)) (ha x (by simp))))
    | cons y l' =>
      rw [tails_cons, tails_cons] at e
      simp only [List.append_assoc, List.append_cancel_left_eq] at e
      have e2 := rd x (by simp) y (hl' y (by simp)) _ _ (st (hl x (by simp)) (ha x (by simp)))
        (st (hl' y (by simp)) (hb y (by simp))) e
      obtain ⟨rfl, e2⟩ := e2
      have e3 := ih (l' := l') (fun z hz => rd z (by simp [hz])) (fun z hz => hl z (by simp [hz])) (fun z hz => hl' z (by simp [hz]))
        (fun z hz => ha z (by simp [hz])) (fun z hz => hb z (by simp [hz])) e2
      obtain ⟨rfl, rfl⟩ := e3
      exact ⟨rfl, rfl⟩

/-! ### Numbers -/

theorem idc_digit {c : Char} (h : c.isDigit = true) : idc c = true := by
  simp [idc, Char.isAlphanum, h]

theorem nat_digits (n : Nat) : ∀ c ∈ nat n, c.isDigit = true := fun _ hc =>
  Nat.isDigit_of_mem_toDigits (by omega) (by omega) hc

theorem nat_idc (n : Nat) : ∀ c ∈ nat n, idc c = true := fun c hc => idc_digit (nat_digits n c hc)

theorem nat_inj {m n : Nat} (h : nat m = nat n) : m = n := by
  have := congrArg (fun l => Nat.ofDigitChars 10 l 0) h
  simpa [nat, Nat.ofDigitChars_ten_toDigits] using this

theorem nat_ne (n : Nat) : nat n ≠ [] := Nat.toDigits_ne_nil

theorem nat_head (n : Nat) : ∃ c r, nat n = c :: r ∧ c.isDigit = true := by
  cases h : nat n with
  | nil => exact absurd h (nat_ne n)
  | cons c r => exact ⟨c, r, rfl, nat_digits n c (by simp [h])⟩

theorem nat_read {m n : Nat} {a b : Text} (ha : NI a) (hb : NI b) (e : nat m ++ a = nat n ++ b) : m = n ∧ a = b := by
  obtain ⟨h, h'⟩ := word_read (nat_idc m) (nat_idc n) ha hb e
  exact ⟨nat_inj h, h'⟩

/-- A sign and a number. -/
theorem signed_read {s s' : Bool} {m n : Nat} {a b : Text} (ha : NI a) (hb : NI b)
    (e : part s c!"-" ++ (nat m ++ a) = part s' c!"-" ++ (nat n ++ b)) : s = s' ∧ m = n ∧ a = b := by
  obtain ⟨c, r, hc, hd⟩ := nat_head m
  obtain ⟨c', r', hc', hd'⟩ := nat_head n
  cases s <;> cases s' <;> simp only [part, if_true, if_false, Bool.false_eq_true, List.nil_append, List.cons_append, List.cons.injEq, true_and] at e
  · obtain ⟨rfl, rfl⟩ := nat_read ha hb e; simp
  · rw [hc] at e; simp at e; obtain ⟨rfl, -⟩ := e; simp at hd
  · rw [hc'] at e; simp at e; obtain ⟨rfl, -⟩ := e; simp at hd'
  · obtain ⟨rfl, rfl⟩ := nat_read ha hb e; simp

theorem sint_eq (i : Int) : sint i = part (decide (i < 0)) c!"-" ++ nat i.natAbs := by
  cases i with
  | ofNat n =>
    have : ¬ (Int.ofNat n < 0) := by simp
    simp [sint, part]
  | negSucc n => simp [sint, part, Int.negSucc_lt_zero]

theorem sint_read {i j : Int} {a b : Text} (ha : NI a) (hb : NI b) (e : sint i ++ a = sint j ++ b) : i = j ∧ a = b := by
  rw [sint_eq, sint_eq, List.append_assoc, List.append_assoc] at e
  obtain ⟨h1, h2, h3⟩ := signed_read ha hb e
  refine ⟨?_, h3⟩
  simp only [decide_eq_decide] at h1
  omega

end Undname.Spec.Cxx
