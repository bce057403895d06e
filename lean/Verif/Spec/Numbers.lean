/-
  Specification: how numbers are written in mangled names. Independent of the model.
-/
namespace Undname.Spec

/-- A hexadecimal digit, written `A` (0) to `P` (15). -/
def IsHex (c : Char) : Prop := 'A' ≤ c ∧ c ≤ 'P'

instance (c : Char) : Decidable (IsHex c) := inferInstanceAs (Decidable (_ ∧ _))

/-- The value of a hexadecimal digit. -/
def hexDigit (c : Char) : Nat := c.toNat - 'A'.toNat

/-- The value of a sequence of hexadecimal digits, most significant first. -/
def hexValue (ds : List Char) : Nat := ds.foldl (fun v c => 16 * v + hexDigit c) 0

/-- The encodings of a number: a decimal digit `d` stands for `d + 1`; a sequence of hexadecimal digits
(possibly empty) followed by `@` for its value modulo 2^64. -/
inductive EncNat : List Char → Nat → Prop where
  | digit (d : Nat) (h : d < 10) : EncNat [Char.ofNat ('0'.toNat + d)] (d + 1)
  | hex (ds : List Char) (h : ∀ c ∈ ds, IsHex c) : EncNat (ds ++ ['@']) (hexValue ds % 2 ^ 64)

/-- The encodings of a number with a sign: a leading `?` negates. -/
inductive EncInt : List Char → Nat → Bool → Prop where
  | pos {t : List Char} {n : Nat} (h : EncNat t n) : EncInt t n false
  | neg {t : List Char} {n : Nat} (h : EncNat t n) : EncInt ('?' :: t) n true

/-- The canonical hexadecimal encoding: digits of `n`, without leading zeros (none for 0). -/
def hexDigits (n : Nat) : List Char :=
  if _h : n = 0 then [] else hexDigits (n / 16) ++ [Char.ofNat ('A'.toNat + n % 16)]
termination_by n
decreasing_by omega

/-- The encoding a compiler writes: a digit for 1 to 10, `A@` for 0, hexadecimal otherwise. -/
def encode (n : Nat) : List Char :=
  if n = 0 then ['A', '@'] else if n ≤ 10 then [Char.ofNat ('0'.toNat + (n - 1))] else hexDigits n ++ ['@']

theorem isHex_ofNat {k : Nat} (h : k < 16) :
    IsHex (Char.ofNat ('A'.toNat + k)) ∧ hexDigit (Char.ofNat ('A'.toNat + k)) = k := by
  have : ∀ k, k < 16 → IsHex (Char.ofNat ('A'.toNat + k)) ∧ hexDigit (Char.ofNat ('A'.toNat + k)) = k := by
    decide
  exact this k h

theorem hexValue_append (a : List Char) (c : Char) : hexValue (a ++ [c]) = 16 * hexValue a + hexDigit c := by
  simp [hexValue]

theorem hexDigits_spec (n : Nat) : (∀ c ∈ hexDigits n, IsHex c) ∧ hexValue (hexDigits n) = n := by
  induction n using Nat.strongRecOn with
  | _ n ih =>
    unfold hexDigits
    split
    · next h => subst h; exact ⟨by simp, rfl⟩
    · next h =>
      obtain ⟨h1, h2⟩ := ih (n / 16) (by omega)
      obtain ⟨h3, h4⟩ := isHex_ofNat (k := n % 16) (by omega)
      refine ⟨?_, ?_⟩
      · intro c hc
        simp only [List.mem_append, List.mem_singleton] at hc
        rcases hc with hc | rfl
        · exact h1 c hc
        · exact h3
      · rw [hexValue_append, h2, h4]; omega

/-- The compiler's encoding is an encoding: every 64-bit number can be written. -/
theorem encode_spec (n : Nat) (hn : n < 2 ^ 64) : EncNat (encode n) n := by
  unfold encode
  split
  · next h =>
    subst h
    exact EncNat.hex ['A'] (by decide)
  · next h =>
    split
    · next h' =>
      have := EncNat.digit (n - 1) (by omega)
      rwa [show n - 1 + 1 = n by omega] at this
    · obtain ⟨h1, h2⟩ := hexDigits_spec n
      have := EncNat.hex (hexDigits n) h1
      rwa [h2, Nat.mod_eq_of_lt hn] at this

end Undname.Spec
