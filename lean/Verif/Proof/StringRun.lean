/-
  The parser decodes string literals as specified.
-/
import Verif.Spec.Strings
import Verif.Proof.Numbers
import Verif.Proof.Emit
import Verif.Proof.Strings

namespace Undname
open Spec

variable {c : Cache} {ns ps : List Handle} {rest : Text}

/-! ### Bytes -/

theorem hexdigit_value {x : Char} (h : IsHex x) :
    try_convert_rebased_ascii_hexdigit_to_number x = some (hexDigit x) := by
  have h1 := (isHex_iff x).2 h
  have h2 := hexdigit_lt h1
  unfold try_convert_rebased_ascii_hexdigit_to_number
  rw [if_pos h1]
  unfold hexDigit
  have e1 : 'J'.toNat = 74 := rfl
  have e2 : 'A'.toNat = 65 := rfl
  have e3 : 'K'.toNat = 75 := rfl
  unfold is_rebased_ascii_hexdigit at h1
  simp only [Bool.and_eq_true, decide_eq_true_eq] at h1
  rw [e1, e2, e3]
  rw [e2] at h1
  split
  · rfl
  · congr 1; omega

theorem shl_or {a b : Nat} (ha : a < 16) (hb : b < 16) : (a <<< 4) % 256 ||| b = 16 * a + b := by
  have : ∀ a, a < 16 → ∀ b, b < 16 → (a <<< 4) % 256 ||| b = 16 * a + b := by decide
  exact this a ha b hb

theorem two_chars (x y : Char) : exec (onStr MStr.try_consume_2_chars) (mk (x :: y :: rest) c ns ps) =
    .ok (some (x, y), mk rest c ns ps) := by
  simp [onStr_eq, MStr.try_consume_2_chars, run]
  simp [MStr.new, run, mk]

theorem encByte_run {t : Text} {b : Nat} (h : EncByte t b) :
    exec demangle_char_literal (mk (t ++ rest) c ns ps) = .ok (b, mk rest c ns ps) := by
  cases h with
  | plain x h h1 h2 => simp [demangle_char_literal, run, h1, h]
  | hex x y hx hy =>
    have e1 := hexdigit_lt ((isHex_iff x).2 hx)
    have e2 := hexdigit_lt ((isHex_iff y).2 hy)
    simp [demangle_char_literal, run, two_chars, hexdigit_value hx, hexdigit_value hy]
    exact shl_or e1 e2
  | punct i x hx =>
    have hi : i < 10 := by
      have := (List.getElem?_eq_some_iff.1 hx).1
      exact this
    have key : ∀ i, i < 10 → (Char.ofNat ('0'.toNat + i) == '$') = false ∧
        isDigit (Char.ofNat ('0'.toNat + i)) = true ∧
        charDigitTable[(Char.ofNat ('0'.toNat + i)).toNat - '0'.toNat]? = (punctuation[i]?).map Char.toNat := by
      decide
    obtain ⟨h1, h2, h3⟩ := key i hi
    rw [hx] at h3
    simp only [demangle_char_literal, run, List.cons_append, beq_self_eq_true, if_true, h1, h2, h3,
      Bool.false_eq_true, if_false, Option.map_some, demangle_char_literal.unchecked, List.nil_append]
  | lower i hi =>
    have key : ∀ i, i < 26 → (Char.ofNat ('a'.toNat + i) == '$') = false ∧
        isDigit (Char.ofNat ('a'.toNat + i)) = false ∧ isLower (Char.ofNat ('a'.toNat + i)) = true ∧
        (charLetterTable 0xE1)[(Char.ofNat ('a'.toNat + i)).toNat - 'a'.toNat]? = some (0xE1 + i) := by
      decide
    obtain ⟨h1, h2, h3, h4⟩ := key i hi
    simp only [demangle_char_literal, run, List.cons_append, beq_self_eq_true, if_true, h1, h2, h3, h4,
      Bool.false_eq_true, if_false, Option.map_some, demangle_char_literal.unchecked, List.nil_append]
  | upper i hi =>
    have key : ∀ i, i < 26 → (Char.ofNat ('A'.toNat + i) == '$') = false ∧
        isDigit (Char.ofNat ('A'.toNat + i)) = false ∧ isLower (Char.ofNat ('A'.toNat + i)) = false ∧
        isUpper (Char.ofNat ('A'.toNat + i)) = true ∧
        (charLetterTable 0xC1)[(Char.ofNat ('A'.toNat + i)).toNat - 'A'.toNat]? = some (0xC1 + i) := by
      decide
    obtain ⟨h1, h2, h3, h4, h5⟩ := key i hi
    simp only [demangle_char_literal, run, List.cons_append, beq_self_eq_true, if_true, h1, h2, h3, h4, h5,
      Bool.false_eq_true, if_false, Option.map_some, demangle_char_literal.unchecked, List.nil_append]

/-- An encoded byte does not start with the terminator. -/
theorem encByte_head {t : Text} {b : Nat} (h : EncByte t b) : ∃ x u, t = x :: u ∧ (x == '@') = false := by
  cases h with
  | plain x h h1 h2 => exact ⟨_, _, rfl, by simpa using h2⟩
  | hex x y hx hy => exact ⟨_, _, rfl, by decide⟩
  | punct i x hx => exact ⟨_, _, rfl, by decide⟩
  | lower i hi => exact ⟨_, _, rfl, by decide⟩
  | upper i hi => exact ⟨_, _, rfl, by decide⟩

/-! ### Characters -/

theorem upperHexNum_eq (n : Nat) : (Nat.toDigits 16 n).map Char.toUpper = upperHexNum n := by
  induction n using Nat.strongRecOn with
  | _ n ih =>
    have hd : ∀ d, d < 16 → (Nat.digitChar d).toUpper = upperHex d := by decide
    unfold upperHexNum
    split
    · next h => rw [Nat.toDigits_of_lt_base h]; simp [hd n h]
    · next h =>
      rw [← ih (n / 16) (by omega), ← hd _ (by omega : n % 16 < 16)]
      have := Nat.toDigits_append_toDigits (b := 16) (n := n / 16) (d := n % 16) (by omega) (by omega) (by omega)
      rw [show 16 * (n / 16) + n % 16 = n by omega] at this
      rw [← this, Nat.toDigits_of_lt_base (by omega : n % 16 < 16)]
      simp

theorem hex02_eq (n : Nat) : hex02 n = hex2 n := by
  unfold hex02 hex2
  simp only [upperHexNum_eq]
  by_cases h : n < 16
  · rw [if_pos h]
    unfold upperHexNum
    simp [h]
  · rw [if_neg h]
    have : 2 ≤ (upperHexNum n).length := by
      unfold upperHexNum
      rw [dif_neg h]
      have : 1 ≤ (upperHexNum (n / 16)).length := by
        unfold upperHexNum; split <;> simp
      simp; omega
    rw [if_neg (by omega)]

theorem escapedChar_eq (x : Nat) : escapedChar x = some (escape x) := by
  by_cases h : x < 0x5D
  · have key : ∀ x, x < 0x5D → escapedChar x = some (if 0x20 ≤ x then escape x else
        match namedEscape x with | some t => t | none => ['\\', 'x'] ++ hex02 x) := by decide +kernel
    rw [key x h]
    split
    · rfl
    · unfold escape
      rw [hex02_eq]
      split
      · next t ht => simp [ht]
      · next ht => rw [if_neg (by omega)]; simp [ht]
  · have ne : ∀ k : Nat, k < 0x5D → (x == k) = false := fun k hk => by simp; omega
    unfold escapedChar escape
    have hn : namedEscape x = none := by
      unfold namedEscape
      simp only [List.lookup, ne _ (show 0 < 0x5D by decide), ne _ (show 7 < 0x5D by decide),
        ne _ (show 8 < 0x5D by decide), ne _ (show 9 < 0x5D by decide), ne _ (show 10 < 0x5D by decide),
        ne _ (show 11 < 0x5D by decide), ne _ (show 12 < 0x5D by decide), ne _ (show 13 < 0x5D by decide),
        ne _ (show 0x22 < 0x5D by decide), ne _ (show 0x27 < 0x5D by decide), ne _ (show 0x5C < 0x5D by decide)]
    rw [hn]
    simp only [ne _ (show 0 < 0x5D by decide), ne _ (show 7 < 0x5D by decide),
        ne _ (show 8 < 0x5D by decide), ne _ (show 9 < 0x5D by decide), ne _ (show 10 < 0x5D by decide),
        ne _ (show 11 < 0x5D by decide), ne _ (show 12 < 0x5D by decide), ne _ (show 13 < 0x5D by decide),
        ne _ (show 0x22 < 0x5D by decide), ne _ (show 0x27 < 0x5D by decide), ne _ (show 0x5C < 0x5D by decide),
        Bool.false_eq_true, if_false]
    by_cases hp : 0x20 ≤ x ∧ x ≤ 0x7E
    · rw [if_pos (by simp; exact hp), if_pos hp, if_pos (by left; omega)]
    · rw [if_neg (by simp; simpa using hp), if_neg hp, hex02_eq]

/-- Appending to a text, within the limit. -/
def grow (t u : Text) (s : St) : Except Fail (Text × St) :=
  if utf8Len (t ++ u) < OUTPUT_LIMIT then .ok (t ++ u, s) else .error (.err (.Io .OutOfMemory))

theorem runW_emit {m : W Unit} {t u : Text} (h : Emit m t u) (ht : utf8Len t < OUTPUT_LIMIT) (s : St) :
    exec (runW m t) s = grow t u s := by
  have := h ht
  unfold exec at this
  unfold grow
  show runW m t s = _
  unfold runW
  rw [this]
  by_cases h : utf8Len (t ++ u) < OUTPUT_LIMIT
  · rw [if_pos h, if_pos h]
  · rw [if_neg h, if_neg h]

theorem escape_run {t : Text} (ht : utf8Len t < OUTPUT_LIMIT) (x : Nat) (s : St) :
    exec (runW (output_escaped_char x) t) s = grow t (escape x) s := by
  refine runW_emit ?_ ht s
  unfold output_escaped_char
  rw [escapedChar_eq]
  exact Emit.write

end Undname
