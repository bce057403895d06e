/-
  Byte strings: how Rust's `str` and `String` store text, and the operations of the standard library the crate
  uses on them. Model/Basic.lean treats a text as a list of characters; here a text is the list of its bytes, and
  indices are byte offsets. Slicing off a character boundary panics, decoding ill-formed bytes is undefined
  behaviour.
-/
import Verif.Model.Basic

namespace Undname.Raw
open Undname (Fail Error Crash Text)

/-- The bytes of a `str`, a `String` or a `Vec<u8>`. -/
abbrev Bytes := List UInt8

/-- UTF-8: how a text is stored. -/
def enc : Text → Bytes
  | [] => []
  | c :: cs => String.utf8EncodeChar c ++ enc cs

/-- `char::from_u32_unchecked`: undefined behaviour unless the number is a Unicode scalar value. -/
def fromU32 (n : Nat) (rest : Bytes) : Except Fail (Option (Char × Bytes)) :=
  if Nat.isValidChar n then .ok (some (Char.ofNat n, rest)) else .error (.crash .ub)

/-- `core::str::validations::next_code_point`, by which `chars()` and `char_indices()` decode: the first character
and the bytes after it. The bytes of a character after its first are read unchecked. -/
def next_code_point : Bytes → Except Fail (Option (Char × Bytes))
  | [] => .ok none
  | x :: s =>
    if x.toNat < 0x80 then fromU32 x.toNat s
    else
      let init := x.toNat % 32                                   -- x & 0x1F
      match s with
      | [] => .error (.crash .ub)
      | y :: s =>
        if x.toNat < 0xE0 then fromU32 (init * 64 + y.toNat % 64) s
        else
          match s with
          | [] => .error (.crash .ub)
          | z :: s =>
            let y_z := y.toNat % 64 * 64 + z.toNat % 64
            if x.toNat < 0xF0 then fromU32 (init * 4096 + y_z) s
            else
              match s with
              | [] => .error (.crash .ub)
              | w :: s => fromU32 (init % 8 * 262144 + y_z * 64 + w.toNat % 64) s

/-- `utf8_is_cont_byte`: `(byte as i8) < -64`. -/
def isCont (b : UInt8) : Bool := 0x80 ≤ b.toNat && b.toNat < 0xC0

/-- `core::str::validations::next_code_point_reverse`, by which `chars().next_back()` decodes, on the reversed
bytes: the last character. -/
def last_code_point_rev : Bytes → Except Fail (Option (Char × Bytes))
  | [] => .ok none
  | w :: s =>
    if w.toNat < 0x80 then fromU32 w.toNat s
    else
      match s with
      | [] => .error (.crash .ub)
      | z :: s =>
        if isCont z then
          match s with
          | [] => .error (.crash .ub)
          | y :: s =>
            if isCont y then
              match s with
              | [] => .error (.crash .ub)
              | x :: s =>
                fromU32 (((x.toNat % 8 * 64 + y.toNat % 64) * 64 + z.toNat % 64) * 64 + w.toNat % 64) s
            else fromU32 ((y.toNat % 16 * 64 + z.toNat % 64) * 64 + w.toNat % 64) s
        else fromU32 (z.toNat % 32 * 64 + w.toNat % 64) s

/-- `s.chars().next_back()`. -/
def next_back (s : Bytes) : Except Fail (Option Char) :=
  match last_code_point_rev s.reverse with
  | .ok (some (c, _)) => .ok (some c)
  | .ok none => .ok none
  | .error e => .error e

/-- `str::is_char_boundary`. -/
def is_char_boundary (s : Bytes) (i : Nat) : Bool :=
  i == 0 || match s[i]? with
    | some b => !isCont b
    | none => i == s.length

/-- `str::split_at_checked`. -/
def split_at_checked (s : Bytes) (i : Nat) : Option (Bytes × Bytes) :=
  if is_char_boundary s i then some (s.take i, s.drop i) else none

/-- `&s[i..]`: panics off a character boundary. -/
def slice_from (s : Bytes) (i : Nat) : Except Fail Bytes :=
  if is_char_boundary s i then .ok (s.drop i) else .error (.crash .panic)

/-- `&s[..i]`: panics off a character boundary. -/
def slice_upto (s : Bytes) (i : Nat) : Except Fail Bytes :=
  if is_char_boundary s i then .ok (s.take i) else .error (.crash .panic)

/-- `s.chars().count()`: the number of bytes that do not continue a character. -/
def count_chars (s : Bytes) : Nat := s.countP fun b => !isCont b

/-- `std::str::from_utf8(..).is_ok()`: `run_utf8_validation`. -/
def from_utf8 : Bytes → Bool
  | [] => true
  | x :: s =>
    if x.toNat < 0x80 then from_utf8 s
    else if 0xC2 ≤ x.toNat && x.toNat ≤ 0xDF then
      match s with
      | y :: s => isCont y && from_utf8 s
      | [] => false
    else if 0xE0 ≤ x.toNat && x.toNat ≤ 0xEF then
      match s with
      | y :: z :: s => isCont y && isCont z && from_utf8 s &&
          (if x.toNat == 0xE0 then 0xA0 ≤ y.toNat else if x.toNat == 0xED then y.toNat ≤ 0x9F else true)
      | _ => false
    else if 0xF0 ≤ x.toNat && x.toNat ≤ 0xF4 then
      match s with
      | y :: z :: w :: s => isCont y && isCont z && isCont w && from_utf8 s &&
          (if x.toNat == 0xF0 then 0x90 ≤ y.toNat else if x.toNat == 0xF4 then y.toNat ≤ 0x8F else true)
      | _ => false
    else false

end Undname.Raw
