/-
  `MangledString` on bytes (src/mangled_string.rs). This is the part of Model/Basic.lean that reads the input, with
  the byte offsets and slices of the code.
-/
import Verif.Raw.Utf8

namespace Undname.Raw
open Undname (Fail Error Crash Text SM isDigit is_rebased_ascii_hexdigit)

/-- `struct MangledString`, src/mangled_string.rs:18-22. -/
structure MStr where
  string : Bytes
  chars : Nat
  deriving DecidableEq, Repr

namespace MStr

/-- `MangledString::new`, src/mangled_string.rs:25-30. -/
def new (s : Bytes) : MStr := ⟨s, count_chars s⟩

/-- Sets the rest of the string and does `self.chars -= n`, which panics on underflow (in a build with
overflow checks). -/
def advance (rest : Bytes) (n : Nat) : SM MStr Unit := fun m =>
  if n ≤ m.chars then .ok ((), ⟨rest, m.chars - n⟩) else .error (.crash .panic)

/-- `iter.next().map_or("", |(i, _)| &self.string[i..])` for an iterator `char_indices()` of `string` at `rest`. -/
def tail_at (string rest : Bytes) : Except Fail Bytes :=
  match next_code_point rest with
  | .error e => .error e
  | .ok none => .ok []
  | .ok (some _) => slice_from string (string.length - rest.length)

/-- `try_consume_char_if`, src/mangled_string.rs:52-63. -/
def try_consume_char_if (f : Char → Bool) : SM MStr (Option Char) := do
  let m ← SM.get
  match ← SM.lift (next_code_point m.string) with
  | none => pure none
  | some (c, rest) =>
    if f c then do
      let tail ← SM.lift (tail_at m.string rest)
      advance tail 1
      pure (some c)
    else pure none

/-- `try_consume`, src/mangled_string.rs:34-40. -/
def try_consume : SM MStr (Option Char) := try_consume_char_if fun _ => true

/-- `try_consume_char`, src/mangled_string.rs:42-50. -/
def try_consume_char (expected : Char) : SM MStr (Option Char) :=
  try_consume_char_if fun c => c == expected

/-- `try_consume_n_bytes`, src/mangled_string.rs:65-71. -/
def try_consume_n_bytes (n : Nat) : SM MStr (Option Bytes) := do
  let m ← SM.get
  match split_at_checked m.string n with
  | some (first, rest) => do
    advance rest (count_chars first)
    pure (some first)
  | none => pure none

/-- `try_consume_n_chars::<2>`, src/mangled_string.rs:73-83 (the only instance used). -/
def try_consume_2_chars : SM MStr (Option (Char × Char)) := do
  let m ← SM.get
  match ← SM.lift (next_code_point m.string) with
  | none => pure none
  | some (c1, rest) =>
    match ← SM.lift (next_code_point rest) with
    | none => pure none
    | some (c2, rest) => do
      let tail ← SM.lift (tail_at m.string rest)
      advance tail 2
      pure (some (c1, c2))

/-- `starts_with`, src/mangled_string.rs:139-141, for a literal. -/
def starts_with (m : MStr) (what : Text) : Bool := (enc what).isPrefixOf m.string

/-- `try_consume_str`, src/mangled_string.rs:85-91, for a literal. -/
def try_consume_str (s : Text) : SM MStr (Option Text) := do
  let m ← SM.get
  if m.starts_with s then do
    let tail ← SM.lift (slice_from m.string (enc s).length)
    advance tail (count_chars (enc s))
    pure (some s)
  else pure none

/-- The loop of `find_char` from `rest` on, src/mangled_string.rs:100-104; `total` is the length of the string. -/
def find_from (needle : Char) (total : Nat) : Nat → Bytes → Except Fail (Option Nat)
  | 0, _ => .error (.crash .fuel)
  | n + 1, rest =>
    match next_code_point rest with
    | .error e => .error e
    | .ok none => .ok none
    | .ok (some (c, rest')) =>
      if c == needle then .ok (some (total - rest.length)) else find_from needle total n rest'

/-- `find_char`, src/mangled_string.rs:99-106: the byte offset of the first occurrence. -/
def find_char (needle : Char) (m : MStr) : Except Fail (Option Nat) :=
  find_from needle m.string.length (m.string.length + 1) m.string

/-- `first_char`, src/mangled_string.rs:108-110. -/
def first_char (m : MStr) : Except Fail (Option Char) :=
  match next_code_point m.string with
  | .error e => .error e
  | .ok none => .ok none
  | .ok (some (c, _)) => .ok (some c)

/-- `is_empty`, src/mangled_string.rs:112-114. -/
def is_empty (m : MStr) : Bool := m.string.isEmpty

/-- `last_char`, src/mangled_string.rs:116-118. -/
def last_char (m : MStr) : Except Fail (Option Char) := next_back m.string

/-- `len_bytes`, src/mangled_string.rs:120-122. -/
def len_bytes (m : MStr) : Nat := m.string.length

/-- `len_chars`, src/mangled_string.rs:124-126. -/
def len_chars (m : MStr) : Nat := m.chars

/-- `slice(..end)`, src/mangled_string.rs:128-137, for the only kind of range used. -/
def slice_to (m : MStr) (stop : Nat) : Except Fail MStr :=
  match slice_upto m.string stop with
  | .error e => .error e
  | .ok a => .ok ⟨a, count_chars a⟩

/-- The `while let Some(c) = candidate.try_consume()` loop of src/mangled_string.rs:184-188. -/
def all_hexdigits : Nat → MStr → Except Fail Bool
  | 0, _ => .error (.crash .fuel)
  | n + 1, m =>
    match try_consume m with
    | .error e => .error e
    | .ok (none, _) => .ok true
    | .ok (some c, m) => if is_rebased_ascii_hexdigit c then all_hexdigits n m else .ok false

/-- `starts_with_local_scope_pattern`, src/mangled_string.rs:145-191 (works on a copy of `self`). -/
def starts_with_local_scope_pattern (m : MStr) : Except Fail Bool :=
  match try_consume_char '?' m with
  | .error e => .error e
  | .ok (none, _) => .ok false
  | .ok (some _, m) =>
    match m.find_char '?' with
    | .error e => .error e
    | .ok none => .ok false
    | .ok (some stop) =>
      match m.slice_to stop with
      | .error e => .error e
      | .ok candidate =>
        if candidate.is_empty then .ok false
        else if candidate.len_chars == 1 then
          match candidate.first_char with
          | .error e => .error e
          | .ok none => .error (.crash .ub)   -- unwrap_unchecked, line 162
          | .ok (some c) => .ok (c == '@' || isDigit c)
        else
          match candidate.last_char with
          | .error e => .error e
          | .ok (some '@') =>
            match candidate.slice_to (candidate.len_bytes - 1) with
            | .error e => .error e
            | .ok candidate =>
              match try_consume_char_if (fun x => 'B'.toNat ≤ x.toNat && x.toNat ≤ 'P'.toNat) candidate with
              | .error e => .error e
              | .ok (none, _) => .ok false
              | .ok (some _, candidate) => all_hexdigits (candidate.string.length + 1) candidate
          | .ok _ => .ok false

/-- `first_char().is_some_and(f)`. -/
def first_is (f : Char → Bool) (m : MStr) : Except Fail Bool :=
  match m.first_char with
  | .error e => .error e
  | .ok (some c) => .ok (f c)
  | .ok none => .ok false

/-- `is_array_type`, src/mangled_string.rs:193-195. -/
def is_array_type (m : MStr) : Except Fail Bool := m.first_is fun c => c == 'Y'

/-- `is_custom_type`, src/mangled_string.rs:197-199. -/
def is_custom_type (m : MStr) : Except Fail Bool := m.first_is fun c => c == '?'

/-- `is_function_type`, src/mangled_string.rs:201-203. -/
def is_function_type (m : MStr) : Bool := m.starts_with c!"$$A8@@" || m.starts_with c!"$$A6"

/-- The body of `is_member_pointer`, src/mangled_string.rs:205-244, on the copy of `self`. -/
def member_pointer_probe : SM MStr (Option Bool) := do
  match ← try_consume with
  | none => pure none
  | some c =>
    if c == '$' || c == 'A' then pure (some false)
    else if c == 'P' || c == 'Q' || c == 'R' || c == 'S' then do
      match ← try_consume_char_if isDigit with
      | some digit =>
        if digit == '6' then pure (some false)
        else if digit == '8' then pure (some true)
        else pure none
      | none => do
        let _ ← try_consume_char 'E'
        let _ ← try_consume_char 'I'
        let _ ← try_consume_char 'F'
        let m ← SM.get
        if m.is_empty then pure none
        else
          match ← SM.lift m.first_char with
          | none => pure none
          | some c =>
            if c == 'A' || c == 'B' || c == 'C' || c == 'D' then pure (some false)
            else if c == 'Q' || c == 'R' || c == 'S' || c == 'T' then pure (some true)
            else pure none
    else pure none

/-- `is_member_pointer`, src/mangled_string.rs:205-244 (works on a copy of `self`); the outer `Option`
is the Rust result. -/
def is_member_pointer (m : MStr) : Except Fail (Option Bool) :=
  (member_pointer_probe m).map Prod.fst

/-- `is_pointer_type`, src/mangled_string.rs:246-258. -/
def is_pointer_type (m : MStr) : Except Fail Bool :=
  if m.starts_with c!"$$Q" then .ok true
  else m.first_is fun c => c == 'A' || c == 'P' || c == 'Q' || c == 'R' || c == 'S'

/-- `is_tag_type`, src/mangled_string.rs:260-266. -/
def is_tag_type (m : MStr) : Except Fail Bool :=
  m.first_is fun c => c == 'T' || c == 'U' || c == 'V' || c == 'W'

end MStr
end Undname.Raw
