/-
  Model of undname-rs, part 1: errors, the state/error monad, flags, characters and
  `MangledString`.
-/

namespace Undname

/-! ## Text literals

`c!"abc"` is the list `['a','b','c']`; it reduces in the kernel without going through `String`. -/

syntax:max "c!" noWs str : term

macro_rules
  | `(c!$s:str) => do
    let cs := s.getString.toList.map Lean.Syntax.mkCharLit
    let arr := cs.toArray
    `(([$arr,*] : List Char))

/-- A piece of text: the sequence of Unicode scalar values of a Rust `&str`. -/
abbrev Text := List Char

/-! ## Errors -/

/-- Kinds of `io::Error` the crate can produce: `UnexpectedEof` (src/demangler.rs:305) and
`OutOfMemory` (src/demangler.rs:162-165). -/
inductive IoKind where
  | UnexpectedEof
  | OutOfMemory
  deriving DecidableEq, Repr

/-- `enum Error`, src/lib.rs:50-190. -/
inductive Error where
  | InvalidAnonymousNamespaceName
  | InvalidArrayType
  | InvalidBackRef
  | InvalidCallingConvention
  | InvalidCharLiteral
  | InvalidClassType
  | InvalidCustomType
  | InvalidDeclarator
  | InvalidEncodedSymbol
  | InvalidFullyQualifiedSymbolName
  | InvalidFunctionClass
  | InvalidFunctionEncoding
  | InvalidFunctionIdentifierCode
  | InvalidFunctionParameterList
  | InvalidFunctionType
  | InvalidInitFiniStub
  | InvalidIntrinsicFunctionCode
  | InvalidLocallyScopedNamePiece
  | InvalidLocalStaticGuard
  | InvalidMd5Name
  | InvalidMemberPointerType
  | InvalidNameScopeChain
  | InvalidNumber
  | InvalidPointerCVQualifiers
  | InvalidPointerType
  | InvalidPrimitiveType
  | InvalidQualifiers
  | InvalidRttiBaseClassDescriptorNode
  | InvalidSigned
  | InvalidSimpleString
  | InvalidSpecialIntrinsic
  | InvalidSpecialTableSymbolNode
  | InvalidStringLiteral
  | InvalidTagUniqueName
  | InvalidTemplateInstantiationName
  | InvalidTemplateParameterList
  | InvalidThrowSpecification
  | InvalidType
  | InvalidTypeinfoName
  | InvalidUnsigned
  | InvalidUntypedVariable
  | InvalidVariableStorageClass
  | InvalidVcallThunkNode
  | Io (kind : IoKind)
  | Utf8Error
  | MaliciousInput
  deriving DecidableEq, Repr

/-- The ways a call can fail to return at all. They are not part of the Rust API: `panic` is a Rust
panic, `ub` a violated precondition of an `unsafe` block, `fuel` an exhausted recursion or loop budget
of the model (standing for non-termination). -/
inductive Crash where
  | panic
  | ub
  | fuel
  deriving DecidableEq, Repr

/-- Either a Rust `Err(e)` or a crash. -/
inductive Fail where
  | err (e : Error)
  | crash (c : Crash)
  deriving DecidableEq, Repr

/-! ## The monad -/

/-- A computation with mutable state `σ` that may fail. Models `&mut self` methods returning
`Result`. The state is not returned on failure: the code never continues after an `Err` except to
return it. -/
def SM (σ α : Type) : Type := σ → Except Fail (α × σ)

namespace SM
variable {σ α β γ : Type}

def pure (a : α) : SM σ α := fun s => .ok (a, s)

def bind (m : SM σ α) (f : α → SM σ β) : SM σ β := fun s =>
  match m s with
  | .ok (a, s') => f a s'
  | .error e => .error e

instance : Monad (SM σ) where
  pure := SM.pure
  bind := SM.bind

/-- `return Err(e)`. -/
def err (e : Error) : SM σ α := fun _ => .error (.err e)

/-- A panic, undefined behaviour or exhausted budget. -/
def crash (c : Crash) : SM σ α := fun _ => .error (.crash c)

def get : SM σ σ := fun s => .ok (s, s)

def set (s : σ) : SM σ Unit := fun _ => .ok ((), s)

def modify (f : σ → σ) : SM σ Unit := fun s => .ok ((), f s)

/-- Embeds a stateless fallible computation. -/
def lift (m : Except Fail α) : SM σ α := fun s =>
  match m with
  | .ok a => .ok (a, s)
  | .error e => .error e

/-- Rust's `.ok_or(e)?`. -/
def okOr (e : Error) : Option α → SM σ α
  | some a => SM.pure a
  | none => err e

/-- A `loop { .. }` whose body says whether to continue (`inl`) or to break with a value (`inr`).
The budget `n` bounds the number of iterations. -/
def iterate : Nat → (β → SM σ (β ⊕ γ)) → β → SM σ γ
  | 0, _, _ => crash .fuel
  | n + 1, body, b => SM.bind (body b) fun
    | .inl b' => iterate n body b'
    | .inr c => SM.pure c

/-- `for _ in 0..n { .. }` with an accumulator. -/
def forN : Nat → (β → SM σ β) → β → SM σ β
  | 0, _, b => SM.pure b
  | n + 1, body, b => SM.bind (body b) fun b' => forN n body b'

end SM

/-! ## Flags (src/lib.rs:205-384) -/

/-- `struct Flags: u16`, src/lib.rs:205-332. -/
structure Flags where
  bits : BitVec 16
  deriving DecidableEq, Repr

namespace Flags

/-- src/lib.rs:219 -/
def NO_CALLING_CONVENTION : Flags := ⟨1 <<< 0⟩
/-- src/lib.rs:222 -/
def NO_ALLOCATION_LANGUAGE : Flags := NO_CALLING_CONVENTION
/-- src/lib.rs:233 -/
def NO_TAG_SPECIFIER : Flags := ⟨1 <<< 1⟩
/-- src/lib.rs:236 -/
def NO_ECSU : Flags := NO_TAG_SPECIFIER
/-- src/lib.rs:247 -/
def NO_ACCESS_SPECIFIER : Flags := ⟨1 <<< 2⟩
/-- src/lib.rs:250 -/
def NO_ACCESS_SPECIFIERS : Flags := NO_ACCESS_SPECIFIER
/-- src/lib.rs:261 -/
def NO_MEMBER_TYPE : Flags := ⟨1 <<< 3⟩
/-- src/lib.rs:272 -/
def NO_RETURN_TYPE : Flags := ⟨1 <<< 4⟩
/-- src/lib.rs:275 -/
def NO_FUNCTION_RETURNS : Flags := NO_RETURN_TYPE
/-- src/lib.rs:286 -/
def NO_VARIABLE_TYPE : Flags := ⟨1 <<< 5⟩
/-- src/lib.rs:297 -/
def NO_THISTYPE : Flags := ⟨1 <<< 6⟩
/-- src/lib.rs:308 -/
def NO_LEADING_UNDERSCORES : Flags := ⟨1 <<< 7⟩
/-- src/lib.rs:319 -/
def NO_MS_KEYWORDS : Flags := ⟨1 <<< 8⟩
/-- src/lib.rs:330 -/
def NAME_ONLY : Flags := ⟨1 <<< 9⟩

/-- `Flags::default()` = no flag (bitflags' derived `Default`). -/
def default : Flags := ⟨0⟩

/-- Union of two flag sets (bitflags' `|`). -/
def union (a b : Flags) : Flags := ⟨a.bits ||| b.bits⟩

instance : OrOp Flags := ⟨union⟩

/-- bitflags' `contains`: `self & other == other`. -/
def contains (f other : Flags) : Bool := f.bits &&& other.bits == other.bits

/-- src/lib.rs:335-338 -/
def no_calling_convention (f : Flags) : Bool := f.contains NO_CALLING_CONVENTION
/-- src/lib.rs:340-343 -/
def no_tag_specifier (f : Flags) : Bool := f.contains NO_TAG_SPECIFIER
/-- src/lib.rs:345-348 -/
def no_access_specifier (f : Flags) : Bool := f.contains NO_ACCESS_SPECIFIER
/-- src/lib.rs:350-353 -/
def no_member_type (f : Flags) : Bool := f.contains NO_MEMBER_TYPE
/-- src/lib.rs:355-358 -/
def no_return_type (f : Flags) : Bool := f.contains NO_RETURN_TYPE
/-- src/lib.rs:360-363 -/
def no_variable_type (f : Flags) : Bool := f.contains NO_VARIABLE_TYPE
/-- src/lib.rs:365-368 -/
def no_this_type (f : Flags) : Bool := f.contains NO_THISTYPE
/-- src/lib.rs:370-373 -/
def no_leading_underscores (f : Flags) : Bool := f.contains NO_LEADING_UNDERSCORES
/-- src/lib.rs:375-378 -/
def no_ms_keywords (f : Flags) : Bool := f.contains NO_MS_KEYWORDS
/-- src/lib.rs:380-383 -/
def name_only (f : Flags) : Bool := f.contains NAME_ONLY

end Flags

/-! ## Characters -/

/-- `char::is_ascii_digit`. -/
def isDigit (c : Char) : Bool := '0'.toNat ≤ c.toNat && c.toNat ≤ '9'.toNat
/-- `char::is_ascii_uppercase`. -/
def isUpper (c : Char) : Bool := 'A'.toNat ≤ c.toNat && c.toNat ≤ 'Z'.toNat
/-- `char::is_ascii_lowercase`. -/
def isLower (c : Char) : Bool := 'a'.toNat ≤ c.toNat && c.toNat ≤ 'z'.toNat

/-- `CharExt::is_rebased_ascii_hexdigit`, src/extensions.rs:21-23: `'A'..='P'`. -/
def is_rebased_ascii_hexdigit (c : Char) : Bool := 'A'.toNat ≤ c.toNat && c.toNat ≤ 'P'.toNat

/-- `CharExt::try_convert_rebased_ascii_hexdigit_to_number`, src/extensions.rs:25-36. -/
def try_convert_rebased_ascii_hexdigit_to_number (c : Char) : Option Nat :=
  if is_rebased_ascii_hexdigit c then
    if c.toNat ≤ 'J'.toNat then some (c.toNat - 'A'.toNat) else some (10 + c.toNat - 'K'.toNat)
  else none

/-- Number of UTF-8 bytes of a text: `str::len`. -/
def utf8Len : Text → Nat
  | [] => 0
  | c :: cs => c.utf8Size + utf8Len cs

/-- `str::split_at_checked(n)`: `n` is a byte offset; `none` if it is out of range or not on a
character boundary. -/
def splitAtBytes : Nat → Text → Option (Text × Text)
  | 0, l => some ([], l)
  | _ + 1, [] => none
  | n + 1, c :: cs =>
    if c.utf8Size ≤ n + 1 then
      match splitAtBytes (n + 1 - c.utf8Size) cs with
      | some (a, b) => some (c :: a, b)
      | none => none
    else none

/-! ## `MangledString` (src/mangled_string.rs) -/

/-- `struct MangledString`, src/mangled_string.rs:18-22: the rest of the input and a redundant count
of its characters. -/
structure MStr where
  string : Text
  chars : Nat
  deriving DecidableEq, Repr

namespace MStr

/-- `MangledString::new`, src/mangled_string.rs:25-30. -/
def new (s : Text) : MStr := ⟨s, s.length⟩

/-- Sets the rest of the string and does `self.chars -= n`, which panics on underflow (in a build with
overflow checks). -/
def advance (rest : Text) (n : Nat) : SM MStr Unit := fun m =>
  if n ≤ m.chars then .ok ((), ⟨rest, m.chars - n⟩) else .error (.crash .panic)

/-- `try_consume_char_if`, src/mangled_string.rs:52-63. The slice `&self.string[i..]` starts at an index
produced by `char_indices`, so it is the tail. -/
def try_consume_char_if (f : Char → Bool) : SM MStr (Option Char) := do
  let m ← SM.get
  match m.string with
  | [] => pure none
  | c :: cs =>
    if f c then do
      advance cs 1
      pure (some c)
    else pure none

/-- `try_consume`, src/mangled_string.rs:34-40. -/
def try_consume : SM MStr (Option Char) := try_consume_char_if fun _ => true

/-- `try_consume_char`, src/mangled_string.rs:42-50. -/
def try_consume_char (expected : Char) : SM MStr (Option Char) :=
  try_consume_char_if fun c => c == expected

/-- `try_consume_n_bytes`, src/mangled_string.rs:65-71. -/
def try_consume_n_bytes (n : Nat) : SM MStr (Option Text) := do
  let m ← SM.get
  match splitAtBytes n m.string with
  | some (first, rest) => do
    advance rest first.length
    pure (some first)
  | none => pure none

/-- `try_consume_n_chars::<2>`, src/mangled_string.rs:73-83 (the only instance used). -/
def try_consume_2_chars : SM MStr (Option (Char × Char)) := do
  let m ← SM.get
  match m.string with
  | c1 :: c2 :: cs => do
    advance cs 2
    pure (some (c1, c2))
  | _ => pure none

/-- `starts_with`, src/mangled_string.rs:139-141. -/
def starts_with (m : MStr) (what : Text) : Bool := what.isPrefixOf m.string

/-- `try_consume_str`, src/mangled_string.rs:85-91. The slice starts right after the matched prefix,
which is a character boundary. -/
def try_consume_str (s : Text) : SM MStr (Option Text) := do
  let m ← SM.get
  if m.starts_with s then do
    advance (m.string.drop s.length) s.length
    pure (some s)
  else pure none

/-- `find_char` on the text, src/mangled_string.rs:99-106: the byte offset of the first occurrence. -/
def findChar (needle : Char) : Text → Option Nat
  | [] => none
  | c :: cs => if c == needle then some 0 else (findChar needle cs).map (c.utf8Size + ·)

/-- `find_char`, src/mangled_string.rs:99-106. -/
def find_char (m : MStr) (needle : Char) : Option Nat := findChar needle m.string

/-- `first_char`, src/mangled_string.rs:108-110. -/
def first_char (m : MStr) : Option Char := m.string.head?

/-- `is_empty`, src/mangled_string.rs:112-114. -/
def is_empty (m : MStr) : Bool := m.string.isEmpty

/-- `last_char`, src/mangled_string.rs:116-118. -/
def last_char (m : MStr) : Option Char := m.string.getLast?

/-- `len_bytes`, src/mangled_string.rs:120-122. -/
def len_bytes (m : MStr) : Nat := utf8Len m.string

/-- `len_chars`, src/mangled_string.rs:124-126. -/
def len_chars (m : MStr) : Nat := m.chars

/-- `slice(..end)`, src/mangled_string.rs:128-137, for the only kind of range used; panics off a
character boundary. -/
def slice_to (m : MStr) (stop : Nat) : Except Fail MStr :=
  match splitAtBytes stop m.string with
  | some (a, _) => .ok ⟨a, a.length⟩
  | none => .error (.crash .panic)

/-- The `while let Some(c) = candidate.try_consume()` loop of src/mangled_string.rs:184-188: all
remaining characters are in `A..=P`. The loop is run on the text; the counter of `candidate`, a local
copy whose count was computed by `slice`, cannot underflow before the text is exhausted. -/
def all_hexdigits (m : MStr) : Bool := m.string.all is_rebased_ascii_hexdigit

/-- `starts_with_local_scope_pattern`, src/mangled_string.rs:145-191 (works on a copy of `self`). -/
def starts_with_local_scope_pattern (m : MStr) : Except Fail Bool :=
  match try_consume_char '?' m with
  | .error e => .error e
  | .ok (none, _) => .ok false
  | .ok (some _, m) =>
    match m.find_char '?' with
    | none => .ok false
    | some stop =>
      match m.slice_to stop with
      | .error e => .error e
      | .ok candidate =>
        if candidate.is_empty then .ok false
        else if candidate.len_chars == 1 then
          match candidate.first_char with
          | none => .error (.crash .ub)   -- unwrap_unchecked, line 162
          | some c => .ok (c == '@' || isDigit c)
        else
          match candidate.last_char with
          | some '@' =>
            match candidate.slice_to (candidate.len_bytes - 1) with
            | .error e => .error e
            | .ok candidate =>
              match try_consume_char_if (fun x => 'B'.toNat ≤ x.toNat && x.toNat ≤ 'P'.toNat) candidate with
              | .error e => .error e
              | .ok (none, _) => .ok false
              | .ok (some _, candidate) => .ok candidate.all_hexdigits
          | _ => .ok false

/-- `is_array_type`, src/mangled_string.rs:193-195. -/
def is_array_type (m : MStr) : Bool := m.first_char == some 'Y'

/-- `is_custom_type`, src/mangled_string.rs:197-199. -/
def is_custom_type (m : MStr) : Bool := m.first_char == some '?'

/-- `is_function_type`, src/mangled_string.rs:201-203. -/
def is_function_type (m : MStr) : Bool := m.starts_with c!"$$A8@@" || m.starts_with c!"$$A6"

/-- The body of `is_member_pointer`, src/mangled_string.rs:205-244, on the copy of `self`. -/
def member_pointer_probe : SM MStr (Option Bool) := do
  match ← try_consume with
  | none => pure none
  | some c =>
    if c == '$' || c == 'A' then pure (some false)
    else if c == 'P' || c == 'Q' || c == 'R' || c == 'S' then do
      match ← try_consume_char_if isDigit with
      | some digit =>
        if digit == '6' then pure (some false)
        else if digit == '8' then pure (some true)
        else pure none
      | none => do
        let _ ← try_consume_char 'E'
        let _ ← try_consume_char 'I'
        let _ ← try_consume_char 'F'
        let m ← SM.get
        match m.first_char with
        | none => pure none
        | some c =>
          if c == 'A' || c == 'B' || c == 'C' || c == 'D' then pure (some false)
          else if c == 'Q' || c == 'R' || c == 'S' || c == 'T' then pure (some true)
          else pure none
    else pure none

/-- `is_member_pointer`, src/mangled_string.rs:205-244 (works on a copy of `self`); the outer `Option`
is the Rust result. -/
def is_member_pointer (m : MStr) : Except Fail (Option Bool) :=
  (member_pointer_probe m).map Prod.fst

/-- `is_pointer_type`, src/mangled_string.rs:246-258. -/
def is_pointer_type (m : MStr) : Bool :=
  m.starts_with c!"$$Q" ||
    (match m.first_char with
     | some c => c == 'A' || c == 'P' || c == 'Q' || c == 'R' || c == 'S'
     | none => false)

/-- `is_tag_type`, src/mangled_string.rs:260-266. -/
def is_tag_type (m : MStr) : Bool :=
  match m.first_char with
  | some c => c == 'T' || c == 'U' || c == 'V' || c == 'W'
  | none => false

end MStr

end Undname
