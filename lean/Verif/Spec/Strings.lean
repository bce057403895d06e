/-
  Specification of string literal symbols: how bytes are written in a mangled name, and how characters are
  shown in the output. Independent of the model.
-/
import Verif.Spec.Numbers

namespace Undname.Spec

/-- The ten characters that have a one-digit code. -/
def punctuation : List Char := [',', '/', '\\', ':', '.', ' ', '\n', '\t', '\'', '-']

/-- The encodings of a byte. -/
inductive EncByte : List Char → Nat → Prop where
  /-- a character below 256 other than `?` and `@` stands for itself -/
  | plain (c : Char) (h : c.toNat < 256) (h1 : c ≠ '?') (h2 : c ≠ '@') : EncByte [c] c.toNat
  /-- `?$XY`: two hexadecimal digits -/
  | hex (x y : Char) (hx : IsHex x) (hy : IsHex y) : EncByte ['?', '$', x, y] (16 * hexDigit x + hexDigit y)
  /-- `?0` to `?9` -/
  | punct (i : Nat) (c : Char) (h : punctuation[i]? = some c) : EncByte ['?', Char.ofNat ('0'.toNat + i)] c.toNat
  /-- `?a` to `?z`: 0xE1 to 0xFA -/
  | lower (i : Nat) (h : i < 26) : EncByte ['?', Char.ofNat ('a'.toNat + i)] (0xE1 + i)
  /-- `?A` to `?Z`: 0xC1 to 0xDA -/
  | upper (i : Nat) (h : i < 26) : EncByte ['?', Char.ofNat ('A'.toNat + i)] (0xC1 + i)

/-- One upper-case hexadecimal digit, in the usual notation. -/
def upperHex (d : Nat) : Char := if d < 10 then Char.ofNat ('0'.toNat + d) else Char.ofNat ('A'.toNat + (d - 10))

/-- A number in the usual upper-case hexadecimal notation, without leading zeros. -/
def upperHexNum (n : Nat) : List Char :=
  if _h : n < 16 then [upperHex n] else upperHexNum (n / 16) ++ [upperHex (n % 16)]
termination_by n
decreasing_by omega

/-- At least two hexadecimal digits. -/
def hex2 (n : Nat) : List Char := if n < 16 then ['0', upperHex n] else upperHexNum n

/-- The named escape sequences of C. -/
def namedEscape (c : Nat) : Option (List Char) :=
  [(0x00, ['\\', '0']), (0x07, ['\\', 'a']), (0x08, ['\\', 'b']), (0x09, ['\\', 't']),
   (0x0A, ['\\', 'n']), (0x0B, ['\\', 'v']), (0x0C, ['\\', 'f']), (0x0D, ['\\', 'r']),
   (0x22, ['\\', '"']), (0x27, ['\\', '\'']), (0x5C, ['\\', '\\'])].lookup c

/-- How a character of a literal is shown: by a named escape, as itself if printable ASCII, in hexadecimal
otherwise. -/
def escape (c : Nat) : List Char :=
  match namedEscape c with
  | some t => t
  | none => if 0x20 ≤ c ∧ c ≤ 0x7E then [Char.ofNat c] else ['\\', 'x'] ++ hex2 c

/-- The number with the given bytes, least significant first. -/
def littleEndian : List Nat → Nat
  | [] => 0
  | b :: bs => b + 256 * littleEndian bs

/-- The characters of width `w` in a sequence of bytes (an incomplete one at the end is dropped). -/
def chars (w : Nat) (bytes : List Nat) : List Nat :=
  (List.range (bytes.length / w)).map fun i => littleEndian ((bytes.drop (i * w)).take w)

/-- The encodings of a sequence of bytes. -/
inductive EncBytes : List Char → List Nat → Prop where
  | nil : EncBytes [] []
  | cons {t u : List Char} {b : Nat} {bs : List Nat} (h : EncByte t b) (hs : EncBytes u bs) :
      EncBytes (t ++ u) (b :: bs)

/-- The encodings of a sequence of 16-bit characters: the high byte first. -/
inductive EncWide : List Char → List Nat → Prop where
  | nil : EncWide [] []
  | cons {t1 t2 u : List Char} {hi lo : Nat} {vs : List Nat} (h1 : EncByte t1 hi) (h2 : EncByte t2 lo)
      (hs : EncWide u vs) : EncWide (t1 ++ t2 ++ u) ((256 * hi + lo) :: vs)
  /-- in the place of the low byte, `@` stands for itself -/
  | consAt {t u : List Char} {hi : Nat} {vs : List Nat} (h : EncByte t hi) (hs : EncWide u vs) :
      EncWide (t ++ '@' :: u) ((256 * hi + 64) :: vs)

/-- The guessed width of the characters of a literal of `n` bytes of which `bytes` are given: an odd length
has single-byte characters; a short literal is judged by the zero bytes it ends with, a long one by the
proportion of zero bytes. -/
def charWidth (n : Nat) (bytes : List Nat) : Nat :=
  if n % 2 = 1 then 1
  else if n < 32 then
    if [0, 0, 0, 0] <:+ bytes ∧ n % 4 = 0 then 4 else if [0, 0] <:+ bytes then 2 else 1
  else
    if 2 * bytes.length / 3 ≤ bytes.count 0 ∧ n % 4 = 0 then 4
    else if bytes.length / 3 ≤ bytes.count 0 then 2 else 1

/-- What is written before the characters. -/
def literalPrefix (w : Nat) : List Char :=
  if w = 2 then ['u', '"'] else if w = 4 then ['U', '"'] else ['"']

/-- The text of a narrow literal of `n` bytes of which `bytes` are given: the characters, without the
terminator if the literal is complete and followed by dots if it is not. -/
def narrowText (n : Nat) (bytes : List Nat) : List Char :=
  let w := charWidth n bytes
  let cs := chars w bytes
  literalPrefix w ++
    if bytes.length < n then cs.flatMap escape ++ ['"', '.', '.', '.'] else cs.dropLast.flatMap escape ++ ['"']

end Undname.Spec
