/-
  A monad that counts steps. `Timed.SM σ α` is `SM σ α` of Model/Basic.lean with, beside the result, the number of
  steps taken, whether the computation succeeds or fails. One step is one sequencing of two computations (`bind`), one
  access to the state, one operation on the input string or on the node cache, one failure. Operations that are loops in
  the code are charged for their iterations: writing a text takes one step per character, asking the buffer
  for its last character one per character of the buffer (`last_char` validates all of it, src/demangler.rs:121-126), taking
  the text out of a buffer as many again, a search one per character looked at, splitting off a prefix one
  per character of it, interning a list one per element, memorising a text ten per character (it is compared with up to
  ten others). Free are: computations on single characters, numbers and flags, on the ten entries of a
  back reference table, on the at most 128 bytes of a narrow string literal.
-/
import Verif.Model.Api

namespace Undname.Timed

/-- A stateful computation that may fail, with the number of steps it takes. -/
def SM (σ α : Type) : Type := σ → Except Fail (α × σ) × Nat

namespace SM
variable {σ α β γ : Type}

/-- A basic operation: one step. -/
def prim (m : Undname.SM σ α) : SM σ α := fun s => (m s, 1)

def pure (a : α) : SM σ α := fun s => (.ok (a, s), 0)

def bind (m : SM σ α) (f : α → SM σ β) : SM σ β := fun s =>
  match m s with
  | (.ok (a, s'), n) => ((f a s').1, n + (f a s').2 + 1)
  | (.error e, n) => (.error e, n + 1)

instance : Monad (SM σ) where
  pure := SM.pure
  bind := SM.bind

def err (e : Error) : SM σ α := prim (Undname.SM.err e)
def crash (c : Crash) : SM σ α := prim (Undname.SM.crash c)
def get : SM σ σ := prim Undname.SM.get
def set (s : σ) : SM σ Unit := prim (Undname.SM.set s)
def modify (f : σ → σ) : SM σ Unit := prim (Undname.SM.modify f)
def lift (m : Except Fail α) : SM σ α := prim (Undname.SM.lift m)

/-- Rust's `.ok_or(e)?`. -/
def okOr (e : Error) : Option α → SM σ α
  | some a => SM.pure a
  | none => err e

/-- A `loop`, as `Undname.SM.iterate`. -/
def iterate : Nat → (β → SM σ (β ⊕ γ)) → β → SM σ γ
  | 0, _, _ => crash .fuel
  | n + 1, body, b => SM.bind (body b) fun
    | .inl b' => iterate n body b'
    | .inr c => SM.pure c

/-- `for _ in 0..n`, as `Undname.SM.forN`. -/
def forN : Nat → (β → SM σ β) → β → SM σ β
  | 0, _, b => SM.pure b
  | n + 1, body, b => SM.bind (body b) fun b' => forN n body b'

end SM

/-- Computations that write to a `Writer`. -/
abbrev W := SM Text

/-- `&mut self` methods of `Demangler`. -/
abbrev P := SM St

/-- `if b { m }`. -/
def whenB {σ : Type} (b : Bool) (m : SM σ Unit) : SM σ Unit := if b then m else SM.pure ()

/-- `if let Some(a) = o { f(a) }`. -/
def whenSome {σ α : Type} (o : Option α) (f : α → SM σ Unit) : SM σ Unit :=
  match o with
  | some a => f a
  | none => SM.pure ()

/-- Writing a text takes one step, plus one per character, of which there are no more than the buffer may hold. -/
def write (t : Text) : W Unit := fun w => (Undname.write t w, 1 + min t.length OUTPUT_LIMIT)

/-- Asking the buffer for its last character: `last_char`, src/demangler.rs:121-126, validates the whole buffer. -/
def look : W Text := fun w => (.ok (w, w), 1 + w.length)

/-- How nodes are rendered. -/
abbrev Renderer := Cache → Kind → Handle → W Unit

/-- A method call on `self.mangled_name`: one step. -/
def onStr {α : Type} (m : Undname.SM MStr α) : P α := SM.prim (Undname.onStr m)

/-- What interning a node copies: the elements of a list (`allocate_slice`, src/alloc.rs:27-34), the text of a string
literal (taken out of its buffer by `try_into`, src/demangler.rs:1888). -/
def nodeSize : Node → Nat
  | .NodeArray l => l.length
  | .EncodedStringLiteral _ t _ _ => t.length
  | _ => 0

/-- `NodeCache::intern`: one step, and those of copying. -/
def intern (n : Node) : P Handle := fun s => (Undname.intern n s, 1 + nodeSize n)

/-- The number of characters a search for `c` looks at. -/
def scanned (c : Char) : Text → Nat
  | [] => 0
  | x :: xs => if x == c then 1 else scanned c xs + 1

/-- `find_char`, src/mangled_string.rs:99-106: one step per character looked at. -/
def findChar (c : Char) : P (Option Nat) := fun s => (.ok (s.str.find_char c, s), 1 + scanned c s.str.string)

/-- The characters `try_consume_n_bytes` splits off and counts. -/
def splitCost (n : Nat) (t : Text) : Nat :=
  match splitAtBytes n t with
  | some (a, _) => a.length
  | none => 0

/-- `try_consume_n_bytes`, src/mangled_string.rs:66-72: one step per character split off, which are counted. -/
def tryBytes (n : Nat) : P (Option Text) := fun s => (Undname.tryBytes n s, 1 + splitCost n s.str.string)

/-- The steps of `starts_with_local_scope_pattern`, src/mangled_string.rs:145-191: nothing to do unless the text starts with
`?`; the search for the next one, two slices whose characters are counted, the loop over the digits. -/
def patternCost : Text → Nat
  | '?' :: t => 10 + 4 * scanned '?' t
  | _ => 1

/-- `starts_with_local_scope_pattern` on the input. -/
def localScope : P Bool := fun s => (Undname.queryE MStr.starts_with_local_scope_pattern s, patternCost s.str.string)

/-- `memorize_string`, src/demangler.rs:1094-1110: the text is compared with up to ten others. -/
def memorize_string (t : Text) : P Unit := fun s => (Undname.memorize_string t s, 20 + 10 * t.length)

/-- Rendering into a buffer: the steps of the rendering, plus one. -/
def runW (m : W Unit) (t : Text) : P Text := fun s =>
  match m t with
  | (.ok (_, t'), n) => (.ok (t', s), n + 1)
  | (.error e, n) => (.error e, n + 1)

/-- Rendering into a fresh buffer and taking its text, which is validated once more
(`ob.try_into()?`, src/demangler.rs:1122 and 1792). -/
def runFresh (m : W Unit) (t : Text) : P Text := fun s =>
  match m t with
  | (.ok (_, t'), n) => (.ok (t', s), n + 1 + t'.length)
  | (.error e, n) => (.error e, n + 1)

end Undname.Timed
