/-
  Model of undname-rs, part 5: the public API (src/lib.rs:386-404) and `Demangler::parse_into`.
-/
import Verif.Model.Parser

namespace Undname

/-- `Demangler::new`, src/demangler.rs:249-262. -/
def initSt (mangled_name : Text) : St :=
  { str := MStr.new mangled_name, cache := [], names := [], function_params := [] }

/-- `self.do_parse()` on a fresh `Demangler`. The recursion budget is the number of characters of the
input plus one. -/
def parse (rend : Renderer) (mangled_name : Text) : Except Fail (Handle × St) :=
  (fns rend (mangled_name.length + 1)).parse (initSt mangled_name)

/-- What a call does: it crashes, or it returns a `Result` and leaves a text in the buffer. -/
abbrev Outcome (α : Type) := Except Crash (Except Error α × Text)

/-- `String::clear`, `Vec::clear`. -/
def clear (_ : Text) : Text := []

/-- `Demangler::parse_into`, src/demangler.rs:264-292, on a buffer holding `result`. On a parse error the
buffer is not touched; the bytes are handed to the writer as they are, and taken back (cleared on
error). `String::from_utf8` cannot fail, as text is modelled as characters. -/
def parse_into (E : Env) (mangled_name : Text) (result : Text) : Outcome Unit :=
  match parse (render E) mangled_name with
  | .error (.crash c) => .error c
  | .error (.err e) => .ok (.error e, result)
  | .ok (h, s) =>
    match render E s.cache .ISymbolNode h result with
    | .error (.crash c) => .error c
    | .error (.err e) => .ok (.error e, clear result)
    | .ok (_, text) => .ok (.ok (), text)

/-- `demangle_into`, src/lib.rs:399-404: `result.clear()`, then `parse_into`. -/
def demangle_into (E : Env) (mangled_name : Text) (result : Text) : Outcome Unit :=
  parse_into E mangled_name (clear result)

/-- `demangle`, src/lib.rs:392-396. -/
def demangle (E : Env) (mangled_name : Text) : Except Crash (Except Error Text) :=
  match demangle_into E mangled_name [] with
  | .error c => .error c
  | .ok (.error e, _) => .ok (.error e)
  | .ok (.ok (), text) => .ok (.ok text)

end Undname
