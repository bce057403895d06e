/-
  The public API (src/lib.rs:386-404) and `Demangler::parse_into` on bytes.
-/
import Verif.Raw.Parser

namespace Undname.Raw
open Undname (Fail Error Crash)

/-- `Demangler::new`, src/demangler.rs:249-262. -/
def initSt (mangled_name : Bytes) : St :=
  { str := MStr.new mangled_name, cache := [], names := [], function_params := [] }

/-- `self.do_parse()` on a fresh `Demangler`. The recursion budget is the number of bytes of the input plus one. -/
def parse (rend : Renderer) (mangled_name : Bytes) : Except Fail (Handle × St) :=
  (fns rend (mangled_name.length + 1)).parse (initSt mangled_name)

/-- What a call does: it crashes, or it returns a `Result` and leaves bytes in the buffer. -/
abbrev Outcome (α : Type) := Except Crash (Except Error α × Bytes)

/-- `String::clear`, `Vec::clear`. -/
def clear (_ : Bytes) : Bytes := []

/-- `Demangler::parse_into`, src/demangler.rs:264-292, on a buffer holding `result`. -/
def parse_into (E : Env) (mangled_name : Bytes) (result : Bytes) : Outcome Unit :=
  match parse (render E) mangled_name with
  | .error (.crash c) => .error c
  | .error (.err e) => .ok (.error e, result)
  | .ok (h, s) =>
    match render E s.cache .ISymbolNode h result with
    | .error (.crash c) => .error c
    | .error (.err e) => .ok (.error e, clear result)
    | .ok (_, bytes) =>
      if from_utf8 bytes then .ok (.ok (), bytes)        -- `String::from_utf8`, line 281
      else .ok (.error .Utf8Error, clear bytes)

/-- `demangle_into`, src/lib.rs:399-404: `result.clear()`, then `parse_into`. -/
def demangle_into (E : Env) (mangled_name : Bytes) (result : Bytes) : Outcome Unit :=
  parse_into E mangled_name (clear result)

/-- `demangle`, src/lib.rs:392-396. -/
def demangle (E : Env) (mangled_name : Bytes) : Except Crash (Except Error Bytes) :=
  match demangle_into E mangled_name [] with
  | .error c => .error c
  | .ok (.error e, _) => .ok (.error e)
  | .ok (.ok (), bytes) => .ok (.ok bytes)

end Undname.Raw
