/-
  The public API (Model/Api.lean) in the monad that counts steps.
-/
import Verif.Timed.Parser

namespace Undname.Timed

/-- `self.do_parse()` on a fresh `Demangler`, src/demangler.rs:249-262 and 294-314, with its steps. -/
def parse (rend : Renderer) (mangled_name : Text) : Except Fail (Handle × St) × Nat :=
  (fns rend (mangled_name.length + 1)).parse (initSt mangled_name)

/-- The steps of making a `Demangler`: the characters of the name are counted (src/mangled_string.rs:25-30). -/
def newCost (mangled_name : Text) : Nat := 1 + mangled_name.length

/-- `demangle`, src/lib.rs:392-404 and src/demangler.rs:264-292, as `Undname.demangle`, with the number of steps taken by
making the `Demangler`, by the parser, by the rendering of the result and by the last validation of the buffer
(`String::from_utf8`, src/demangler.rs:281). -/
def demangle (E : Env) (mangled_name : Text) : Except Crash (Except Error Text) × Nat :=
  let k := newCost mangled_name
  match parse (render E) mangled_name with
  | (.error (.crash c), n) => (.error c, k + n)
  | (.error (.err e), n) => (.ok (.error e), k + n)
  | (.ok (h, s), n) =>
    match render E s.cache .ISymbolNode h [] with
    | (.error (.crash c), l) => (.error c, k + n + l)
    | (.error (.err e), l) => (.ok (.error e), k + n + l)
    | (.ok (_, text), l) => (.ok (.ok text), k + n + l + text.length)

end Undname.Timed
