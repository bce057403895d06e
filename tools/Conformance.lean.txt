import Verif.Model.Api
open Undname
/-- Evaluates test vectors on the model; the non-ASCII characters of the vectors are letters. -/
def input (s : String) : Text :=
  if s = "@NODES2048" then "?x@@3".toList ++ (List.replicate 2042 ['P','A']).flatten ++ "HA".toList
  else if s = "@NODES2049" then "?x@@3".toList ++ (List.replicate 2043 ['P','A']).flatten ++ "HA".toList
  else s.toList
def main (args : List String) : IO Unit := do
  let s ← IO.FS.readFile args[0]!
  for l in s.splitOn "\n" do
    match l.splitOn "\t" with
    | [c, fl, m] =>
      let E : Env := ⟨⟨BitVec.ofNat 16 fl.toNat!⟩, fun _ => true⟩
      let d := match demangle E (input m) with
        | .ok (.ok t) => "ok " ++ String.ofList t
        | .ok (.error e) => s!"err {repr e}"
        | .error c => s!"CRASH {repr c}"
      let b := match demangle_into E (input m) "old".toList with
        | .ok (.ok (), t) => "ok " ++ String.ofList t
        | .ok (.error e, t) => s!"err {repr e}" ++ (if t.isEmpty then "" else " BUFFER " ++ String.ofList t)
        | .error c => s!"CRASH {repr c}"
      IO.println s!"{c}\t{fl}\t{m}\t{d}\t{if b = d then "same" else b}"
    | _ => pure ()
