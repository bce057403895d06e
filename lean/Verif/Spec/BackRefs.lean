/-
  Specification: names and parameter types that refer back to earlier ones.

  A function or variable is written with a path of enclosing scopes and (functions) a list of parameters.
  Names and parameters may be written in full or as a digit. `read` says what the digits stand for; it is
  defined from the sequence of all names seen so far and does not mention any table.
-/
import Verif.Spec.Decl

namespace Undname.Spec

mutual
/-- A path of names, innermost first. -/
inductive Path where
  | top
  /-- a name in full -/
  | full (s : Text) (up : Path)
  /-- a digit -/
  | back (d : Nat) (up : Path)
  /-- an instantiation of a class template -/
  | inst (s : Text) (args : Classes) (up : Path)

/-- Template arguments that are classes. -/
inductive Classes where
  | done
  | cls (name : Path) (more : Classes)
end

/-- A parameter: a fundamental type, a class, or a digit. -/
inductive Param where
  | prim (k : PrimitiveKind)
  | cls (name : Path)
  | back (d : Nat)

/-! ### How it is mangled -/

mutual
def Path.mangle : Path → Text
  | .top => c!"@"
  | .full s up => s ++ c!"@" ++ up.mangle
  | .back d up => digit d ++ up.mangle
  | .inst s args up => c!"?$" ++ s ++ c!"@" ++ args.mangle ++ up.mangle

def Classes.mangle : Classes → Text
  | .done => c!"@"
  | .cls name more => c!"V" ++ name.mangle ++ more.mangle
end

def Param.mangle : Param → Text
  | .prim k => primCode k
  | .cls name => c!"V" ++ name.mangle
  | .back d => digit d

/-! ### What it means -/

/-- The names a digit can stand for: the first ten distinct names of all those seen so far. -/
def kept (seen : List Text) : List Text := seen.eraseDups.take 10

mutual
/-- The names of the path, and all names seen up to its end. In template arguments, only names seen since
the name of the template count; the instantiation as a whole then is one more name of the context. -/
def Path.read : Path → List Text → Except Error (List Text × List Text)
  | .top, seen => .ok ([], seen)
  | .full s up, seen => do
      let (names, seen) ← up.read (seen ++ [s])
      pure (s :: names, seen)
  | .back d up, seen =>
      match (kept seen)[d]? with
      | none => .error .InvalidBackRef
      | some s => do
          let (names, seen) ← up.read seen
          pure (s :: names, seen)
  | .inst s args up, seen => do
      let (as, _) ← args.read [s]
      let t := s ++ c!"<" ++ join c!", " as ++ c!">"
      if utf8Len t < 2 ^ 20 then
        let (names, seen) ← up.read (seen ++ [t])
        pure (t :: names, seen)
      else .error (.Io .OutOfMemory)

def Classes.read : Classes → List Text → Except Error (List Text × List Text)
  | .done, seen => .ok ([], seen)
  | .cls name more, seen => do
      let (names, seen) ← name.read seen
      let (as, seen) ← more.read seen
      pure ((c!"class " ++ showPath names) :: as, seen)
end

/-- The parameters: `long` lists the earlier ones whose encoding has more than one character; a digit can
stand for one of the first ten of these. -/
def readParams : List Param → (seen long : List Text) → Except Error (List Text)
  | [], _, _ => .ok []
  | .prim k :: ps, seen, long => do
      let ts ← readParams ps seen (if (primCode k).length = 1 then long else long ++ [primName k])
      pure (primName k :: ts)
  | .cls name :: ps, seen, long => do
      let (names, seen) ← name.read seen
      let t := c!"class " ++ showPath names
      let ts ← readParams ps seen (long ++ [t])
      pure (t :: ts)
  | .back d :: ps, seen, long =>
      match (long.take 10)[d]? with
      | none => .error .InvalidFunctionParameterList
      | some t => do
          let ts ← readParams ps seen long
          pure (t :: ts)

/-! ### Well-formedness: proper names, single digits, class names that are not empty -/

mutual
def Path.Ok : Path → Prop
  | .top => True
  | .full s up => Name s ∧ up.Ok
  | .back d up => d < 10 ∧ up.Ok
  | .inst s args up => Name s ∧ args.Ok ∧ up.Ok

def Classes.Ok : Classes → Prop
  | .done => True
  | .cls name more => name ≠ .top ∧ name.Ok ∧ more.Ok
end

def Param.Ok : Param → Prop
  | .prim k => k ≠ .Void
  | .cls name => name ≠ .top ∧ name.Ok
  | .back d => d < 10

/-! ### Functions and variables -/

/-- `void __cdecl scopes::s(parameters)`. -/
def mangleRefFn (s : Text) (up : Path) (ps : List Param) : Text :=
  c!"?" ++ s ++ c!"@" ++ up.mangle ++ c!"YAX" ++ ps.flatMap Param.mangle ++ c!"@Z"

def readRefFn (s : Text) (up : Path) (ps : List Param) : Except Error Text := do
  let (names, seen) ← up.read [s]
  let ts ← readParams ps seen []
  pure (c!"void __cdecl " ++ showPath (s :: names) ++ c!"(" ++ join c!", " ts ++ c!")")

/-- `int scopes::s`. -/
def mangleRefVar (s : Text) (up : Path) : Text := c!"?" ++ s ++ c!"@" ++ up.mangle ++ c!"3HA"

def readRefVar (s : Text) (up : Path) : Except Error Text := do
  let (names, _) ← up.read [s]
  pure (c!"int " ++ showPath (s :: names))

/-- The call gives this text or this error. -/
def Gives (E : Env) (m : Text) : Except Error Text → Prop
  | .ok out => Shows E m out
  | .error e => Rejects E m e

-- the class `B::A<class C, class A::C>::A<class C, class A::C>`: inside, `0` is `A` and `1` is `C`; outside, `1` is the instantiation
example : (Path.inst c!"A" (.cls (.full c!"C" .top) (.cls (.back 1 (.back 0 .top)) .done)) (.back 1 (.full c!"B" .top))).mangle =
    c!"?$A@VC@@V10@@1B@@" := by decide
example : (readRefVar c!"x" (.inst c!"A" (.cls (.full c!"C" .top) (.cls (.back 1 (.back 0 .top)) .done)) (.back 1 (.full c!"B" .top)))).toOption =
    some c!"int B::A<class C, class A::C>::A<class C, class A::C>::x" := by decide +kernel

end Undname.Spec
