/-
  Specification: function templates of the small language.
-/
import Verif.Spec.Decl

namespace Undname.Spec

/-- A template argument: an integer (sign and absolute value) or a type. -/
inductive Arg where
  | int (neg : Bool) (n : Nat)
  | ty (t : Ty)

namespace Arg

/-- Integers as a compiler writes them; types like parameters. -/
def mangle (w : Bool) : Arg → Text
  | .int neg n => c!"$0" ++ (if neg then c!"?" else []) ++ encode n
  | .ty t => t.mangle w

def cpp (E : Env) : Arg → Text
  | .int neg n => (if neg then c!"-" else []) ++ nat n
  | .ty t => t.cpp E

/-- Integers of 64 bits; types as for parameters, or `void`. -/
def Ok : Arg → Prop
  | .int _ n => n < 2 ^ 64
  | .ty t => Fn.IsParam t ∨ t = .prim .Void false false

instance : DecidablePred Ok := fun a => by
  cases a with
  | int => unfold Ok; infer_instance
  | ty t =>
    refine @instDecidableOr _ _ inferInstance ?_
    cases t with
    | prim k c v => exact decidable_of_iff (k = .Void ∧ c = false ∧ v = false) (by simp)
    | _ => exact .isFalse (by simp)

end Arg

/-- `?$name@arguments@`. -/
def mangleTmpl (w : Bool) (s : Text) (as : List Arg) : Text :=
  c!"?$" ++ s ++ c!"@" ++ as.flatMap (Arg.mangle w) ++ c!"@"

/-- `name<arguments>`. -/
def showTmpl (E : Env) (s : Text) (as : List Arg) : Text := s ++ c!"<" ++ join c!", " (as.map (Arg.cpp E)) ++ c!">"

example (E : Env) : mangleTmpl true c!"f" [.int false 300, .ty (.ref (.prim .Int true false)), .int true 4] = c!"?$f@$0BCM@AEBH$0?3@" := by
  decide +kernel

end Undname.Spec
