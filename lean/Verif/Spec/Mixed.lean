/-
  Specification: a mangler that is free to use back-references or not. Wherever the mangler of `Spec/Mangler.lean`
  replaces a name or a parameter by its number, this one tosses a coin: it writes the number, or the whole again.
-/
import Verif.Spec.MangledSym

namespace Undname.Spec.Cxx

/-- What the mangler remembers, and the coins it is going to toss. -/
structure Pen extends Seen where
  coins : Nat → Bool := fun _ => true

def Pen.note (st : Pen) (s : Seg) : Pen := { st with toSeen := st.toSeen.note s }
def Pen.noteType (st : Pen) (t : Ty) : Pen := { st with toSeen := st.toSeen.noteType t }
/-- Use the back-reference, if there is one and the coin says so. -/
def Pen.pick (st : Pen) (o : Option Nat) : Option Nat := if st.coins 0 then o else none
/-- After a toss. -/
def Pen.tick (st : Pen) : Pen := { st with coins := fun k => st.coins (k + 1) }
/-- A template's arguments have a memory of their own, and every second of the next coins; -/
def Pen.evens (st : Pen) : Pen := { coins := fun k => st.coins (2 * k + 1) }
/-- the others are left for what follows. -/
def Pen.odds (st : Pen) : Pen := { st with coins := fun k => st.coins (2 * k + 2) }

section
variable (w : Bool)

mutual
/-- A type, without the qualifiers of a fundamental or class type (these are written by the context). -/
def Ty.mix : Ty → Pen → Text × Pen
  | .prim k _ _, st => (primCode k, st)
  | .tag k p _ _, st =>
    let (x, st) := p.mix st
    (tagCode k ++ x, st)
  | .ptr k u to, st =>
    let (x, st) := to.mix st
    (k.code ++ extCode w k.restrict u ++ to.letter :: x, st)
  | .fptr k s, st =>
    let (x, st) := s.mix st
    (k.code ++ c!"6" ++ x, st)
  | .aptr k c v dims el, st =>
    let (x, st) := el.mix st
    (k.code ++ extCode w k.restrict false ++ c!"A" ++ arrayCode c v dims ++ x, st)
  | .mptr k u cls to, st =>
    let (x, st) := cls.mix st
    let (y, st) := to.mix st
    (k.code ++ extCode w k.restrict u ++ to.memberLetter :: x ++ y, st)
  | .mfptr k cls q s, st =>
    let (x, st) := cls.mix st
    let (y, st) := s.mix st
    (k.code ++ c!"8" ++ x ++ q.code w ++ y, st)
/-- A function type: convention, result, parameters, exception specification. -/
def Sig.mix : Sig → Pen → Text × Pen
  | .mk cc ret ps variadic noexc, st =>
    let (x, st) := ret.mix st
    let (y, st) := ps.mix st
    (cc :: ret.retCode ++ x ++
      (if y.isEmpty && !variadic then c!"X" else y ++ (if variadic then c!"Z" else c!"@")) ++
      (if noexc then c!"_E" else c!"Z"), st)
/-- Parameters: one that was written before may be replaced by its number, or be written (and remembered) again. -/
def Tys.mix : Tys → Pen → Text × Pen
  | .nil, st => ([], st)
  | .cons t ts, st =>
    match st.pick (position t st.types) with
    | some i =>
      let (y, st) := ts.mix st.tick
      (digit i ++ y, st)
    | none =>
      let (x, st) := t.mix st.tick
      let st := if x.length = 1 then st else st.noteType t
      let (y, st) := ts.mix st
      (x ++ y, st)
/-- A qualified name: the parts, and `@`. -/
def Path.mix : Path → Pen → Text × Pen
  | .nil, st => (c!"@", st)
  | .cons s p, st =>
    let (x, st) := s.mix st
    let (y, st) := p.mix st
    (x ++ y, st)
/-- A part of a name: an identifier or template instantiation that was written before may be replaced by its
number. The arguments of a template are mangled with memories of their own. -/
def Seg.mix : Seg → Pen → Text × Pen
  | .id s, st =>
    match st.pick (position (.id s) st.names) with
    | some i => (digit i, st.tick)
    | none => (s ++ c!"@", st.tick.note (.id s))
  | .tm s as, st =>
    match st.pick (position (.tm s as) st.names) with
    | some i => (digit i, st.tick)
    | none =>
      let (x, _) := as.mix (st.evens.note (.id s))
      (c!"?$" ++ s ++ c!"@" ++ x, st.odds.note (.tm s as))
  | .anon key, st => (c!"?A" ++ key ++ c!"@", st.note (.anon key))
  | .loc n d, st =>
    let (x, st) := d.mix st
    (c!"?" ++ encode n ++ c!"?" ++ x, st)
/-- Template arguments and `@`. -/
def Args.mix : Args → Pen → Text × Pen
  | .nil, st => (c!"@", st)
  | .ty t as, st =>
    let (x, st) := t.mix st
    let (y, st) := as.mix st
    (t.argCode ++ x ++ y, st)
  | .int neg n as, st =>
    let (y, st) := as.mix st
    (c!"$0" ++ (if neg then c!"?" else []) ++ encode n ++ y, st)
  | .pack as, st =>
    let (y, st) := as.mix st
    (c!"$$V" ++ y, st)
  | .fn s as, st =>
    let (x, st) := s.mix st
    let (y, st) := as.mix st
    (c!"$$A6" ++ x ++ y, st)
  | .mfn q s as, st =>
    let (x, st) := s.mix st
    let (y, st) := as.mix st
    (c!"$$A8@@" ++ q.code w ++ x ++ y, st)
  | .arr c v dims el as, st =>
    let (x, st) := el.mix st
    let (y, st) := as.mix st
    (c!"$$B" ++ arrayCode c v dims ++ x ++ y, st)
  | .tmpl p as, st =>
    let (x, st) := p.mix st
    let (y, st) := as.mix st
    (c!"$$Y" ++ x ++ y, st)
  | .addr d as, st =>
    let (x, st) := d.mix st
    let (y, st) := as.mix st
    (c!"$1" ++ x ++ y, st)
  | .ref d as, st =>
    let (x, st) := d.mix st
    let (y, st) := as.mix st
    (c!"$E" ++ x ++ y, st)
  | .memFn d offs as, st =>
    let (x, st) := d.mix st
    let (y, st) := as.mix st
    (c!"$" ++ memFnCode offs.length ++ x ++ offs.flatMap encodeInt ++ y, st)
  | .memData offs as, st =>
    let (y, st) := as.mix st
    (c!"$" ++ (if offs.length = 2 then c!"F" else c!"G") ++ offs.flatMap encodeInt ++ y, st)
/-- The code of something, or an instantiation of a template of it. -/
def Targs.mix : Targs → Pen → Text → Text
  | .none, _, code => code
  | .some as, st, code => c!"?$" ++ code ++ (as.mix st.evens).1
/-- The name of a symbol. Only identifiers are remembered, not instantiations of function templates or operators. -/
def Head.mix : Head → Pen → Text × Pen
  | .id s, st =>
    match st.pick (position (.id s) st.names) with
    | some i => (digit i, st.tick)
    | none => (s ++ c!"@", st.tick.note (.id s))
  | .tm s as, st => (c!"?$" ++ s ++ c!"@" ++ (as.mix (st.evens.note (.id s))).1, st.odds)
  | .op o ta, st => (ta.mix st (opCode o), st.odds)
  | .lit s, st => (c!"?__K" ++ s ++ c!"@", st)
/-- The symbol. -/
def Decl.mix : Decl → Pen → Text × Pen
  | .var st name scope ty, seen =>
    let (x, seen) := name.mix seen
    let (y, seen) := scope.mix seen
    let (z, seen) := ty.mix seen
    let (u, seen) := ty.mixAgain seen
    (c!"?" ++ x ++ y ++ [st.code] ++ z ++ u, seen)
  | .fn k name scope s, seen =>
    let (x, seen) := name.mix seen
    let (y, seen) := scope.mix seen
    let (z, seen) := s.mix seen
    (c!"?" ++ x ++ y ++ k.code ++ k.thisCode w ++ z, seen)
  | .structor dtor targs k s scope cc ps variadic noexc, seen =>
    let (x, seen') := s.mix seen.odds
    let (y, seen') := scope.mix seen'
    let (z, seen') := ps.mix seen'
    (c!"?" ++ targs.mix seen (if dtor then c!"?1" else c!"?0") ++ x ++ y ++ k.code ++ k.thisCode w ++ [cc, '@'] ++
      (if z.isEmpty && !variadic then c!"X" else z ++ (if variadic then c!"Z" else c!"@")) ++ (if noexc then c!"_E" else c!"Z"), seen')
  | .conv targs k cls s, seen =>
    let (y, seen') := cls.mix seen.odds
    let (z, seen') := s.mix seen'
    (c!"?" ++ targs.mix seen c!"?B" ++ y ++ k.code ++ k.thisCode w ++ z, seen')
/-- After its type, a variable repeats the qualifiers: its own, or those of the target of a pointer (and, for
64 bits, `E`); a pointer to a member repeats the class. -/
def Ty.mixAgain : Ty → Pen → Text × Pen
  | .prim _ c v, st | .tag _ _ c v, st => ([Spec.Ty.cvLetter c v], st)
  | .ptr k u to, st => (extCode w k.restrict u ++ [to.letter], st)
  | .fptr _ _, st => (extCode w false false ++ c!"A", st)
  | .aptr k .., st => (extCode w k.restrict false ++ c!"A", st)
  | .mptr k u cls to, st =>
    let (x, st) := cls.mix st
    (extCode w k.restrict u ++ [to.memberLetter] ++ x, st)
  | .mfptr _ cls _ _, st =>
    let (x, st) := cls.mix st
    (extCode w false false ++ c!"Q" ++ x, st)
end

/-- Other symbols. -/
def Sym.mix (coins : Nat → Bool) : Sym → Text
  | .decl d => (d.mix w { coins }).1
  | .table t cls c v target =>
    let (x, st) := cls.mix w { coins }
    t.code ++ x ++ c!"6" ++ [Spec.Ty.cvLetter c v] ++ (target.mix w st).1 ++ (if target = .nil then [] else c!"@")
  | .baseDescriptor nv vb vt fl cls => c!"??_R1" ++ encode nv ++ encodeInt vb ++ encode vt ++ encode fl ++ (cls.mix w { coins }).1 ++ c!"8"
  | .baseArray cls => c!"??_R2" ++ (cls.mix w { coins }).1 ++ c!"8"
  | .hierarchy cls => c!"??_R3" ++ (cls.mix w { coins }).1 ++ c!"8"
  | .vcall cls n cc => c!"??_9" ++ (cls.mix w { coins }).1 ++ c!"$B" ++ encode n ++ c!"A" ++ [cc]
  | .guard th vis scope n => (if th then c!"??__J" else c!"??_B") ++ (scope.mix w { coins }).1 ++ (if vis then c!"5" else c!"4IA") ++ encode n
  | .initVar dt st name scope ty k s =>
    let (x, seen) := (Decl.var st name scope ty).mix w { coins }
    (if dt then c!"??__F" else c!"??__E") ++ x ++ c!"@@" ++ k.code ++ k.thisCode w ++ (s.mix w seen).1
  | .initName dt name scope k s => (if dt then c!"??__F" else c!"??__E") ++ ((Decl.fn k (.id name) scope s).mix w { coins }).1.drop 1

def EndSym.mix (coins : Nat → Bool) : EndSym → Text
  | .typeDescriptor t => c!"??_R0" ++ t.retCode ++ (t.mix w { coins }).1 ++ c!"@8"
  | .typeName t => c!"." ++ t.retCode ++ (t.mix w { coins }).1
  | .guard th vis scope => (if th then c!"??__J" else c!"??_B") ++ (scope.mix w { coins }).1 ++ (if vis then c!"5" else c!"4IA")

end

end Undname.Spec.Cxx
