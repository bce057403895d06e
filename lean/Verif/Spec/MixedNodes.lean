/-
  Specification: how many nodes a declaration costs the demangler if it is written with some of its back-references.
-/
import Verif.Spec.Mixed
import Verif.Spec.MangledNodes

namespace Undname.Spec.Cxx

section
variable (w : Bool)

mutual
/-- Each type costs a node, an array a further one for each bound and one for the list of them. -/
def Ty.mixNodes : Ty → Pen → Nat
  | .prim .., _ => 1
  | .tag _ p _ _, st => p.mixNodes st + 1
  | .ptr _ _ to, st => to.mixNodes st + 1
  | .fptr _ s, st => s.mixNodes st + 1
  | .aptr _ _ _ dims el, st => el.mixNodes st + dims.length + 2 + 1
  | .mptr _ _ cls to, st => cls.mixNodes st + to.mixNodes (cls.mix w st).2 + 1
  | .mfptr _ cls _ s, st => cls.mixNodes st + s.mixNodes (cls.mix w st).2 + 1
def Sig.mixNodes : Sig → Pen → Nat
  | .mk _ ret ps variadic _, st => ret.mixNodes st + (ps.mixNodes (ret.mix w st).2 + listNodes ps variadic) + 1
/-- A parameter that is replaced by its number costs nothing. -/
def Tys.mixNodes : Tys → Pen → Nat
  | .nil, _ => 0
  | .cons t ts, st =>
    match st.pick (position t st.types) with
    | some _ => ts.mixNodes st.tick
    | none =>
      let (x, st') := t.mix w st.tick
      t.mixNodes st.tick + ts.mixNodes (if x.length = 1 then st' else st'.noteType t)
/-- A qualified name costs two nodes, and its parts. -/
def Path.mixNodes : Path → Pen → Nat
  | .nil, _ => 2
  | .cons s p, st => s.mixNodes st + p.mixNodes (s.mix w st).2
/-- A name that is replaced by its number costs nothing. -/
def Seg.mixNodes : Seg → Pen → Nat
  | .id s, st =>
    match st.pick (position (.id s) st.names) with
    | some _ => 0
    | none => st.cost (.id s) + 1
  | .tm s as, st =>
    match st.pick (position (.tm s as) st.names) with
    | some _ => 0
    | none => 2 + as.mixNodes (st.evens.note (.id s)) + 1 + st.cost (.tm s as)
  | .anon key, st => st.cost (.anon key) + 1
  | .loc _ d, st => d.mixNodes st + 1
def Args.mixNodes : Args → Pen → Nat
  | .nil, _ => 0
  | .ty t as, st => t.mixNodes st + as.mixNodes (t.mix w st).2
  | .int _ _ as, st => 1 + as.mixNodes st
  | .pack as, st => as.mixNodes st
  | .fn s as, st => s.mixNodes st + as.mixNodes (s.mix w st).2
  | .mfn _ s as, st => s.mixNodes st + as.mixNodes (s.mix w st).2
  | .arr _ _ dims el as, st => el.mixNodes st + dims.length + 2 + as.mixNodes (el.mix w st).2
  | .tmpl p as, st => p.mixNodes st + as.mixNodes (p.mix w st).2
  | .addr d as, st => d.mixNodes st + 1 + as.mixNodes (d.mix w st).2
  | .ref d as, st => d.mixNodes st + 1 + as.mixNodes (d.mix w st).2
  | .memFn d _ as, st => d.mixNodes st + 1 + as.mixNodes (d.mix w st).2
  | .memData _ as, st => 1 + as.mixNodes st
/-- The code of something costs a node, an instantiation a further one. -/
def Targs.mixNodes : Targs → Pen → Nat
  | .none, _ => 1
  | .some as, st => 1 + as.mixNodes st.evens + 1
def Head.mixNodes : Head → Pen → Nat
  | .id s, st =>
    match st.pick (position (.id s) st.names) with
    | some _ => 0
    | none => st.cost (.id s) + 1
  | .tm s as, st => 2 + as.mixNodes (st.evens.note (.id s)) + 1
  | .op _ ta, st => ta.mixNodes st
  | .lit _, _ => 1
/-- The number of nodes of a declaration. -/
def Decl.mixNodes : Decl → Pen → Nat
  | .var _ name scope ty, seen =>
    let seen1 := (name.mix w seen).2
    let seen2 := (scope.mix w seen1).2
    name.mixNodes seen + scope.mixNodes seen1 + (ty.mixNodes seen2 + ty.mixAgainNodes (ty.mix w seen2).2 + 1)
  | .fn k name scope s, seen =>
    let seen1 := (name.mix w seen).2
    name.mixNodes seen + scope.mixNodes seen1 + (s.mixNodes (scope.mix w seen1).2 + k.nodes)
  | .structor _ targs k s scope _ ps variadic _, seen =>
    let seen1 := (s.mix w seen.odds).2
    targs.mixNodes seen + (s.mixNodes seen.odds + scope.mixNodes seen1) +
      ((0 + (ps.mixNodes (scope.mix w seen1).2 + listNodes ps variadic) + 1) + k.nodes)
  | .conv targs k cls s, seen => targs.mixNodes seen + cls.mixNodes seen.odds + (s.mixNodes (cls.mix w seen.odds).2 + k.nodes)
/-- The class that is repeated after the type of a pointer to a member. -/
def Ty.mixAgainNodes : Ty → Pen → Nat
  | .mptr _ _ cls _, st | .mfptr _ cls _ _, st => cls.mixNodes st
  | _, _ => 0
end

/-- The number of nodes of the other symbols. -/
def Sym.mixNodes (coins : Nat → Bool) : Sym → Nat
  | .decl d => d.mixNodes w { coins }
  | .table _ cls _ _ target => cls.mixNodes w { coins } + (if target = .nil then 0 else target.mixNodes w (cls.mix w { coins }).2) + 2
  | .baseDescriptor _ _ _ _ cls | .baseArray cls | .hierarchy cls => cls.mixNodes w { coins } + 2
  | .vcall cls _ _ => cls.mixNodes w { coins } + 3
  | .guard _ _ scope _ => scope.mixNodes w { coins } + 2
  | .initVar _ st name scope ty k s =>
    (Decl.var st name scope ty).mixNodes w { coins } + (s.mixNodes w ((Decl.var st name scope ty).mix w { coins }).2 + k.nodes) + 3
  | .initName _ name scope k s => (Decl.fn k (.id name) scope s).mixNodes w { coins } + 3

def EndSym.mixNodes (coins : Nat → Bool) : EndSym → Nat
  | .typeDescriptor t => t.mixNodes w { coins } + 4
  | .typeName t => t.mixNodes w { coins } + 1
  | .guard _ _ scope => scope.mixNodes w { coins } + 2

end

end Undname.Spec.Cxx
