/-
  Specification: how many nodes the declaration of a compiler costs the demangler, counted from the declaration and
  what the compiler has remembered of it so far, not from the mangled name.
-/
import Verif.Spec.MangledSym

namespace Undname.Spec.Cxx

/-- Remembering a name costs a node if it is new and there is room for it. -/
def Seen.cost (st : Seen) (s : Seg) : Nat := if st.names.length < 10 ∧ s ∉ st.names then 1 else 0

/-- A list of parameters costs a node, `(void)` nothing. -/
def listNodes (ps : Tys) (variadic : Bool) : Nat := if ps = .nil ∧ variadic = false then 0 else 1

/-- The thunk costs a node of its own. -/
def Kind.nodes : Kind → Nat
  | .thunk .. => 2
  | _ => 1

section
variable (w : Bool)

mutual
/-- Each type costs a node, an array a further one for each bound and one for the list of them. -/
def Ty.nodes : Ty → Seen → Nat
  | .prim .., _ => 1
  | .tag _ p _ _, st => p.nodes st + 1
  | .ptr _ _ to, st => to.nodes st + 1
  | .fptr _ s, st => s.nodes st + 1
  | .aptr _ _ _ dims el, st => el.nodes st + dims.length + 2 + 1
  | .mptr _ _ cls to, st => cls.nodes st + to.nodes (cls.mangle w st).2 + 1
  | .mfptr _ cls _ s, st => cls.nodes st + s.nodes (cls.mangle w st).2 + 1
def Sig.nodes : Sig → Seen → Nat
  | .mk _ ret ps variadic _, st => ret.nodes st + (ps.nodes (ret.mangle w st).2 + listNodes ps variadic) + 1
/-- A parameter that is replaced by its number costs nothing. -/
def Tys.nodes : Tys → Seen → Nat
  | .nil, _ => 0
  | .cons t ts, st =>
    match position t st.types with
    | some _ => ts.nodes st
    | none =>
      let (x, st') := t.mangle w st
      t.nodes st + ts.nodes (if x.length = 1 then st' else st'.noteType t)
/-- A qualified name costs two nodes, and its parts. -/
def Path.nodes : Path → Seen → Nat
  | .nil, _ => 2
  | .cons s p, st => s.nodes st + p.nodes (s.mangle w st).2
/-- A name that is replaced by its number costs nothing. -/
def Seg.nodes : Seg → Seen → Nat
  | .id s, st =>
    match position (.id s) st.names with
    | some _ => 0
    | none => st.cost (.id s) + 1
  | .tm s as, st =>
    match position (.tm s as) st.names with
    | some _ => 0
    | none => 2 + as.nodes (({} : Seen).note (.id s)) + 1 + st.cost (.tm s as)
  | .anon key, st => st.cost (.anon key) + 1
  | .loc _ d, st => d.nodes st + 1
def Args.nodes : Args → Seen → Nat
  | .nil, _ => 0
  | .ty t as, st => t.nodes st + as.nodes (t.mangle w st).2
  | .int _ _ as, st => 1 + as.nodes st
  | .pack as, st => as.nodes st
  | .fn s as, st => s.nodes st + as.nodes (s.mangle w st).2
  | .mfn _ s as, st => s.nodes st + as.nodes (s.mangle w st).2
  | .arr _ _ dims el as, st => el.nodes st + dims.length + 2 + as.nodes (el.mangle w st).2
  | .tmpl p as, st => p.nodes st + as.nodes (p.mangle w st).2
  | .addr d as, st => d.nodes st + 1 + as.nodes (d.mangle w st).2
  | .ref d as, st => d.nodes st + 1 + as.nodes (d.mangle w st).2
  | .memFn d _ as, st => d.nodes st + 1 + as.nodes (d.mangle w st).2
  | .memData _ as, st => 1 + as.nodes st
/-- The code of something costs a node, an instantiation a further one. -/
def Targs.nodes : Targs → Nat
  | .none => 1
  | .some as => 1 + as.nodes {} + 1
def Head.nodes : Head → Seen → Nat
  | .id s, st =>
    match position (.id s) st.names with
    | some _ => 0
    | none => st.cost (.id s) + 1
  | .tm s as, _ => 2 + as.nodes (({} : Seen).note (.id s)) + 1
  | .op _ ta, _ => ta.nodes
  | .lit _, _ => 1
/-- The number of nodes of a declaration. -/
def Decl.nodes : Decl → Seen → Nat
  | .var _ name scope ty, seen =>
    let seen1 := (name.mangle w seen).2
    let seen2 := (scope.mangle w seen1).2
    name.nodes seen + scope.nodes seen1 + (ty.nodes seen2 + ty.againNodes (ty.mangle w seen2).2 + 1)
  | .fn k name scope s, seen =>
    let seen1 := (name.mangle w seen).2
    name.nodes seen + scope.nodes seen1 + (s.nodes (scope.mangle w seen1).2 + k.nodes)
  | .structor _ targs k s scope _ ps variadic _, seen =>
    let seen1 := (s.mangle w seen).2
    targs.nodes + (s.nodes seen + scope.nodes seen1) +
      ((0 + (ps.nodes (scope.mangle w seen1).2 + listNodes ps variadic) + 1) + k.nodes)
  | .conv targs k cls s, seen => targs.nodes + cls.nodes seen + (s.nodes (cls.mangle w seen).2 + k.nodes)
/-- The class that is repeated after the type of a pointer to a member. -/
def Ty.againNodes : Ty → Seen → Nat
  | .mptr _ _ cls _, st | .mfptr _ cls _ _, st => cls.nodes st
  | _, _ => 0
end

/-- The number of nodes of the other symbols. -/
def Sym.nodes : Sym → Nat
  | .decl d => d.nodes w {}
  | .table _ cls _ _ target => cls.nodes w {} + (if target = .nil then 0 else target.nodes w (cls.mangle w {}).2) + 2
  | .baseDescriptor _ _ _ _ cls | .baseArray cls | .hierarchy cls => cls.nodes w {} + 2
  | .vcall cls _ _ => cls.nodes w {} + 3
  | .guard _ _ scope _ => scope.nodes w {} + 2
  | .initVar _ st name scope ty k s =>
    (Decl.var st name scope ty).nodes w {} + (s.nodes w ((Decl.var st name scope ty).mangle w {}).2 + k.nodes) + 3
  | .initName _ name scope k s => (Decl.fn k (.id name) scope s).nodes w {} + 3

def EndSym.nodes : EndSym → Nat
  | .typeDescriptor t => t.nodes w {} + 4
  | .typeName t => t.nodes w {} + 1
  | .guard _ _ scope => scope.nodes w {} + 2

end

end Undname.Spec.Cxx
