/-
  Specification: a declaration with other keys for its anonymous namespaces. A compiler makes the key of an
  anonymous namespace from the path of the source file, so that the same program, compiled in another directory,
  has other keys.
-/
import Verif.Spec.MangledSym

namespace Undname.Spec.Cxx

section
variable (f : Text → Text)

mutual
/-- The type with the key `f k` in the place of each key `k`. -/
def Ty.mapKeys : Ty → Ty
  | .prim k c v => .prim k c v
  | .tag k p c v => .tag k p.mapKeys c v
  | .ptr k u to => .ptr k u to.mapKeys
  | .fptr k s => .fptr k s.mapKeys
  | .aptr k c v dims el => .aptr k c v dims el.mapKeys
  | .mptr k u cls to => .mptr k u cls.mapKeys to.mapKeys
  | .mfptr k cls q s => .mfptr k cls.mapKeys q s.mapKeys
def Sig.mapKeys : Sig → Sig
  | .mk cc ret ps variadic noexc => .mk cc ret.mapKeys ps.mapKeys variadic noexc
def Tys.mapKeys : Tys → Tys
  | .nil => .nil
  | .cons t ts => .cons t.mapKeys ts.mapKeys
def Path.mapKeys : Path → Path
  | .nil => .nil
  | .cons s p => .cons s.mapKeys p.mapKeys
def Seg.mapKeys : Seg → Seg
  | .id s => .id s
  | .tm s as => .tm s as.mapKeys
  | .anon key => .anon (f key)
  | .loc n d => .loc n d.mapKeys
def Args.mapKeys : Args → Args
  | .nil => .nil
  | .ty t as => .ty t.mapKeys as.mapKeys
  | .int neg n as => .int neg n as.mapKeys
  | .pack as => .pack as.mapKeys
  | .fn s as => .fn s.mapKeys as.mapKeys
  | .mfn q s as => .mfn q s.mapKeys as.mapKeys
  | .arr c v dims el as => .arr c v dims el.mapKeys as.mapKeys
  | .tmpl p as => .tmpl p.mapKeys as.mapKeys
  | .addr d as => .addr d.mapKeys as.mapKeys
  | .ref d as => .ref d.mapKeys as.mapKeys
  | .memFn d offs as => .memFn d.mapKeys offs as.mapKeys
  | .memData offs as => .memData offs as.mapKeys
def Targs.mapKeys : Targs → Targs
  | .none => .none
  | .some as => .some as.mapKeys
def Head.mapKeys : Head → Head
  | .id s => .id s
  | .tm s as => .tm s as.mapKeys
  | .op o ta => .op o ta.mapKeys
  | .lit s => .lit s
/-- The declaration with the key `f k` in the place of each key `k`. -/
def Decl.mapKeys : Decl → Decl
  | .var st name scope ty => .var st name.mapKeys scope.mapKeys ty.mapKeys
  | .fn k name scope s => .fn k name.mapKeys scope.mapKeys s.mapKeys
  | .structor dtor targs k s scope cc ps variadic noexc =>
    .structor dtor targs.mapKeys k s.mapKeys scope.mapKeys cc ps.mapKeys variadic noexc
  | .conv targs k cls s => .conv targs.mapKeys k cls.mapKeys s.mapKeys
end

def Sym.mapKeys : Sym → Sym
  | .decl d => .decl (d.mapKeys f)
  | .table t cls c v target => .table t (cls.mapKeys f) c v (target.mapKeys f)
  | .baseDescriptor nv vb vt fl cls => .baseDescriptor nv vb vt fl (cls.mapKeys f)
  | .baseArray cls => .baseArray (cls.mapKeys f)
  | .hierarchy cls => .hierarchy (cls.mapKeys f)
  | .vcall cls n cc => .vcall (cls.mapKeys f) n cc
  | .guard th vis scope n => .guard th vis (scope.mapKeys f) n
  | .initVar dt st name scope ty k s => .initVar dt st (name.mapKeys f) (scope.mapKeys f) (ty.mapKeys f) k (s.mapKeys f)
  | .initName dt name scope k s => .initName dt name (scope.mapKeys f) k (s.mapKeys f)

def EndSym.mapKeys : EndSym → EndSym
  | .typeDescriptor t => .typeDescriptor (t.mapKeys f)
  | .typeName t => .typeName (t.mapKeys f)
  | .guard th vis scope => .guard th vis (scope.mapKeys f)

end

/-- The keys of the anonymous namespaces among names. -/
def anonKeys (l : List Seg) : List Text := l.filterMap fun | .anon k => some k | _ => none

/-- The texts of the other names. -/
def otherTexts (E : Env) (l : List Seg) : List Text := l.filterMap fun | .anon _ => none | s => some (s.cpp E)

end Undname.Spec.Cxx
