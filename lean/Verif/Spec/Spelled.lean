/-
  Specification: mangled names without back-references. Every part of a name and every parameter is written in full
  wherever it occurs, so that nothing has to be remembered.
-/
import Verif.Spec.MangledSym

namespace Undname.Spec.Cxx

section
variable (w : Bool)

mutual
/-- A type, without the qualifiers of a fundamental or class type (these are written by the context). -/
def Ty.spell : Ty → Text
  | .prim k _ _ => primCode k
  | .tag k p _ _ => tagCode k ++ p.spell
  | .ptr k u to => k.code ++ extCode w k.restrict u ++ to.letter :: to.spell
  | .fptr k s => k.code ++ c!"6" ++ s.spell
  | .aptr k c v dims el => k.code ++ extCode w k.restrict false ++ c!"A" ++ arrayCode c v dims ++ el.spell
  | .mptr k u cls to => k.code ++ extCode w k.restrict u ++ to.memberLetter :: cls.spell ++ to.spell
  | .mfptr k cls q s => k.code ++ c!"8" ++ cls.spell ++ q.code w ++ s.spell
/-- A function type: convention, result, parameters, exception specification. -/
def Sig.spell : Sig → Text
  | .mk cc ret ps variadic noexc =>
    cc :: ret.retCode ++ ret.spell ++
      (if ps.spell.isEmpty && !variadic then c!"X" else ps.spell ++ (if variadic then c!"Z" else c!"@")) ++
      (if noexc then c!"_E" else c!"Z")
/-- Parameters, all in full. -/
def Tys.spell : Tys → Text
  | .nil => []
  | .cons t ts => t.spell ++ ts.spell
/-- A qualified name: the parts, and `@`. -/
def Path.spell : Path → Text
  | .nil => c!"@"
  | .cons s p => s.spell ++ p.spell
/-- A part of a name, in full. -/
def Seg.spell : Seg → Text
  | .id s => s ++ c!"@"
  | .tm s as => c!"?$" ++ s ++ c!"@" ++ as.spell
  | .anon key => c!"?A" ++ key ++ c!"@"
  | .loc n d => c!"?" ++ encode n ++ c!"?" ++ d.spell
/-- Template arguments and `@`. -/
def Args.spell : Args → Text
  | .nil => c!"@"
  | .ty t as => t.argCode ++ t.spell ++ as.spell
  | .int neg n as => c!"$0" ++ (if neg then c!"?" else []) ++ encode n ++ as.spell
  | .pack as => c!"$$V" ++ as.spell
  | .fn s as => c!"$$A6" ++ s.spell ++ as.spell
  | .mfn q s as => c!"$$A8@@" ++ q.code w ++ s.spell ++ as.spell
  | .arr c v dims el as => c!"$$B" ++ arrayCode c v dims ++ el.spell ++ as.spell
  | .tmpl p as => c!"$$Y" ++ p.spell ++ as.spell
  | .addr d as => c!"$1" ++ d.spell ++ as.spell
  | .ref d as => c!"$E" ++ d.spell ++ as.spell
  | .memFn d offs as => c!"$" ++ memFnCode offs.length ++ d.spell ++ offs.flatMap encodeInt ++ as.spell
  | .memData offs as => c!"$" ++ (if offs.length = 2 then c!"F" else c!"G") ++ offs.flatMap encodeInt ++ as.spell
/-- The code of something, or an instantiation of a template of it. -/
def Targs.spell : Targs → Text → Text
  | .none, code => code
  | .some as, code => c!"?$" ++ code ++ as.spell
/-- The name of a symbol. -/
def Head.spell : Head → Text
  | .id s => s ++ c!"@"
  | .tm s as => c!"?$" ++ s ++ c!"@" ++ as.spell
  | .op o ta => ta.spell (opCode o)
  | .lit s => c!"?__K" ++ s ++ c!"@"
/-- The symbol. -/
def Decl.spell : Decl → Text
  | .var st name scope ty => c!"?" ++ name.spell ++ scope.spell ++ [st.code] ++ ty.spell ++ ty.spellAgain
  | .fn k name scope s => c!"?" ++ name.spell ++ scope.spell ++ k.code ++ k.thisCode w ++ s.spell
  | .structor dtor targs k s scope cc ps variadic noexc =>
    c!"?" ++ targs.spell (if dtor then c!"?1" else c!"?0") ++ s.spell ++ scope.spell ++ k.code ++ k.thisCode w ++ [cc, '@'] ++
      (if ps.spell.isEmpty && !variadic then c!"X" else ps.spell ++ (if variadic then c!"Z" else c!"@")) ++ (if noexc then c!"_E" else c!"Z")
  | .conv targs k cls s => c!"?" ++ targs.spell c!"?B" ++ cls.spell ++ k.code ++ k.thisCode w ++ s.spell
/-- After its type, a variable repeats the qualifiers; a pointer to a member repeats the class. -/
def Ty.spellAgain : Ty → Text
  | .prim _ c v | .tag _ _ c v => [Spec.Ty.cvLetter c v]
  | .ptr k u to => extCode w k.restrict u ++ [to.letter]
  | .fptr _ _ => extCode w false false ++ c!"A"
  | .aptr k .. => extCode w k.restrict false ++ c!"A"
  | .mptr k u cls to => extCode w k.restrict u ++ [to.memberLetter] ++ cls.spell
  | .mfptr _ cls _ _ => extCode w false false ++ c!"Q" ++ cls.spell
end

/-- Other symbols. -/
def Sym.spell : Sym → Text
  | .decl d => d.spell w
  | .table t cls c v target =>
    t.code ++ cls.spell w ++ c!"6" ++ [Spec.Ty.cvLetter c v] ++ target.spell w ++ (if target = .nil then [] else c!"@")
  | .baseDescriptor nv vb vt fl cls => c!"??_R1" ++ encode nv ++ encodeInt vb ++ encode vt ++ encode fl ++ cls.spell w ++ c!"8"
  | .baseArray cls => c!"??_R2" ++ cls.spell w ++ c!"8"
  | .hierarchy cls => c!"??_R3" ++ cls.spell w ++ c!"8"
  | .vcall cls n cc => c!"??_9" ++ cls.spell w ++ c!"$B" ++ encode n ++ c!"A" ++ [cc]
  | .guard th vis scope n => (if th then c!"??__J" else c!"??_B") ++ scope.spell w ++ (if vis then c!"5" else c!"4IA") ++ encode n
  | .initVar dt st name scope ty k s =>
    (if dt then c!"??__F" else c!"??__E") ++ (Decl.var st name scope ty).spell w ++ c!"@@" ++ k.code ++ k.thisCode w ++ s.spell w
  | .initName dt name scope k s =>
    (if dt then c!"??__F" else c!"??__E") ++ name ++ c!"@" ++ scope.spell w ++ k.code ++ k.thisCode w ++ s.spell w

def EndSym.spell : EndSym → Text
  | .typeDescriptor t => c!"??_R0" ++ t.retCode ++ t.spell w ++ c!"@8"
  | .typeName t => c!"." ++ t.retCode ++ t.spell w
  | .guard th vis scope => (if th then c!"??__J" else c!"??_B") ++ scope.spell w ++ (if vis then c!"5" else c!"4IA")

end

end Undname.Spec.Cxx
