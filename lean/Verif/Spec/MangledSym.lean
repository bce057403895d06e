/-
  Specification: the other symbols a compiler emits (tables of classes, run-time type information, guards of
  static variables, functions that initialize and destroy variables), as it mangles them and as they are shown.
-/
import Verif.Spec.Mangler

namespace Undname.Spec.Cxx

/-- Tables of a class. -/
inductive Table where
  | vftable
  | vbtable
  | localVftable
  | locator
  deriving DecidableEq, Repr

def Table.code : Table → Text
  | .vftable => c!"??_7"
  | .vbtable => c!"??_8"
  | .localVftable => c!"??_S"
  | .locator => c!"??_R4"

def Table.name : Table → Text
  | .vftable => c!"`vftable'"
  | .vbtable => c!"`vbtable'"
  | .localVftable => c!"`local vftable'"
  | .locator => c!"`RTTI Complete Object Locator'"

/-- Symbols. -/
inductive Sym where
  /-- a variable or function -/
  | decl (d : Decl)
  /-- a table of the class `cls`, for the base class `target` if that is not empty -/
  | table (t : Table) (cls : Path) (c v : Bool) (target : Path)
  | baseDescriptor (nv : Nat) (vbptr : Int) (vbtable flags : Nat) (cls : Path)
  | baseArray (cls : Path)
  | hierarchy (cls : Path)
  /-- the function that calls a virtual function through the table at an offset -/
  | vcall (cls : Path) (off : Nat) (cc : Char)
  /-- the guard number `n` of the static variables in a scope -/
  | guard (thread visible : Bool) (scope : Path) (n : Nat)
  /-- the function that initializes (or destroys) a variable given by its symbol -/
  | initVar (dtor : Bool) (st : Storage) (name : Head) (scope : Path) (ty : Ty) (k : Kind) (s : Sig)
  /-- the function that initializes (or destroys) a variable given by its name -/
  | initName (dtor : Bool) (name : Text) (scope : Path) (k : Kind) (s : Sig)

/-- Symbols which nothing may follow. -/
inductive EndSym where
  /-- the descriptor of a type -/
  | typeDescriptor (t : Ty)
  /-- the name in the descriptor of a type -/
  | typeName (t : Ty)
  /-- the guard of the static variables in a scope -/
  | guard (thread visible : Bool) (scope : Path)

/-! ### Their texts -/

/-- `const volatile ` before a table. -/
def cvBefore (c v : Bool) : Text := (if c then c!"const " else []) ++ (if v then c!"volatile " else [])

def guardName (thread : Bool) (n : Nat) : Text :=
  (if thread then c!"`local static thread guard'" else c!"`local static guard'") ++ (if n = 0 then [] else c!"{" ++ nat n ++ c!"}")

def initText (dtor : Bool) : Text := if dtor then c!"`dynamic atexit destructor for " else c!"`dynamic initializer for "

def Sym.cpp (E : Env) : Sym → Text
  | .decl d => d.cpp E
  | .table t cls c v target => part (!E.flags.name_only) (cvBefore c v) ++ showPath (t.name :: cls.names E) ++
      (if target = .nil then [] else c!"{for `" ++ showPath (target.names E) ++ c!"'}")
  | .baseDescriptor nv vb vt fl cls =>
    showPath ((c!"`RTTI Base Class Descriptor at (" ++ nat nv ++ c!", " ++ sint vb ++ c!", " ++ nat vt ++ c!", " ++ nat fl ++ c!")'") :: cls.names E)
  | .baseArray cls => showPath (c!"`RTTI Base Class Array'" :: cls.names E)
  | .hierarchy cls => showPath (c!"`RTTI Class Hierarchy Descriptor'" :: cls.names E)
  | .vcall cls n cc => part (!E.flags.name_only) c!"[thunk]: " ++ part (shows.conv E) (convCpp E cc ++ c!" ") ++
      showPath ((c!"`vcall'{" ++ nat n ++ part (!E.flags.name_only) c!", {flat}" ++ c!"}") :: cls.names E)
  | .guard th _ scope n => showPath (guardName th n :: scope.names E)
  | .initVar dt st name scope ty k s => k.cpp E ++ s.ret E ++ s.conv E ++
      (initText dt ++ c!"`" ++ (Decl.var st name scope ty).cpp E ++ c!"''") ++ k.adjCpp ++ part (shows.params E) (s.params E) ++ s.right E k.this
  | .initName dt name scope k s => k.cpp E ++ s.ret E ++ s.conv E ++
      (initText dt ++ c!"'" ++ showPath (name :: scope.names E) ++ c!"''") ++ k.adjCpp ++ part (shows.params E) (s.params E) ++ s.right E k.this

def EndSym.cpp (E : Env) : EndSym → Text
  | .typeDescriptor t => if shows.varType E then sp E (t.left E) ++ c!"`RTTI Type Descriptor'" ++ t.right E else c!"`RTTI Type Descriptor'"
  | .typeName t => if E.flags.name_only then t.cpp E else sp E (t.cpp E) ++ c!"`RTTI Type Descriptor Name'"
  | .guard th _ scope => showPath (guardName th 0 :: scope.names E)

/-! ### The mangler -/

section
variable (w : Bool)

def Sym.mangle : Sym → Text
  | .decl d => (d.mangle w {}).1
  | .table t cls c v target =>
    let (x, st) := cls.mangle w {}
    t.code ++ x ++ c!"6" ++ [Spec.Ty.cvLetter c v] ++ (target.mangle w st).1 ++ (if target = .nil then [] else c!"@")
  | .baseDescriptor nv vb vt fl cls => c!"??_R1" ++ encode nv ++ encodeInt vb ++ encode vt ++ encode fl ++ (cls.mangle w {}).1 ++ c!"8"
  | .baseArray cls => c!"??_R2" ++ (cls.mangle w {}).1 ++ c!"8"
  | .hierarchy cls => c!"??_R3" ++ (cls.mangle w {}).1 ++ c!"8"
  | .vcall cls n cc => c!"??_9" ++ (cls.mangle w {}).1 ++ c!"$B" ++ encode n ++ c!"A" ++ [cc]
  | .guard th vis scope n => (if th then c!"??__J" else c!"??_B") ++ (scope.mangle w {}).1 ++ (if vis then c!"5" else c!"4IA") ++ encode n
  | .initVar dt st name scope ty k s =>
    let (x, seen) := (Decl.var st name scope ty).mangle w {}
    (if dt then c!"??__F" else c!"??__E") ++ x ++ c!"@@" ++ k.code ++ k.thisCode w ++ (s.mangle w seen).1
  | .initName dt name scope k s => (if dt then c!"??__F" else c!"??__E") ++ ((Decl.fn k (.id name) scope s).mangle w {}).1.drop 1

def EndSym.mangle : EndSym → Text
  | .typeDescriptor t => c!"??_R0" ++ t.retCode ++ (t.mangle w {}).1 ++ c!"@8"
  | .typeName t => c!"." ++ t.retCode ++ (t.mangle w {}).1
  | .guard th vis scope => (if th then c!"??__J" else c!"??_B") ++ (scope.mangle w {}).1 ++ (if vis then c!"5" else c!"4IA")

end

/-! ### Well-formed symbols -/

def Sym.Ok (E : Env) : Sym → Prop
  | .decl d => d.Ok E
  | .table _ cls _ _ target => cls.Ok E ∧ (target = .nil ∨ target.IsType E)
  | .baseDescriptor nv vb vt fl cls => (nv < 2 ^ 32 ∧ Int32 vb ∧ vt < 2 ^ 32 ∧ fl < 2 ^ 32) ∧ cls.Ok E
  | .baseArray cls | .hierarchy cls => cls.Ok E
  | .vcall cls n cc => n < 2 ^ 64 ∧ (convWord cc).isSome = true ∧ cls.Ok E
  | .guard _ _ scope n => n < 2 ^ 32 ∧ scope.Ok E
  | .initVar _ st name scope ty k s => (Decl.var st name scope ty).Ok E ∧ k.Ok ∧ s.Ok E
  | .initName _ name scope k s => (Decl.fn k (.id name) scope s).Ok E

def EndSym.Ok (E : Env) : EndSym → Prop
  | .typeDescriptor t | .typeName t => t.Ok E
  | .guard _ _ scope => scope.Ok E

def Sym.keys : Sym → List Seg
  | .decl d => d.keys
  | .table _ cls _ _ target => cls.keys ++ target.keys
  | .baseDescriptor _ _ _ _ cls | .baseArray cls | .hierarchy cls | .vcall cls _ _ => cls.keys
  | .guard _ _ scope _ => scope.keys
  | .initVar _ st name scope ty _ s => (Decl.var st name scope ty).keys ++ s.keys
  | .initName _ name scope k s => (Decl.fn k (.id name) scope s).keys

def EndSym.keys : EndSym → List Seg
  | .typeDescriptor t | .typeName t => t.keys
  | .guard _ _ scope => scope.keys

end Undname.Spec.Cxx
