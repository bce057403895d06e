/-
  Trees represented in the node cache, and what rendering a representation writes.
-/
import Verif.Spec.Tree
import Verif.Proof.Head

namespace Undname
open Spec (CV FnKind Sig Adjust Pr Access)
open Spec hiding sp

/-- The cache, with a mark on the nodes that will not be changed any more. -/
abbrev World := List (Node × Bool)

namespace World
/-- The nodes. -/
def c (w : World) : Cache := w.map Prod.fst

theorem c_get {w : World} {h : Handle} {nd : Node} {b : Bool} (e : w[h]? = some (nd, b)) : w.c[h]? = some nd := by
  simp [World.c, e]
end World

/-- The qualifier bits stand for the qualifiers. -/
structure QRel (q : Qualifiers) (cv : CV) : Prop where
  c : q.is_const = cv.c
  v : q.is_volatile = cv.v
  r : q.is_restrict = cv.r
  u : q.is_unaligned = cv.u

/-- The function class bits stand for the kind of function. -/
structure KRel (f : FuncClass) (k : FnKind) : Prop where
  publ : f.is_public = (k.access == some .publ)
  prot : f.is_protected = (k.access == some .prot)
  priv : f.is_private = (k.access == some .priv)
  stat : (!f.is_global && f.is_static) = k.isStatic
  virt : f.is_virtual = k.isVirtual
  extc : f.is_extern_c = k.externC
  bare : f.no_parameter_list = k.bare

/-- The fields of a signature node other than its children. -/
structure SRel (n : FuncSig) (f : Sig) : Prop where
  kind : KRel n.function_class f.kind
  cv : QRel n.quals f.cv
  conv : n.call_convention = f.conv
  ref : n.ref_qualifier = f.ref
  variadic : n.is_variadic = f.variadic
  noexc : n.is_noexcept = f.isNoexcept

/-- What can represent a tree: a node, a handle, or handles. -/
inductive Obj where
  | N (nd : Node)
  | H (h : Handle)
  | L (hs : List Handle)

/-- The handles are those of integer literals. -/
def Ints (w : World) : List Nat → List Handle → Prop
  | [], [] => True
  | n :: ns, h :: hs => w[h]? = some (.IntegerLiteral n false, true) ∧ Ints w ns hs
  | _, _ => False

/-- The object stands for the tree. -/
inductive Rep (w : World) : T → Obj → Prop where
  | nil : Rep w .nil (.L [])
  | cons {a as : T} {h : Handle} {hs : List Handle} : Rep w a (.H h) → Rep w as (.L hs) →
      Rep w (.cons a as) (.L (h :: hs))
  | handle {t : T} {h : Handle} {nd : Node} : w[h]? = some (nd, true) → Rep w t (.N nd) → Rep w t (.H h)
  | prim {q cv k} : QRel q cv → Rep w (.prim cv k) (.N (.PrimitiveType q k))
  | tag {q cv k n h} : QRel q cv → Rep w n (.H h) → Rep w (.tag cv k n) (.N (.TagType q h k))
  | ptr {q cv a cls to co h} : QRel q cv → Rep w cls (.L (Option.toList co)) → Rep w to (.H h) →
      Rep w (.ptr cv a cls to) (.N (.PointerType q (some a) co h))
  | array {q cv} {dims : List Nat} {el d h} {hs : List Handle} : QRel q cv →
      w[d]? = some (.NodeArray hs, true) →
      Ints w dims hs → Rep w el (.H h) → Rep w (.array cv dims el) (.N (.ArrayType q d h))
  | sig {n f ret ps} : SRel n f → Rep w ret (.L n.return_type.toList) → Rep w ps (.L n.params.toList) →
      Rep w (.sig f ret ps) (.N (.FunctionSignature n))
  | thunk {n f adj a ret ps} : SRel n f → thunkText n.function_class a = adj.text →
      Rep w ret (.L n.return_type.toList) → Rep w ps (.L n.params.toList) →
      Rep w (.thunk f adj ret ps) (.N (.ThunkSignature n a))
  | custom {q i h} : Rep w i (.H h) → Rep w (.custom i) (.N (.CustomType q h))
  | arr {items hs} : Rep w items (.L hs) → Rep w (.arr items) (.N (.NodeArray hs))
  | qname {items h hs} : w[h]? = some (.NodeArray hs, true) → Rep w items (.L hs) →
      Rep w (.qname items) (.N (.QualifiedName h))
  | named {s ta o} : Rep w ta (.L (Option.toList o)) → Rep w (.named s ta) (.N (.NamedIdentifier o s))
  | op {k ta o} : Rep w ta (.L (Option.toList o)) → Rep w (.op k ta) (.N (.IntrinsicFunctionIdentifier o k))
  | lit {s ta o} : Rep w ta (.L (Option.toList o)) → Rep w (.lit s ta) (.N (.LiteralOperatorIdentifier o s))
  | conv {ta tg o o'} : Rep w ta (.L (Option.toList o)) → Rep w tg (.L (Option.toList o')) →
      Rep w (.conv ta tg) (.N (.ConversionOperatorIdentifier o o'))
  | structor {d cls ta o o'} : Rep w cls (.L (Option.toList o)) → Rep w ta (.L (Option.toList o')) →
      Rep w (.structor d cls ta) (.N (.StructorIdentifier o' o d))
  | vcall {n} : Rep w (.vcall n) (.N (.VcallThunkIdentifier none n))
  | guardId {t i} : Rep w (.guardId t i) (.N (.LocalStaticGuardIdentifier none t i))
  | baseDescr {a b c d} : Rep w (.baseDescr a b c d) (.N (.RttiBaseClassDescriptor none a b c d))
  | dynVar {d v h} : Rep w v (.H h) → Rep w (.dynVar d v) (.N (.DynamicStructorIdentifier none (.Variable h) d))
  | dynFn {d n h} : Rep w n (.H h) → Rep w (.dynFn d n) (.N (.DynamicStructorIdentifier none (.Name h) d))
  | addr {s offs o aff m} : Rep w s (.L (Option.toList o)) →
      Rep w (.addr (aff == some .Pointer) s offs) (.N (.TemplateParameterReference o offs aff m))
  | int {v n} : Rep w (.int v n) (.N (.IntegerLiteral v n))
  | var {sc n ty h o} : Rep w n (.H h) → Rep w ty (.L (Option.toList o)) →
      Rep w (.var sc n ty) (.N (.VariableSymbol (some (.Qualified h)) sc o))
  | typeDescr {ty h} : Rep w ty (.H h) → Rep w (.typeDescr ty) (.N (.VariableSymbol (some .TypeDescriptor) none (some h)))
  | fn {n sg h h'} : Rep w n (.H h) → Rep w sg (.H h') → Rep w (.fn n sg) (.N (.FunctionSymbol (some h) h'))
  | table {q cv n tg h o} : QRel q cv → Rep w n (.H h) → Rep w tg (.L (Option.toList o)) →
      Rep w (.table cv n tg) (.N (.SpecialTableSymbol h o q))
  | md5 {n h} : Rep w n (.H h) → Rep w (.same n) (.N (.Md5Symbol h))
  | gvar {n h v} : Rep w n (.H h) → Rep w (.same n) (.N (.LocalStaticGuardVariable h v))
  | str {k s b} : Rep w (.str k s b) (.N (.EncodedStringLiteral none s b k))

/-- `w'` keeps the marked nodes of `w`. -/
def Vis (w w' : World) : Prop := ∀ (i : Handle) (nd : Node), w[i]? = some (nd, true) → w'[i]? = some (nd, true)

theorem Vis.refl (w : World) : Vis w w := fun _ _ h => h
theorem Vis.trans {a b c : World} (h1 : Vis a b) (h2 : Vis b c) : Vis a c := fun i nd h => h2 i nd (h1 i nd h)

theorem Vis.prefix {w w' : World} (h : w <+: w') : Vis w w' := by
  intro i nd hi
  obtain ⟨t, rfl⟩ := h
  obtain ⟨hl, _⟩ := List.getElem?_eq_some_iff.1 hi
  rw [List.getElem?_append_left hl]; exact hi

theorem Vis.push {w : World} (x : Node × Bool) : Vis w (w ++ [x]) := Vis.prefix (List.prefix_append _ _)

theorem Vis.set {w : World} {i : Handle} {nd : Node} (h : w[i]? = some (nd, false)) (x : Node × Bool) :
    Vis w (w.set i x) := by
  intro j nd' hj
  have : i ≠ j := by rintro rfl; rw [h] at hj; simp at hj
  rw [List.getElem?_set_ne this]; exact hj

theorem Ints.mono {w w' : World} (hv : Vis w w') : ∀ {ns : List Nat} {hs : List Handle}, Ints w ns hs → Ints w' ns hs
  | [], [], h => h
  | _ :: _, _ :: _, h => ⟨hv _ _ h.1, Ints.mono hv h.2⟩
  | [], _ :: _, h => h.elim
  | _ :: _, [], h => h.elim

theorem Rep.mono {w w' : World} (hv : Vis w w') {t : T} {o : Obj} (h : Rep w t o) : Rep w' t o := by
  induction h with
  | nil => exact .nil
  | cons _ _ a b => exact .cons a b
  | handle e _ a => exact .handle (hv _ _ e) a
  | prim h => exact .prim h
  | tag h _ a => exact .tag h a
  | ptr h _ _ a b => exact .ptr h a b
  | array h e f _ a => exact .array h (hv _ _ e) (f.mono hv) a
  | sig h _ _ a b => exact .sig h a b
  | thunk h e _ _ a b => exact .thunk h e a b
  | custom _ a => exact .custom a
  | arr _ a => exact .arr a
  | qname e _ a => exact .qname (hv _ _ e) a
  | named _ a => exact .named a
  | op _ a => exact .op a
  | lit _ a => exact .lit a
  | conv _ _ a b => exact .conv a b
  | structor _ _ a b => exact .structor a b
  | vcall => exact .vcall
  | guardId => exact .guardId
  | baseDescr => exact .baseDescr
  | dynVar _ a => exact .dynVar a
  | dynFn _ a => exact .dynFn a
  | addr _ a => exact .addr a
  | int => exact .int
  | var _ _ a b => exact .var a b
  | typeDescr _ a => exact .typeDescr a
  | fn _ _ a b => exact .fn a b
  | table h _ _ a b => exact .table h a b
  | md5 _ a => exact .md5 a
  | gvar _ a => exact .gvar a
  | str => exact .str

/-! ### Writers with a known effect -/

/-- The writer turns the text `w` into `f w`, or fails because `f w` is beyond the limit, or crashes. -/
structure Em (m : W Unit) (f : Text → Text) : Prop where
  grow : ∀ w, w <+: f w
  run : ∀ w, utf8Len w < OUTPUT_LIMIT → match exec m w with
    | .ok (_, w') => w' = f w ∧ utf8Len (f w) < OUTPUT_LIMIT
    | .error (.crash _) => True
    | .error (.err e) => e = .Io .OutOfMemory ∧ ¬ utf8Len (f w) < OUTPUT_LIMIT

theorem utf8Len_prefix {a b : Text} (h : a <+: b) : utf8Len a ≤ utf8Len b := by
  obtain ⟨t, rfl⟩ := h
  rw [Emit.utf8Len_append]; omega

namespace Em
variable {m : W Unit} {k : Unit → W Unit} {f g : Text → Text}

theorem write (t : Text) : Em (write t) (· ++ t) where
  grow w := List.prefix_append _ _
  run w _ := by
    have : exec (Undname.write t) w = if utf8Len t + utf8Len w < OUTPUT_LIMIT then .ok ((), w ++ t)
      else .error (.err (.Io .OutOfMemory)) := rfl
    rw [this, Emit.utf8Len_append]
    split
    · split at * <;> simp_all <;> omega
    · split at * <;> simp_all
    · split at * <;> simp_all; omega

theorem id : Em (SM.pure ()) id := ⟨fun _ => List.prefix_refl _, fun _ h => ⟨rfl, h⟩⟩
theorem id' : Em (Pure.pure ()) (fun w => w) := id

theorem crash (c : Crash) (h : ∀ w, w <+: f w) : Em (SM.crash c) f := ⟨h, fun _ _ => trivial⟩

theorem bind (h1 : Em m f) (h2 : Em (k ()) g) : Em (m >>= k) (fun w => g (f w)) where
  grow w := (h1.grow w).trans (h2.grow _)
  run w hw := by
    have a := h1.run w hw
    rw [run_bind_eq]
    cases hm : exec m w with
    | ok p =>
      obtain ⟨⟨⟩, w'⟩ := p
      rw [hm] at a
      obtain ⟨rfl, ha⟩ := a
      exact h2.run _ ha
    | error e =>
      rw [hm] at a
      cases e with
      | crash c => trivial
      | err e =>
        refine ⟨a.1, fun h => a.2 ?_⟩
        exact Nat.lt_of_le_of_lt (utf8Len_prefix (h2.grow (f w))) h

theorem congr (h : Em m f) (e : ∀ w, f w = g w) : Em m g := by
  have : f = g := funext e
  exact this ▸ h

theorem bind' (h1 : Em m f) (h2 : Em (k ()) g) {r : Text → Text} (e : ∀ w, r w = g (f w)) : Em (m >>= k) r :=
  (bind h1 h2).congr fun w => (e w).symm

theorem whenB {b : Bool} (h : b = true → Em m f) : Em (whenB b m) (fun w => if b then f w else w) := by
  cases b
  · exact id
  · exact h rfl

theorem whenB_text {b : Bool} (t : Text) : Em (Undname.whenB b (Undname.write t)) (fun w => w ++ if b then t else []) := by
  cases b
  · exact id.congr fun w => by simp
  · exact write t

theorem lift {α : Type} {x : Except Fail α} {j : α → W Unit} (hx : ∀ e, x ≠ .error (.err e))
    (hg : ∀ w, w <+: f w) (h : ∀ v, x = .ok v → Em (j v) f) : Em (SM.lift x >>= j) f := by
  cases x with
  | ok v => exact ⟨(h v rfl).grow, fun w hw => (h v rfl).run w hw⟩
  | error e =>
    cases e with
    | err e => exact (hx e rfl).elim
    | crash c => exact ⟨hg, fun w hw => trivial⟩

theorem get {j : Text → W Unit} (hg : ∀ w, w <+: f w)
    (h : ∀ w, ∃ f', f' w = f w ∧ Em (j w) f') : Em (SM.get >>= j) f where
  grow := hg
  run w hw := by
    obtain ⟨f', e, h⟩ := h w
    have := h.run w hw
    rw [e] at this
    exact this

end Em

theorem isAlnum_eq (E : Env) (c : Char) : (isAlphanumeric E.uni c || c == '>') = isWordEnd E c := by
  unfold isAlphanumeric isWordEnd
  rw [Bool.or_comm]
  congr 1
  split
  · rw [Bool.eq_iff_iff]
    simp only [isDigit, isUpper, isLower, Char.isAlphanum, Char.isAlpha, Char.isUpper, Char.isLower,
      Char.isDigit, Bool.or_eq_true, Bool.and_eq_true, decide_eq_true_eq, UInt32.le_iff_toNat_le, ge_iff_le,
      Char.toNat]
    omega
  · rfl

theorem Em.sp (E : Env) : Em (output_space_if_necessary E) (Spec.sp E) := by
  have hg : ∀ w, w <+: Spec.sp E w := by
    intro w
    unfold Spec.sp
    split
    · split
      · exact List.prefix_append _ _
      · exact List.prefix_refl _
    · exact List.prefix_refl _
  unfold output_space_if_necessary
  refine Em.get hg fun w => ?_
  refine ⟨fun x => match w.getLast? with
    | some c => if isWordEnd E c then x ++ c!" " else x
    | none => x, rfl, ?_⟩
  cases w.getLast? with
  | none => exact Em.id
  | some c =>
    simp only [isAlnum_eq]
    exact Em.whenB fun _ => Em.write _

end Undname
