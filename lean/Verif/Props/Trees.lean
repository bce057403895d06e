/-
  Property theorems C04: the graph of nodes that is rendered is finite and acyclic.
-/
import Verif.Props.Safety
import Verif.Proof.Eval

namespace Undname
namespace Props

/-- The handles stored in a node (all its fields of handle type). -/
def handles : Node → List Handle
  | .PrimitiveType .. => []
  | .FunctionSignature f => f.return_type.toList ++ f.params.toList
  | .ThunkSignature f _ => f.return_type.toList ++ f.params.toList
  | .PointerType _ _ class_parent pointee => class_parent.toList ++ [pointee]
  | .TagType _ qualified_name _ => [qualified_name]
  | .ArrayType _ dimensions element_type => [dimensions, element_type]
  | .CustomType _ identifier => [identifier]
  | .VcallThunkIdentifier tp _ => tp.toList
  | .DynamicStructorIdentifier tp (.Variable v) _ => tp.toList ++ [v]
  | .DynamicStructorIdentifier tp (.Name n) _ => tp.toList ++ [n]
  | .NamedIdentifier tp _ => tp.toList
  | .IntrinsicFunctionIdentifier tp _ => tp.toList
  | .LiteralOperatorIdentifier tp _ => tp.toList
  | .LocalStaticGuardIdentifier tp _ _ => tp.toList
  | .ConversionOperatorIdentifier tp target_type => tp.toList ++ target_type.toList
  | .StructorIdentifier tp cls _ => tp.toList ++ cls.toList
  | .RttiBaseClassDescriptor tp _ _ _ _ => tp.toList
  | .NodeArray nodes => nodes
  | .QualifiedName components => [components]
  | .TemplateParameterReference symbol _ _ _ => symbol.toList
  | .IntegerLiteral .. => []
  | .Md5Symbol name => [name]
  | .SpecialTableSymbol name target_name _ => name :: target_name.toList
  | .LocalStaticGuardVariable name _ => [name]
  | .EncodedStringLiteral name _ _ _ => name.toList
  | .VariableSymbol (some (.Qualified name)) _ type => name :: type.toList
  | .VariableSymbol _ _ type => type.toList
  | .FunctionSymbol name signature => name.toList ++ [signature]

/-- The node at `h` stores the handle `h'`. -/
def Edge (c : Cache) (h h' : Handle) : Prop := ∃ nd, c[h]? = some nd ∧ h' ∈ handles nd

/-- A path of edges. -/
def Path (c : Cache) : List Handle → Prop
  | [] => True
  | [_] => True
  | h :: h' :: l => Edge c h h' ∧ Path c (h' :: l)

/-- The graph reachable from `h` is finite and acyclic: every path from `h` stays inside the cache and visits
no node twice. -/
def Acyclic (c : Cache) (h : Handle) : Prop :=
  ∀ l, Path c (h :: l) → (h :: l).Nodup ∧ ∀ x ∈ h :: l, x < c.length

theorem optKid_handles (g : GK) (o : Option Handle) : (optKid g o).map Prod.snd = o.toList := by
  cases o <;> rfl

theorem handles_kids (g : GK) (nd : Node) : handles nd = (kids g nd).map Prod.snd := by
  rw [kids_handles g .any]
  show handles nd = (kidsOf nd).map Prod.snd
  unfold handles kidsOf
  split <;> simp [optKid_handles, sigKids, Function.comp_def]

variable {T : TSpec} {c : Cache} {A : Handle → Prop} {g : GK} {h : Handle} {n : Nat}

/-- Paths from the root of a good tree avoid nodes outside `A`. -/
theorem path_good (l : List Handle) {A : Handle → Prop} {g : GK} {h : Handle} (hg : Good T c A g h)
    (hp : Path c (h :: l)) : (h :: l).Nodup ∧ ∀ x ∈ h :: l, x < c.length ∧ A x := by
  induction l generalizing A g h with
  | nil => exact ⟨by simp, fun x hx => by simp at hx; subst hx; exact ⟨hg.lt, hg.elim.1⟩⟩
  | cons h' l ih =>
    obtain ⟨ha, nd, h1, _, _, h4⟩ := hg.kids_avoid
    obtain ⟨⟨nd', e1, e2⟩, hp'⟩ := hp
    rw [h1] at e1
    cases e1
    rw [handles_kids g] at e2
    obtain ⟨p, hp1, rfl⟩ := List.mem_map.1 e2
    obtain ⟨i1, i2⟩ := ih (h4 p hp1) hp'
    refine ⟨List.nodup_cons.2 ⟨fun hm => (i2 h hm).2.2 rfl, i1⟩, fun x hx => ?_⟩
    rcases List.mem_cons.1 hx with rfl | hx
    · exact ⟨hg.lt, ha⟩
    · exact ⟨(i2 x hx).1, (i2 x hx).2.1⟩

theorem acyclic_good (hg : Good T c A g h) : Acyclic c h := fun l hp =>
  ⟨(path_good l hg hp).1, fun x hx => ((path_good l hg hp).2 x hx).1⟩

/-- **C04**: when parsing succeeds, the graph of nodes reachable from the resulting symbol is acyclic. -/
theorem C04_result_acyclic (E : Env) (m : Text) {h : Handle} {s : St}
    (hp : parse (render E) m = .ok (h, s)) : Acyclic s.cache h :=
  acyclic_good ((parse_wp E (charSpec_flags m E) (fun _ h => h)).ok hp).2.1

/-- **C04**: hence a chain of nested nodes has at most as many nodes as there are. -/
theorem C04_depth (E : Env) (m : Text) {h : Handle} {s : St} (hp : parse (render E) m = .ok (h, s))
    {l : List Handle} (hl : Path s.cache (h :: l)) : (h :: l).length ≤ s.cache.length := by
  obtain ⟨h1, h2⟩ := C04_result_acyclic E m hp l hl
  have hsub : ∀ x ∈ h :: l, x ∈ List.range s.cache.length := fun x hx => List.mem_range.2 (h2 x hx)
  have := h1.length_le_of_subset hsub
  simpa using this

open Classical in
/-- Rendering that refuses (with a panic) to render a handle whose graph is not acyclic. -/
noncomputable def guarded (E : Env) : Renderer := fun c k h =>
  if Acyclic c h then render E c k h else SM.crash .panic

theorem guarded_good (E : Env) (hN : FlagsOK T E) : GoodRend T (guarded E) := by
  intro c A kd h hsz hg
  unfold guarded
  rw [if_pos (acyclic_good hg)]
  exact goodRend E hN c A kd h hsz hg

/-- **C04**, while parsing: parsing with the refusing renderer never panics either, so whenever a node is rendered
during parsing its graph is acyclic. -/
theorem C04_always_acyclic (E : Env) (m : Text) (x : Crash) : parse (guarded E) m ≠ .error (.crash x) := by
  have h := parse_ok (T := charSpec m) (guarded_good E (charSpec_flags m E)) (t := m) (fun _ h => h)
  exact wp.no_crash h x

/-- `parse` succeeds on a name with nested and mutated nodes (a template and a conversion operator). -/
example : (parse (render E0) c!"??$?BH@S@@QAEHXZ").toOption.isSome = true := by decide +kernel

end Props
end Undname
