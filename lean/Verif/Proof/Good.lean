/-
  Well-formed, acyclic syntax trees in a node cache, relative to a set `A` of permitted nodes.
-/
import Verif.Proof.Wp

namespace Undname

/-- Printable ASCII. -/
def isPrintable (c : Char) : Bool := 0x20 ≤ c.toNat && c.toNat ≤ 0x7E
/-- The pairs of brackets. -/
def brackets : List (Char × Char) := [('(', ')'), ('[', ']'), ('{', '}'), ('<', '>')]
/-- Printable ASCII without brackets and the separator `@` of mangled names. -/
def isPlain (c : Char) : Bool := isPrintable c && !c!"()[]{}<>@".contains c

/-- The code of an operator after `?`. -/
def groupCode : CodeGroup → Text
  | .Basic => []
  | .Under => c!"_"
  | .DoubleUnder => c!"__"

/-- What is to be tracked about texts: `inp` about the input (closed under taking parts), `run d t d'`
about output (`t` takes the stack of open brackets from `d` to `d'`), `lit` about decoded string literals. -/
structure TSpec where
  inp : Text → Prop
  run : List Char → Text → List Char → Prop
  lit : Text → Prop
  inp_infix : ∀ {a b}, a <:+: b → inp b → inp a
  inp_run : ∀ {t}, inp t → '@' ∉ t → ∀ d, run d t d
  md5_run : ∀ {t}, inp c!"??@" → inp t → ∀ d, run d t d
  nil : ∀ d, run d [] d
  append : ∀ {a b d e f}, run d a e → run e b f → run d (a ++ b) f
  shift : ∀ {a d e} k, run d a e → run (d ++ k) a (e ++ k)
  plain : ∀ {t}, (∀ c ∈ t, isPlain c = true) → ∀ d, run d t d
  opn : ∀ {o c}, (o, c) ∈ brackets → ∀ d, run d [o] (o :: d)
  cls : ∀ {o c}, (o, c) ∈ brackets → ∀ d, run (o :: d) [c] d
  lit_run : ∀ {t}, lit t → ∀ d, run d t d
  op_run : ∀ {g ch k}, inp (c!"??" ++ groupCode g ++ [ch]) ∨ inp (c!"?$?" ++ groupCode g ++ [ch]) → translate_intrinsic_function_code ch g = .ok (some k) → ∀ d, run d k.text d
  lit_ok : ∀ {t}, inp c!"?_C" → (∀ c ∈ t, isPrintable c = true) → lit t

/-- Where an operator code may stand: at the start of a symbol or of a template. -/
def TSpec.lead (T : TSpec) (t : Text) : Prop := t.head? = some '?' → T.inp ('?' :: t) ∨ T.inp (c!"?$" ++ t)

/-- Texts that leave the open brackets alone. -/
def TSpec.name (T : TSpec) (t : Text) : Prop := ∀ d, T.run d t d

/-- Interfaces of nodes, refined by array dimensions, components of qualified names and integer literals. -/
inductive GK where
  | k (kd : Kind)
  | dims
  | comps
  | intLit
  deriving DecidableEq

namespace GK
abbrev any : GK := .k .INode
abbrev type : GK := .k .ITypeNode
abbrev sig : GK := .k .ISignatureNode
abbrev ident : GK := .k .IIdentifierNode
abbrev sym : GK := .k .ISymbolNode
abbrev arr : GK := .k .NodeArray
abbrev qn : GK := .k .QualifiedName
abbrev named : GK := .k .NamedIdentifier
abbrev var : GK := .k .VariableSymbol
abbrev func : GK := .k .FunctionSymbol

/-- The node has the interface. -/
def ok : GK → Node → Bool
  | .k kd, nd => nd.is kd
  | .dims, nd => nd.is .NodeArray
  | .comps, nd => nd.is .NodeArray
  | .intLit, .IntegerLiteral .. => true
  | .intLit, _ => false
end GK

/-- An optional child. -/
def optKid (g : GK) : Option Handle → List (GK × Handle)
  | some h => [(g, h)]
  | none => []

/-- The children of a signature. -/
def sigKids (f : FuncSig) : List (GK × Handle) := optKid .type f.return_type ++ optKid .arr f.params

/-- The children of a node, with the interface at which they are resolved. -/
def kidsOf : Node → List (GK × Handle)
  | .PrimitiveType .. => []
  | .FunctionSignature f => sigKids f
  | .ThunkSignature f _ => sigKids f
  | .PointerType _ _ cp p => optKid .qn cp ++ [(.type, p)]
  | .TagType _ n _ => [(.qn, n)]
  | .ArrayType _ d e => [(.dims, d), (.type, e)]
  | .CustomType _ i => [(.ident, i)]
  | .VcallThunkIdentifier tp _ => optKid .arr tp
  | .DynamicStructorIdentifier tp (.Variable v) _ => optKid .arr tp ++ [(.var, v)]
  | .DynamicStructorIdentifier tp (.Name n) _ => optKid .arr tp ++ [(.qn, n)]
  | .NamedIdentifier tp _ => optKid .arr tp
  | .IntrinsicFunctionIdentifier tp _ => optKid .arr tp
  | .LiteralOperatorIdentifier tp _ => optKid .arr tp
  | .LocalStaticGuardIdentifier tp _ _ => optKid .arr tp
  | .ConversionOperatorIdentifier tp t => optKid .arr tp ++ optKid .type t
  | .StructorIdentifier tp cl _ => optKid .arr tp ++ optKid .ident cl
  | .RttiBaseClassDescriptor tp _ _ _ _ => optKid .arr tp
  | .NodeArray nodes => nodes.map fun h => (.any, h)
  | .QualifiedName comps => [(.comps, comps)]
  | .TemplateParameterReference s _ _ _ => optKid .sym s
  | .IntegerLiteral .. => []
  | .Md5Symbol n => [(.qn, n)]
  | .SpecialTableSymbol n t _ => [(.qn, n)] ++ optKid .qn t
  | .LocalStaticGuardVariable n _ => [(.qn, n)]
  | .EncodedStringLiteral n _ _ _ => optKid .qn n
  | .VariableSymbol (some (.Qualified n)) _ t => [(.qn, n)] ++ optKid .type t
  | .VariableSymbol _ _ t => optKid .type t
  | .FunctionSymbol n s => optKid .qn n ++ [(.sig, s)]

/-- The children of a node used at interface `g`. -/
def kids : GK → Node → List (GK × Handle)
  | .dims, .NodeArray nodes => nodes.map fun h => (.intLit, h)
  | .comps, .NodeArray nodes => nodes.map fun h => (.ident, h)
  | _, nd => kidsOf nd

/-- Conditions on the data of a node. -/
def nodeOK (T : TSpec) : Node → Prop
  | .PointerType _ a _ _ => a.isSome
  | .NamedIdentifier _ t => T.name t
  | .LiteralOperatorIdentifier _ t => T.name t
  | .IntrinsicFunctionIdentifier _ o => ∀ k, o = some k → T.name k.text
  | .EncodedStringLiteral _ t _ _ => T.lit t
  | .VariableSymbol n _ _ => n.isSome
  | _ => True

/-- `h` is the root of a well-formed tree of height at most `n` within `A`. -/
def GoodN (T : TSpec) (c : Cache) (A : Handle → Prop) : Nat → GK → Handle → Prop
  | 0, _, _ => False
  | n + 1, g, h => A h ∧ ∃ nd, c[h]? = some nd ∧ g.ok nd = true ∧ nodeOK T nd ∧
      ∀ p ∈ kids g nd, GoodN T c A n p.1 p.2

/-- `h` is the root of a well-formed finite tree within `A`. -/
def Good (T : TSpec) (c : Cache) (A : Handle → Prop) (g : GK) (h : Handle) : Prop :=
  ∃ n, GoodN T c A n g h

variable {T : TSpec} {c c' : Cache} {A B : Handle → Prop} {g g' : GK} {h i : Handle} {n m : Nat}

theorem GoodN.succ (hg : GoodN T c A n g h) : GoodN T c A (n + 1) g h := by
  induction n generalizing g h with
  | zero => exact hg.elim
  | succ n ih =>
    obtain ⟨ha, nd, h1, h2, h3, h4⟩ := hg
    exact ⟨ha, nd, h1, h2, h3, fun p hp => ih (h4 p hp)⟩

theorem GoodN.le (hg : GoodN T c A n g h) (hnm : n ≤ m) : GoodN T c A m g h := by
  induction hnm with
  | refl => exact hg
  | step _ ih => exact ih.succ

theorem GoodN.all_kids {l : List (GK × Handle)} (hl : ∀ p ∈ l, Good T c A p.1 p.2) :
    ∃ n, ∀ p ∈ l, GoodN T c A n p.1 p.2 := by
  induction l with
  | nil => exact ⟨0, by simp⟩
  | cons p l ih =>
    obtain ⟨n, hn⟩ := ih fun q hq => hl q (by simp [hq])
    obtain ⟨m, hm⟩ := hl p (by simp)
    refine ⟨max n m, ?_⟩
    intro q hq
    rcases List.mem_cons.1 hq with rfl | hq
    · exact hm.le (by omega)
    · exact (hn q hq).le (by omega)

theorem Good.intro {nd : Node} (ha : A h) (h1 : c[h]? = some nd) (h2 : g.ok nd = true)
    (h3 : nodeOK T nd) (h4 : ∀ p ∈ kids g nd, Good T c A p.1 p.2) : Good T c A g h := by
  obtain ⟨n, hn⟩ := GoodN.all_kids h4
  exact ⟨n + 1, ha, nd, h1, h2, h3, hn⟩

theorem Good.elim (hg : Good T c A g h) : A h ∧ ∃ nd, c[h]? = some nd ∧ g.ok nd = true ∧
    nodeOK T nd ∧ ∀ p ∈ kids g nd, Good T c A p.1 p.2 := by
  obtain ⟨n, hn⟩ := hg
  cases n with
  | zero => exact hn.elim
  | succ n =>
    obtain ⟨ha, nd, h1, h2, h3, h4⟩ := hn
    exact ⟨ha, nd, h1, h2, h3, fun p hp => ⟨n, h4 p hp⟩⟩

theorem Good.lt (hg : Good T c A g h) : h < c.length := by
  obtain ⟨_, nd, h1, _⟩ := hg.elim
  exact (List.getElem?_eq_some_iff.1 h1).1

/-- Induction: build a property of good handles from the property of the children. -/
theorem Good.induct {P : GK → Handle → Prop}
    (step : ∀ g h nd, A h → c[h]? = some nd → g.ok nd = true → nodeOK T nd →
      (∀ p ∈ kids g nd, Good T c A p.1 p.2) → (∀ p ∈ kids g nd, P p.1 p.2) → P g h)
    (hg : Good T c A g h) : P g h := by
  obtain ⟨n, hn⟩ := hg
  induction n generalizing g h with
  | zero => exact hn.elim
  | succ n ih =>
    obtain ⟨ha, nd, h1, h2, h3, h4⟩ := hn
    exact step g h nd ha h1 h2 h3 (fun p hp => ⟨n, h4 p hp⟩) (fun p hp => ih (h4 p hp))

theorem Good.mono (hg : Good T c A g h) (hab : ∀ i, A i → B i) : Good T c B g h := by
  refine hg.induct (P := fun g h => Good T c B g h) ?_
  intro g h nd ha h1 h2 h3 _ h5
  exact Good.intro (hab _ ha) h1 h2 h3 h5

/-- The tree only uses nodes of the cache. -/
theorem Good.bound (hg : Good T c A g h) : Good T c (fun i => A i ∧ i < c.length) g h := by
  refine hg.induct (P := fun g h => Good T c (fun i => A i ∧ i < c.length) g h) ?_
  intro g h nd ha h1 h2 h3 _ h5
  exact Good.intro ⟨ha, (List.getElem?_eq_some_iff.1 h1).1⟩ h1 h2 h3 h5

/-- A tree is unaffected by changes outside `A`. -/
theorem Good.frame (hg : Good T c A g h) (hc : ∀ i nd, A i → c[i]? = some nd → c'[i]? = some nd) :
    Good T c' A g h := by
  refine hg.induct (P := fun g h => Good T c' A g h) ?_
  intro g h nd ha h1 h2 h3 _ h5
  exact Good.intro ha (hc _ _ ha h1) h2 h3 h5

theorem Good.append (hg : Good T c A g h) (l : List Node) : Good T (c ++ l) A g h :=
  hg.frame fun i nd _ h => by
    rw [List.getElem?_append_left (List.getElem?_eq_some_iff.1 h).1]; exact h

theorem kids_eq (hd : g ≠ .dims ∧ g ≠ .comps) (nd : Node) : kids g nd = kidsOf nd := by
  cases g <;> simp_all [kids]

/-- Changing the interface. -/
theorem Good.cast (hg : Good T c A g h) (hd : g ≠ .dims ∧ g ≠ .comps) (hd' : g' ≠ .dims ∧ g' ≠ .comps)
    (hk : ∀ nd, c[h]? = some nd → g.ok nd = true → g'.ok nd = true) : Good T c A g' h := by
  obtain ⟨ha, nd, h1, h2, h3, h4⟩ := hg.elim
  exact Good.intro ha h1 (hk nd h1 h2) h3 (by rw [kids_eq hd'] ; rw [kids_eq hd] at h4; exact h4)

theorem Good.toAny (hg : Good T c A g h) (hd : g ≠ .dims ∧ g ≠ .comps) : Good T c A .any h :=
  hg.cast hd (by simp) fun _ _ _ => rfl

/-- The components of a qualified name are a list of nodes. -/
theorem Good.comps_arr (hg : Good T c A .comps h) : Good T c A .arr h := by
  obtain ⟨ha, nd, h1, h2, h3, h4⟩ := hg.elim
  refine Good.intro ha h1 h2 h3 ?_
  cases nd <;> first | (cases h2; done) | skip
  rename_i nodes
  intro p hp
  simp only [kids, kidsOf, List.mem_map] at hp
  obtain ⟨x, hx, rfl⟩ := hp
  exact (h4 (.ident, x) (by simp only [kids, List.mem_map]; exact ⟨x, hx, rfl⟩)).toAny (by simp)

theorem kids_handles (g g' : GK) (nd : Node) : (kids g nd).map Prod.snd = (kids g' nd).map Prod.snd := by
  have key : ∀ g, (kids g nd).map Prod.snd = (kidsOf nd).map Prod.snd := by
    intro g
    unfold kids
    split
    · simp [kidsOf, Function.comp_def]
    · simp [kidsOf, Function.comp_def]
    · rfl
  rw [key, key]

/-- The height of a tree does not depend on the interface. -/
theorem GoodN.height (hg : GoodN T c A n g h) (hg' : GoodN T c A m g' h) : GoodN T c A m g h := by
  induction m generalizing n g g' h with
  | zero => exact hg'.elim
  | succ m ih =>
    cases n with
    | zero => exact hg.elim
    | succ n =>
      obtain ⟨ha, nd, h1, h2, h3, h4⟩ := hg
      obtain ⟨_, nd', h1', _, _, h4'⟩ := hg'
      rw [h1] at h1'
      cases h1'
      refine ⟨ha, nd, h1, h2, h3, ?_⟩
      intro p hp
      have hm : p.2 ∈ (kids g' nd).map Prod.snd := by
        rw [kids_handles g' g]; exact List.mem_map_of_mem hp
      obtain ⟨q, hq, hqp⟩ := List.mem_map.1 hm
      have := h4' q hq
      rw [hqp] at this
      exact ih (h4 p hp) this

theorem GoodN.avoid (hmin : ∀ g, ¬ GoodN T c A n g i) (hm : GoodN T c A m g h) (hmn : m ≤ n) :
    GoodN T c (fun j => A j ∧ j ≠ i) m g h := by
  induction m generalizing g h with
  | zero => exact hm.elim
  | succ m ih =>
    have hne : h ≠ i := by
      rintro rfl
      exact hmin g (hm.le hmn)
    obtain ⟨ha, nd, h1, h2, h3, h4⟩ := hm
    exact ⟨⟨ha, hne⟩, nd, h1, h2, h3, fun p hp => ih (h4 p hp) (by omega)⟩

/-- Trees are acyclic: the children of `h` do not use `h`. -/
theorem Good.kids_avoid (hg : Good T c A g h) : A h ∧ ∃ nd, c[h]? = some nd ∧ g.ok nd = true ∧
    nodeOK T nd ∧ ∀ p ∈ kids g nd, Good T c (fun j => A j ∧ j ≠ h) p.1 p.2 := by
  obtain ⟨n, hn⟩ := hg
  -- a minimal height
  have hex : ∃ n, (∃ g, GoodN T c A n g h) ∧ ∀ m < n, ∀ g, ¬ GoodN T c A m g h := by
    induction n using Nat.strongRecOn generalizing g with
    | _ n ih =>
      by_cases hlow : ∃ m, m < n ∧ ∃ g, GoodN T c A m g h
      · obtain ⟨m, hm, g1, hg1⟩ := hlow
        exact ih m hm hg1
      · exact ⟨n, ⟨g, hn⟩, fun m hm g1 hg1 => hlow ⟨m, hm, g1, hg1⟩⟩
  obtain ⟨k, ⟨g1, hk⟩, hmin⟩ := hex
  have hgk := hn.height hk
  cases k with
  | zero => exact hgk.elim
  | succ k =>
    obtain ⟨ha, nd, h1, h2, h3, h4⟩ := hgk
    exact ⟨ha, nd, h1, h2, h3, fun p hp =>
      ⟨k, (h4 p hp).avoid (hmin k (by omega)) (Nat.le_refl _)⟩⟩

/-! ### Mutation -/

theorem getElem?_set_self' {nd nd' : Node} (h1 : c[i]? = some nd) : (c.set i nd')[i]? = some nd' := by
  rw [List.getElem?_set_self]
  exact (List.getElem?_eq_some_iff.1 h1).1

/-- Replacing a node by one with the same children and interfaces. -/
theorem Good.set_same {nd nd' : Node} (hg : Good T c A g h) (hi : c[i]? = some nd)
    (hk : ∀ g : GK, g.ok nd = true → g.ok nd' = true) (hn : nodeOK T nd → nodeOK T nd')
    (hkids : ∀ g, kids g nd' = kids g nd) : Good T (c.set i nd') A g h := by
  refine hg.induct (P := fun g h => Good T (c.set i nd') A g h) ?_
  intro g h nd1 ha h1 h2 h3 _ h5
  by_cases hih : h = i
  · subst hih
    rw [hi] at h1
    cases h1
    exact Good.intro ha (getElem?_set_self' hi) (hk _ h2) (hn h3) (by rw [hkids]; exact h5)
  · exact Good.intro ha (by rw [List.getElem?_set_ne (Ne.symm hih)]; exact h1) h2 h3 h5

/-- Trees that avoid `i` are unaffected by changing `i`. -/
theorem Good.set_avoid {nd' : Node} (hg : Good T c A g h) (hA : ∀ j, A j → j ≠ i) :
    Good T (c.set i nd') A g h :=
  hg.frame fun j nd hj h => by rw [List.getElem?_set_ne (Ne.symm (hA j hj))]; exact h

/-- Replacing a node by one with possibly more children, none of which uses the node itself. -/
theorem Good.set_more {nd nd' : Node} (hg : Good T c A g h) (hi : c[i]? = some nd)
    (hk : ∀ g : GK, g.ok nd = true → g.ok nd' = true) (hn : nodeOK T nd')
    (hkids : ∀ g, g.ok nd = true → ∀ p ∈ kids g nd', Good T c (fun j => A j ∧ j ≠ i) p.1 p.2) :
    Good T (c.set i nd') A g h := by
  refine hg.induct (P := fun g h => Good T (c.set i nd') A g h) ?_
  intro g h nd1 ha h1 h2 h3 _ h5
  by_cases hih : h = i
  · subst hih
    rw [hi] at h1
    cases h1
    refine Good.intro ha (getElem?_set_self' hi) (hk _ h2) hn ?_
    intro p hp
    exact ((hkids g h2 p hp).set_avoid (fun j hj => hj.2)).mono (fun j hj => hj.1)
  · exact Good.intro ha (by rw [List.getElem?_set_ne (Ne.symm hih)]; exact h1) h2 h3 h5

end Undname
