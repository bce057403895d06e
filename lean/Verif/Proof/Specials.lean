/-
  The parsers of special symbols, and the recursive knot: every parser, on every input, keeps the
  invariant.
-/
import Verif.Proof.Symbols

namespace Undname
variable {T : TSpec} {A B : Handle → Prop} {s s' : St} {rend : Renderer} {r : Fns} {n : Nat}

/-- What a parser of symbols guarantees. -/
def SymQ (T : TSpec) (A : Handle → Prop) (s : St) (h : Handle) (s' : St) : Prop :=
  Good T s'.cache A .sym h ∧ s'.len < s.len

theorem SymQ.of {s1 : St} {h : Handle} (hq : SymQ T A s1 h s') (hs : Step T s s1) : SymQ T A s h s' :=
  ⟨hq.1, Nat.lt_of_lt_of_le hq.2 hs.len⟩

theorem tr_typeinfo (hrec : RecOK T n r) (hi : Inv T A s) (hl : s.len < n + 1) :
    Tr T A (demangle_typeinfo_name r) (SymQ T A s) s := by
  unfold demangle_typeinfo_name
  refine Tr.bind (tr_expectChar hi _ _) ?_
  intro _ s1 hi1 hs1 h1
  refine Tr.bind (hrec.type _ hi1 (by have := h1.2; omega)) ?_
  rintro t s2 hi2 hs2 ⟨h2, h3⟩
  refine Tr.query ?_
  refine Tr.ite (fun _ => ?_) fun _ => Tr.err
  refine (tr_intern_good hi2 .sym (by rfl) (by rfl) (by simpa [kids, kidsOf, optKid] using h2)).mono ?_
  intro h s3 _ hs3 h4
  exact ⟨h4.1, by have := h4.2.2.2; have := h1.2; omega⟩

theorem tr_special_table (hr : GoodRend T rend) (hrec : RecOK T n r) (hi : Inv T A s) (hl : s.len < n)
    (k : SpecialIntrinsicKind) : Tr T A (demangle_special_table_symbol_node rend r k) (SymQ T A s) s := by
  unfold demangle_special_table_symbol_node
  refine Tr.okOrB fun nm hnm => ?_
  have hname : T.name nm := by
    refine T.plain ?_
    cases k <;> simp only [specialTableName, Option.some.injEq, reduceCtorEq] at hnm <;> subst hnm <;> decide
  refine Tr.bind (tr_intern_good (nd := .NamedIdentifier none nm) hi .ident rfl hname
    (by simp [kids, kidsOf, optKid])) ?_
  rintro ni s1 hi1 hs1 ⟨h1, _, _, l1⟩
  refine Tr.bind (tr_scope_chain hr hrec (fun _ h => h) hi1 (by omega) h1) ?_
  rintro qn s2 hi2 hs2 ⟨h2, _, l2⟩
  have hq := h2.good (fun _ h => h)
  refine Tr.bind (tr_tryIf' hi2 _) ?_
  intro d s3 hi3 hs3 h3
  refine Tr.okOrB fun _ _ => ?_
  refine Tr.bind (tr_qualifiers hi3) ?_
  rintro ⟨quals, _⟩ s4 hi4 hs4 h4
  refine Tr.bind (tr_tryChar hi4 _) ?_
  intro nt s5 hi5 hs5 h5
  have hl5 : s5.len < s.len := by have := hs3.len; have := hs4.len; have := hs5.len; omega
  have hend : ∀ tn, ∀ s6, Inv T A s6 → Step T s5 s6 → (∀ t, tn = some t → Good T s6.cache A .qn t) →
      Tr T A (intern (.SpecialTableSymbol qn tn quals)) (SymQ T A s) s6 := by
    intro tn s6 hi6 hs6 ht
    refine (tr_intern_good hi6 .sym (by rfl) (by trivial) ?_).mono ?_
    · intro p hp
      simp only [kids, kidsOf, List.mem_append, List.mem_singleton] at hp
      rcases hp with rfl | hp
      · exact hs6.ext (hs5.ext (hs4.ext (hs3.ext hq)))
      · cases tn with
        | none => simp [optKid] at hp
        | some t => simp only [optKid, List.mem_singleton] at hp; subst hp; exact ht t rfl
    · intro h s7 _ _ h7
      exact ⟨h7.1, by have := h7.2.2.2; have := hs6.len; omega⟩
  simp only
  split
  · exact hend none s5 hi5 (Step.refl _) (by simp)
  · refine Tr.bind (tr_qualified_type_name hr hrec hi5 (by omega)) ?_
    rintro t s6 hi6 hs6 ⟨h6, _⟩
    exact hend (some t) s6 hi6 hs6 (by rintro _ ⟨⟩; exact h6)

theorem tr_local_static_guard (hr : GoodRend T rend) (hrec : RecOK T n r) (hi : Inv T A s) (hl : s.len < n)
    (b : Bool) : Tr T A (demangle_local_static_guard rend r b) (SymQ T A s) s := by
  unfold demangle_local_static_guard
  refine Tr.bind (tr_intern_good (nd := .LocalStaticGuardIdentifier none b 0) hi (.k .LocalStaticGuardIdentifier) rfl trivial
    (by simp [kids, kidsOf, optKid])) ?_
  rintro ni s1 hi1 hs1 ⟨h1, _, _, l1⟩
  have h1' : Good T s1.cache A .ident ni :=
    h1.cast (by simp) (by simp) fun nd _ h => by cases nd <;> first | rfl | cases h
  refine Tr.bind (tr_scope_chain hr hrec (fun _ h => h) hi1 (by omega) h1') ?_
  rintro qn s2 hi2 hs2 ⟨h2, _, l2⟩
  have hq := h2.good (fun _ h => h)
  refine Tr.bind (tr_tryStr' hi2 _) ?_
  intro hid s3 hi3 hs3 h3
  have hend : ∀ v, ∀ s4, Inv T A s4 → Step T s3 s4 → Tr T A (do
      let e ← query MStr.is_empty
      whenB (!e) (do
        let i ← demangle_unsigned
        if i < 2 ^ 32 then modifyNode .LocalStaticGuardIdentifier ni (set_scope_index i)
        else SM.err .InvalidLocalStaticGuard)
      intern (.LocalStaticGuardVariable qn v)) (SymQ T A s) s4 := by
    intro v s4 hi4 hs4
    refine Tr.query ?_
    refine Tr.bind (Q := fun _ _ => True) (Tr.whenB hi4 (fun _ => ?_) fun _ => trivial) ?_
    · refine Tr.bind (tr_unsigned hi4) ?_
      intro i s5 hi5 hs5 h5
      refine Tr.ite (fun _ => ?_) fun _ => Tr.err
      exact (tr_modify_same hi5 (hs5.ext (hs4.ext (hs3.ext (hs2.ext h1)))) fun nd _ => set_scope_index_same _ nd).mono
        fun _ _ _ _ _ => trivial
    · intro _ s5 hi5 hs5 _
      refine (tr_intern_good hi5 .sym (by rfl) (by trivial)
        (by simpa [kids, kidsOf] using hs5.ext (hs4.ext (hs3.ext hq)))).mono ?_
      intro h s7 _ _ h7
      exact ⟨h7.1, by have := h7.2.2.2; have := hs3.len; have := hs4.len; have := hs5.len; omega⟩
  simp only
  split
  · exact hend false s3 hi3 (Step.refl _)
  · refine Tr.bind (tr_tryChar hi3 _) ?_
    intro five s4 hi4 hs4 h4
    split
    · exact hend true s4 hi4 hs4
    · exact Tr.err

theorem tr_untyped (hr : GoodRend T rend) (hrec : RecOK T n r) (hi : Inv T A s) (hl : s.len < n)
    {t : Text} (ht : T.name t) : Tr T A (demangle_untyped_variable rend r t) (SymQ T A s) s := by
  unfold demangle_untyped_variable
  refine Tr.bind (tr_intern_good (nd := .NamedIdentifier none t) hi .ident rfl ht
    (by simp [kids, kidsOf, optKid])) ?_
  rintro ni s1 hi1 hs1 ⟨h1, _, _, l1⟩
  refine Tr.bind (tr_scope_chain hr hrec (fun _ h => h) hi1 (by omega) h1) ?_
  rintro qn s2 hi2 hs2 ⟨h2, _, l2⟩
  have hq := h2.good (fun _ h => h)
  refine Tr.bind (tr_tryChar hi2 _) ?_
  intro b s3 hi3 hs3 h3
  refine Tr.ite (fun _ => ?_) fun _ => Tr.err
  refine (tr_intern_good hi3 .sym (by rfl) (by rfl)
    (by simpa [kids, kidsOf, optKid] using hs3.ext hq)).mono ?_
  intro h s7 _ _ h7
  exact ⟨h7.1, by have := h7.2.2.2; have := hs3.len; omega⟩

theorem tr_u32 (hi : Inv T A s) : Tr T A demangle_rtti_base_class_descriptor_node.u32 (fun _ s' => Same s s') s := by
  unfold demangle_rtti_base_class_descriptor_node.u32
  refine Tr.bind (tr_unsigned hi) ?_
  intro i s1 hi1 hs1 h1
  exact Tr.ite (fun _ => Tr.pure hi1 h1.1) fun _ => Tr.err

theorem tr_base_class (hr : GoodRend T rend) (hrec : RecOK T n r) (hi : Inv T A s) (hl : s.len < n) :
    Tr T A (demangle_rtti_base_class_descriptor_node rend r) (SymQ T A s) s := by
  unfold demangle_rtti_base_class_descriptor_node
  refine Tr.bind (tr_u32 hi) ?_
  intro nv sa hia hsa _
  refine Tr.bind (tr_signed hia) ?_
  intro vb sb hib hsb _
  refine Tr.ite (fun _ => Tr.err) fun _ => ?_
  refine Tr.bind (tr_u32 hib) ?_
  intro vt sc hic hsc _
  refine Tr.bind (tr_u32 hic) ?_
  intro fl sd hid hsd _
  have := hsa.len; have := hsb.len; have := hsc.len; have := hsd.len
  refine Tr.bind (tr_intern_good (nd := .RttiBaseClassDescriptor none nv vb vt fl) hid .ident rfl trivial
    (by simp [kids, kidsOf, optKid])) ?_
  rintro ni s1 hi1 hs1 ⟨h1, _, _, l1⟩
  refine Tr.bind (tr_scope_chain hr hrec (fun _ h => h) hi1 (by omega) h1) ?_
  rintro qn s2 hi2 hs2 ⟨h2, _, l2⟩
  have hq := h2.good (fun _ h => h)
  refine Tr.bind (tr_expectChar hi2 _ _) ?_
  intro b s3 hi3 hs3 h3
  refine (tr_intern_good hi3 .sym (by rfl) (by rfl)
    (by simpa [kids, kidsOf, optKid] using hs3.ext hq)).mono ?_
  intro h s7 _ _ h7
  exact ⟨h7.1, by have := h7.2.2.2; have := hs3.len; omega⟩

theorem tr_vcall_thunk (hr : GoodRend T rend) (hrec : RecOK T n r) (hi : Inv T A s) (hl : s.len < n) :
    Tr T A (demangle_vcall_thunk_node rend r) (SymQ T A s) s := by
  unfold demangle_vcall_thunk_node
  refine Tr.bind (tr_intern_good (nd := .VcallThunkIdentifier none 0) hi (.k .VcallThunkIdentifier) rfl trivial
    (by simp [kids, kidsOf, optKid])) ?_
  rintro ni s1 hi1 hs1 ⟨h1, _, _, l1⟩
  have h1' : Good T s1.cache A .ident ni :=
    h1.cast (by simp) (by simp) fun nd _ h => by cases nd <;> first | rfl | cases h
  refine Tr.bind (tr_scope_chain hr hrec (fun _ h => h) hi1 (by omega) h1') ?_
  rintro qn s2 hi2 hs2 ⟨h2, _, l2⟩
  have hq := h2.good (fun _ h => h)
  refine Tr.bind (tr_expectStr hi2 _ _) ?_
  intro _ s3 hi3 hs3 _
  refine Tr.bind (tr_unsigned hi3) ?_
  intro off s4 hi4 hs4 _
  refine Tr.bind (tr_modify_same hi4 (hs4.ext (hs3.ext (hs2.ext h1))) fun nd _ => set_offset_same _ nd) ?_
  intro _ s5 hi5 hs5 _
  refine Tr.bind (tr_expectChar hi5 _ _) ?_
  intro _ s6 hi6 hs6 _
  refine Tr.bind (tr_calling_convention hi6) ?_
  intro cc s7 hi7 hs7 _
  refine Tr.bind (tr_intern_good hi7 .sig (by rfl) (by trivial)
    (by simp [kids, kidsOf, sigKids, optKid])) ?_
  rintro sg s8 hi8 hs8 ⟨h8, _, _, l8⟩
  refine (tr_intern_good hi8 .sym (by rfl) (by trivial) ?_).mono ?_
  · have := hs8.ext (hs7.ext (hs6.ext (hs5.ext (hs4.ext (hs3.ext hq)))))
    intro p hp
    simp only [kids, kidsOf, optKid, List.mem_append, List.mem_singleton] at hp
    rcases hp with rfl | rfl
    · exact this
    · exact h8
  intro h s9 _ _ h9
  have := h9.2.2.2; have := hs3.len; have := hs4.len; have := hs5.len; have := hs6.len; have := hs7.len
  exact ⟨h9.1, by omega⟩

theorem tr_rtti_type (hrec : RecOK T n r) (hi : Inv T A s) (hl : s.len < n) :
    Tr T A (demangle_rtti_type_descriptor r) (SymQ T A s) s := by
  unfold demangle_rtti_type_descriptor
  refine Tr.bind (hrec.type _ hi hl) ?_
  rintro t s1 hi1 hs1 ⟨h1, l1⟩
  refine Tr.bind (tr_expectStr hi1 _ _) ?_
  intro _ s2 hi2 hs2 h2
  refine Tr.query ?_
  refine Tr.ite (fun _ => ?_) fun _ => Tr.err
  refine Tr.bind (tr_synth_name hi2 (T.plain (by decide))) ?_
  rintro nm s3 hi3 hs3 ⟨h3, l3, _⟩
  refine (tr_intern_good hi3 .sym (by rfl) (by rfl) ?_).mono ?_
  · intro p hp
    simp only [kids, kidsOf, optKid, List.mem_append, List.mem_singleton] at hp
    rcases hp with rfl | rfl
    · exact h3
    · exact hs3.ext (hs2.ext h1)
  intro h s7 _ _ h7
  exact ⟨h7.1, by have := h7.2.2.2; have := hs2.len; omega⟩

/-- Renaming a function symbol. -/
theorem Good.func_named {c : Cache} {h q : Handle} (hg : Good T c A .func h)
    (hq : Good T c (fun j => A j ∧ j ≠ h) .qn q) :
    ∃ nd, c[h]? = some nd ∧ nd.is .FunctionSymbol = true ∧ nd.frozen = false ∧
      Good T (c.set h (nd.set_name q)) A .sym h := by
  obtain ⟨ha, nd, h1, h2, h3, h4⟩ := hg.kids_avoid
  cases nd <;> first | (cases h2; done) | skip
  rename_i nm sg
  have key : ∀ {g x}, Good T c (fun j => A j ∧ j ≠ h) g x → ∀ nd', Good T (c.set h nd') A g x :=
    fun hg nd' => (hg.set_avoid fun j hj => hj.2).mono fun j hj => hj.1
  refine ⟨_, h1, rfl, rfl, ?_⟩
  refine Good.intro ha (getElem?_set_self' h1) rfl trivial ?_
  intro p hp
  simp only [kids, kidsOf, Node.set_name, optKid, List.mem_append, List.mem_singleton] at hp
  rcases hp with rfl | rfl
  · exact key hq _
  · exact key (h4 (.sig, sg) (by simp [kids, kidsOf])) _

/-- The last steps of `demangle_init_fini_stub`. -/
theorem wp_stub {s0 : St} {h : Handle} {nd : Node} (hs0 : Step T s0 s) (hc : s0.cache.length ≤ h)
    (hi : Inv T (fun j => A j ∧ j ≠ h) s) (hf : Good T s.cache A .func h) (hid : nd.is .IIdentifierNode = true)
    (hok : nodeOK T nd) (hkids : ∀ p ∈ kidsOf nd, Good T s.cache (fun j => A j ∧ j ≠ h) p.1 p.2)
    (hl : s.len < s0.len) :
    wp (do
      let d ← intern nd
      let name ← synthesize_from_id d
      modifyNode .FunctionSymbol h (Node.set_name name)
      pure h) (fun h s' => Inv T A s' ∧ Step T s0 s' ∧ SymQ T A s0 h s') s := by
  refine wp.bind (wp.mono (tr_intern_good hi .ident hid hok (by rw [kids_eq (by simp)]; exact hkids)) ?_)
  rintro d s1 ⟨hi1, hs1, h1, _, _, l1⟩
  refine wp.bind (wp.mono (tr_synth_id hi1 h1) ?_)
  rintro q s2 ⟨hi2, hs2, h2, l2, _⟩
  obtain ⟨fn, e1, e2, e3, e4⟩ := (hs2.ext (hs1.ext hf)).func_named h2
  refine wp.bind (wp_modify e1 e2 ?_)
  refine wp.pure ⟨(hi2.set_avoid fun j hj => hj.2).mono fun j hj => hj.1,
    (hs0.trans (hs1.trans hs2)).set_late hc e1 e3, e4, ?_⟩
  show s2.len < s0.len
  omega

theorem wp_downcastP {src dst : Kind} {h : Handle} {β : Type} {R : β → St → Prop} {k : Option Handle → P β}
    {nd : Node} (e1 : s.cache[h]? = some nd) (e2 : nd.is src = true)
    (hk : wp (k (if nd.is dst then some h else none)) R s) : wp (downcastP src dst h >>= k) R s := by
  have h6 : downcastP src dst h s = .ok ((if nd.is dst then some h else none), s) := by
    show SM.lift (downcast src dst s.cache h) s = _
    unfold downcast resolve
    simp [e1, e2]
    rfl
  refine wp.bind ?_
  unfold wp
  rw [h6]
  exact hk

theorem tr_init_fini (hr : GoodRend T rend) (hrec : RecOK T n r) (hi : Inv T A s) (hl : s.len < n) (b : Bool) :
    Tr T A (demangle_init_fini_stub rend r b) (SymQ T A s) s := by
  unfold demangle_init_fini_stub
  refine Tr.bind (tr_tryChar' hi _) ?_
  intro known s1 hi1 hs1 h1
  have hL : T.lead s1.str.string := by
    intro hq
    have h2 := h1.2.1
    have h0 := hi.inp
    cases hs : s.str.string with
    | nil => rw [hs] at h2; rw [h2] at hq; simp [dropIf] at hq
    | cons c l =>
      rw [hs] at h2 h0
      by_cases hc : c = '?'
      · subst hc
        rw [show s1.str.string = l by rw [h2]; simp [dropIf]]
        exact Or.inl h0
      · rw [h2] at hq
        simp [dropIf, hc] at hq
  refine wp.bind (wp.mono (tr_declarator hr hrec hi1 (by have := hs1.len; omega) hL) ?_)
  rintro sy s2 ⟨hi2, hs2, hg, l2, hc2, hix⟩
  obtain ⟨nd, _, e1, e2⟩ := resolve_good hg
  refine wp_downcastP e1 e2 ?_
  by_cases hv : nd.is .VariableSymbol = true
  · rw [if_pos hv]
    have hgv : Good T s2.cache A .var sy := hg.cast (by simp) (by simp) fun nd' e _ => by
      rw [e1] at e; cases e; exact hv
    simp only
    have hend : ∀ s3, Inv T A s3 → Step T s2 s3 → wp (do
        let fsn ← demangle_function_encoding r
        let dsin ← intern (.DynamicStructorIdentifier none (.Variable sy) b)
        let name ← synthesize_from_id dsin
        modifyNode .FunctionSymbol fsn (Node.set_name name)
        pure fsn) (fun h s' => Inv T A s' ∧ Step T s1 s' ∧ SymQ T A s h s') s3 := by
      intro s3 hi3 hs3
      have hl3 : s3.len < s.len := by have := hs1.len; have := hs3.len; omega
      refine wp.bind (wp.mono (tr_function_encoding hrec hi3 (by omega)) ?_)
      rintro h s4 ⟨hi4, hs4, ⟨l4, hc4, hi4', hraw⟩, sg, hcell⟩
      have hf : Good T s4.cache A .func h := by
        refine Good.intro hraw.1 hcell rfl trivial ?_
        rcases hraw.2 with ⟨sc, t, x1, _⟩ | ⟨sg', x1, x2⟩
        · rw [hcell] at x1; cases x1
        · rw [hcell] at x1; cases x1
          simpa [kids, kidsOf, optKid] using x2.mono fun j hj => hj.1
      refine wp.mono (wp_stub (nd := .DynamicStructorIdentifier none (.Variable sy) b) hs4
        hc4 hi4' hf rfl trivial ?_ l4) ?_
      · simpa [kidsOf, optKid] using Good.before hgv (hs3.trans hs4) (Nat.le_trans hs3.clen hc4)
      · rintro x s5 ⟨y1, y2, y3⟩
        exact ⟨y1, hs2.trans (hs3.trans y2), y3.of (hs1.trans (hs2.trans hs3))⟩
    split
    · refine wp.bind (wp.mono (tr_expectStr hi2 _ _) ?_)
      rintro _ s3 ⟨hi3, hs3, _⟩
      exact hend s3 hi3 hs3
    · refine wp.bind (wp.mono (tr_expectChar hi2 _ _) ?_)
      rintro _ s3 ⟨hi3, hs3, _⟩
      exact hend s3 hi3 hs3
  · rw [if_neg hv]
    simp only
    refine wp_downcastP e1 e2 ?_
    by_cases hf : nd.is .FunctionSymbol = true
    · rw [if_pos hf]
      simp only
      have hgf : Good T s2.cache A .func sy := hg.cast (by simp) (by simp) fun nd' e _ => by
        rw [e1] at e; cases e; exact hf
      split
      · exact wp.err trivial
      · obtain ⟨_, nd', x1, x2, x3, x4⟩ := hgf.kids_avoid
        rw [e1] at x1; cases x1
        have hres : resolve .FunctionSymbol s2.cache sy = .ok nd := by
          unfold resolve; simp [e1, hf]
        refine wp.bind (wp.bind (wp.get (wp.lift_ok hres ?_)))
        refine wp.bind (wp.okOr trivial fun old hold => ?_)
        refine wp.mono (wp_stub (nd := .DynamicStructorIdentifier none (.Name old) b) hs2 hc2 hix hgf rfl trivial ?_ l2) ?_
        · simpa [kidsOf, optKid] using Good.sym_name e1 (by rw [← kids_eq (g := .func) (by simp)]; exact x4) hold
        · rintro x s5 ⟨y1, y2, y3⟩
          exact ⟨y1, y2, y3.of hs1⟩
    · rw [if_neg hf]
      exact wp.err trivial

/-! ### The top level -/

theorem tr_special_intrinsic (hr : GoodRend T rend) (hrec : RecOK T n r) (hi : Inv T A s) (hl : s.len < n)
    (k : SpecialIntrinsicKind) (hC : k = .StringLiteralSymbol → T.inp c!"?_C") :
    Tr T A (special_intrinsic rend r k) (SymQ T A s) s := by
  cases k with
  | StringLiteralSymbol => exact (tr_string_literal hi (hC rfl)).mono fun _ _ _ _ h => h.1
  | Vftable => exact tr_special_table hr hrec hi hl _
  | Vbtable => exact tr_special_table hr hrec hi hl _
  | LocalVftable => exact tr_special_table hr hrec hi hl _
  | RttiCompleteObjLocator => exact tr_special_table hr hrec hi hl _
  | VcallThunk => exact tr_vcall_thunk hr hrec hi hl
  | LocalStaticGuard => exact tr_local_static_guard hr hrec hi hl _
  | LocalStaticThreadGuard => exact tr_local_static_guard hr hrec hi hl _
  | RttiTypeDescriptor => exact tr_rtti_type hrec hi hl
  | RttiBaseClassArray => exact tr_untyped hr hrec hi hl (T.plain (by decide))
  | RttiClassHierarchyDescriptor => exact tr_untyped hr hrec hi hl (T.plain (by decide))
  | RttiBaseClassDescriptor => exact tr_base_class hr hrec hi hl
  | DynamicInitializer => exact tr_init_fini hr hrec hi hl _
  | DynamicAtexitDestructor => exact tr_init_fini hr hrec hi hl _
  | Typeof => exact Tr.err
  | UdtReturning => exact Tr.err

theorem tr_do_parse (hr : GoodRend T rend) (hrec : RecOK T n r) (hi : Inv T A s) (hl : s.len < n + 1) :
    Tr T A (do_parse rend r) (SymQ T A s) s := by
  unfold do_parse
  refine Tr.query ?_
  refine Tr.ite (fun _ => tr_typeinfo hrec hi hl) fun _ => ?_
  refine Tr.query ?_
  refine Tr.ite (fun _ => tr_md5 hi) fun _ => ?_
  refine Tr.bind (tr_expectChar_str hi _ _) ?_
  intro _ s1 hi1 hs1 h1
  refine Tr.bind (tr_table specialIntrinsics (by decide) hi1) ?_
  intro k s2 hi2 hs2 h2
  have l2 : s2.len < n := by have := h1.2; have := hs2.len; omega
  cases k with
  | none => exact (tr_declarator hr hrec hi2 l2 fun _ => Or.inl (by rw [h2.2.1 rfl, ← h1.2.2]; exact hi.inp)).mono fun h s3 _ _ h3 =>
      SymQ.of ⟨h3.1, h3.2.1⟩ (hs1.trans hs2)
  | some k =>
    refine (tr_special_intrinsic hr hrec hi2 l2 k ?_).mono fun h s3 _ _ h3 => h3.of (hs1.trans hs2)
    rintro rfl
    obtain ⟨_, t, ht, e⟩ := h2.2.2 _ rfl
    have : t = c!"?_C" := by
      simp only [specialIntrinsics, List.mem_cons, Prod.mk.injEq, reduceCtorEq, and_false, false_or, or_false,
        and_true, List.not_mem_nil] at ht
      exact ht
    subst this
    exact T.inp_infix ⟨[], s2.str.string, by rw [e]; simp⟩ hi1.inp

theorem fns_ok (hr : GoodRend T rend) : ∀ n, RecOK T n (fns rend n)
  | 0 => ⟨fun _ _ h => absurd h (Nat.not_lt_zero _), fun _ _ h => absurd h (Nat.not_lt_zero _),
      fun _ h => absurd h (Nat.not_lt_zero _)⟩
  | n + 1 => ⟨fun q hi hl => tr_type hr (fns_ok hr n) hi hl q, fun b hi hl => tr_template hr (fns_ok hr n) hi hl b,
      fun hi hl => tr_do_parse hr (fns_ok hr n) hi hl⟩

theorem inv_init {t : Text} (ht : T.inp t) : Inv T (fun _ => True) (initSt t) :=
  { chars := rfl
    inp := ht
    size := by show 0 ≤ _; omega
    names_len := by show 0 ≤ _; omega
    params_len := by show 0 ≤ _; omega
    names := by simp [initSt]
    params := by simp [initSt]
    fresh := fun _ _ => trivial }

/-- Parsing succeeds with a well-formed tree, or fails with an error. -/
theorem parse_ok (hr : GoodRend T rend) {t : Text} (ht : T.inp t) :
    wp (fns rend (t.length + 1)).parse (fun h s' => Inv T (fun _ => True) s' ∧
      Step T (initSt t) s' ∧ Good T s'.cache (fun _ => True) .sym h ∧ s'.len < t.length) (initSt t) :=
  (fns_ok hr _).parse (inv_init ht) (Nat.lt_succ_self _)

end Undname
