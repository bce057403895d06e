/-
  The parsers of template arguments and symbols, and the recursive knot.
-/
import Verif.Proof.Types

namespace Undname
variable {T : TSpec} {A B : Handle → Prop} {s s' : St} {rend : Renderer} {r : Fns} {n : Nat}

/-! ### Template arguments -/

theorem tr_offsets (hi : Inv T A s) (k : Nat) : Tr T A (offsets k) (fun _ s' => Same s s') s := by
  unfold offsets
  refine (Tr.forN (fun (_ : List Int) s' => Same s s') hi (Same.refl s) ?_)
  intro l s1 hi1 hs1 h1
  refine Tr.bind (tr_signed hi1) ?_
  intro o s2 hi2 hs2 h2
  exact Tr.ite (fun _ => Tr.pure hi2 (h1.trans h2.1)) fun _ => Tr.err

/-- The last identifier of a well-formed qualified name. -/
theorem get_unqualified_ok {c : Cache} {qn : Handle} (hg : Good T c A .qn qn) :
    ∃ o, get_unqualified_identifier c qn = .ok o ∧ ∀ i, o = some i → Good T c A .ident i := by
  obtain ⟨nd, h1, h2, h3, h4, h5⟩ := hg.resolve
  unfold get_unqualified_identifier
  rw [h1]
  cases nd <;> first | (cases h3; done) | skip
  rename_i comps
  simp only
  have hc : Good T c A .arr comps := (h5 (.comps, comps) (by simp [kidsOf])).comps_arr
  obtain ⟨nd, e1, e2, e3, e4, e5⟩ := hc.resolve
  rw [e1]
  cases nd <;> first | (cases e3; done) | skip
  rename_i nodes
  simp only
  cases hn : nodes.getLast? with
  | none => exact ⟨none, rfl, by simp⟩
  | some x =>
    simp only
    have hx : Good T c A .any x := e5 (.any, x) (by
      simp only [kidsOf, List.mem_map]
      exact ⟨x, List.mem_of_getLast? hn, rfl⟩)
    obtain ⟨nx, x0, x1, x2⟩ := resolve_good hx
    unfold downcast
    rw [x0]
    refine ⟨_, rfl, ?_⟩
    intro i hi
    split at hi
    · next hk =>
      cases hi
      exact hx.cast (by simp) (by simp) fun nd h _ => by rw [x1] at h; cases h; exact hk
    · cases hi

theorem Chain.unqualified {i qn : Handle} (h : Chain T A B i qn s) :
    get_unqualified_identifier s.cache qn = .ok (some i) := by
  obtain ⟨comps, pieces, h1, h2, _, _, _, h6⟩ := h
  have r1 : resolve .QualifiedName s.cache qn = .ok (.QualifiedName comps) := by
    unfold resolve; simp [h1, Node.is]
  have r2 : resolve .NodeArray s.cache comps = .ok (.NodeArray (pieces ++ [i])) := by
    unfold resolve; simp [h2, Node.is]
  unfold get_unqualified_identifier
  rw [r1]; simp only; rw [r2]; simp only [List.getLast?_append, List.getLast?_singleton, Option.some_or]
  obtain ⟨nx, x0, x1, x2⟩ := resolve_good (h6.toAny (by simp))
  obtain ⟨ny, y0, y1, y2⟩ := resolve_good h6
  rw [x1] at y1; cases y1
  unfold downcast
  rw [x0]
  simp [y2]

theorem Good.sym_name {c : Cache} {h q : Handle} {nd : Node} (_ : c[h]? = some nd)
    (hk : ∀ p ∈ kidsOf nd, Good T c A p.1 p.2) (hn : nd.get_name = some q) : Good T c A .qn q := by
  refine hk (.qn, q) ?_
  unfold Node.get_name at hn
  split at hn <;> first | (cases hn; done) | skip
  all_goals
    first
    | (simp only [Option.some.injEq] at hn; subst hn; simp [kidsOf]; done)
    | (subst hn; simp [kidsOf, optKid])

theorem tr_symbol_identifier (hi : Inv T A s) {h : Handle} (hg : Good T s.cache A .sym h) :
    Tr T A (symbol_identifier h) (fun i s' => Good T s'.cache A .ident i ∧ s' = s) s := by
  unfold symbol_identifier
  refine tr_resolveP hg fun nd h1 h2 h3 h4 => ?_
  split
  · exact Tr.err
  · next q hq =>
    refine Tr.get ?_
    obtain ⟨o, ho, hoi⟩ := get_unqualified_ok (Good.sym_name h1 h4 hq)
    refine Tr.lift ho ?_
    exact Tr.okOr hi fun i hi' => ⟨hoi i hi', rfl⟩

theorem tr_template_param_ref (hi : Inv T A s) {sy : Option Handle} {o : List Int} {a : Option PointerAffinity}
    {b : Bool} (hs : ∀ h, sy = some h → Good T s.cache A .sym h) :
    Tr T A (intern (.TemplateParameterReference sy o a b)) (fun h s' => Good T s'.cache A .any h ∧ s'.len = s.len) s := by
  refine (tr_intern_good hi .any (by rfl) (by trivial) ?_).mono ?_
  · intro p hp
    cases sy with
    | none => simp [kids, kidsOf, optKid] at hp
    | some t => simp only [kids, kidsOf, optKid, List.mem_singleton] at hp; subst hp; exact hs t rfl
  · rintro h s1 hi1 hs1 ⟨h1, _, _, h4⟩
    exact ⟨h1, h4⟩

theorem tr_member_offsets (hi : Inv T A s) (spec : Char) :
    Tr T A (match spec with
      | '1' => offsets 0
      | 'H' => offsets 1
      | 'I' => offsets 2
      | 'J' => offsets 3
      | _ => SM.err .InvalidTemplateParameterList) (fun _ s' => Same s s') s := by
  split
  · exact tr_offsets hi _
  · exact tr_offsets hi _
  · exact tr_offsets hi _
  · exact tr_offsets hi _
  · exact Tr.err

theorem tr_template_member_pointer (hr : GoodRend T rend) (hrec : RecOK T n r) (hi : Inv T A s)
    (hl : s.len < n) (spec : Char) :
    Tr T A (template_member_pointer rend r spec)
      (fun h s' => Good T s'.cache A .any h) s := by
  unfold template_member_pointer
  refine Tr.query ?_
  have hend : ∀ sy, ∀ s1, Inv T A s1 → (∀ h, sy = some h → Good T s1.cache A .sym h) →
      ∀ (m : P (List Int)), Tr T A m (fun _ s' => Same s1 s') s1 → Tr T A (do
      let symbol ← pure sy
      let offs ← m
      intern (.TemplateParameterReference symbol offs (some .Pointer) true))
      (fun h s' => Good T s'.cache A .any h) s1 := by
    intro sy s1 hi1 hsy m hm
    show Tr T A (do
      let offs ← m
      intern (.TemplateParameterReference sy offs (some .Pointer) true))
      (fun h s' => Good T s'.cache A .any h) s1
    refine Tr.bind hm ?_
    intro offs s2 hi2 hs2 h2
    exact (tr_template_param_ref hi2 fun h hh => hs2.ext (hsy h hh)).mono fun _ _ _ _ h => h.1
  simp only
  split
  · refine Tr.bind (hrec.parse hi hl) ?_
    rintro sy s1 hi1 hs1 ⟨h1, _⟩
    refine Tr.bind (tr_symbol_identifier hi1 h1) ?_
    rintro i s2 hi2 hs2 ⟨h2, rfl⟩
    refine Tr.bind (tr_memorize_identifier hr hi2 h2) ?_
    intro _ s3 hi3 hs3 _
    have hh : ∀ h, some sy = some h → Good T s3.cache A .sym h := by rintro h ⟨rfl⟩; exact hs3.ext h1
    split
    · exact hend _ s3 hi3 hh _ (tr_offsets hi3 _)
    · exact hend _ s3 hi3 hh _ (tr_offsets hi3 _)
    · exact hend _ s3 hi3 hh _ (tr_offsets hi3 _)
    · exact hend _ s3 hi3 hh _ (tr_offsets hi3 _)
    · exact Tr.err
  · split
    · exact hend none s hi (by simp) _ (tr_offsets hi _)
    · exact hend none s hi (by simp) _ (tr_offsets hi _)
    · exact hend none s hi (by simp) _ (tr_offsets hi _)
    · exact hend none s hi (by simp) _ (tr_offsets hi _)
    · exact Tr.err

theorem tr_template_data_member_pointer (hi : Inv T A s) (spec : Char) :
    Tr T A (template_data_member_pointer spec) (fun h s' => Good T s'.cache A .any h) s := by
  unfold template_data_member_pointer
  have hend : ∀ (m : P (List Int)), Tr T A m (fun _ s' => Same s s') s → Tr T A (do
      let offs ← m
      intern (.TemplateParameterReference none offs none true))
      (fun h s' => Good T s'.cache A .any h) s := by
    intro m hm
    refine Tr.bind hm ?_
    intro offs s2 hi2 hs2 h2
    exact (tr_template_param_ref hi2 (by simp)).mono fun _ _ _ _ h => h.1
  split
  · exact hend _ (tr_offsets hi _)
  · exact hend _ (tr_offsets hi _)
  · exact Tr.err

theorem spec_ne {auto : Bool} {l : List Char} :
    ∀ p ∈ l.map (fun c => (if auto then [c] else ['$', c], c)), p.1 ≠ [] := by
  intro p hp
  obtain ⟨c, _, rfl⟩ := List.mem_map.1 hp
  cases auto <;> simp

theorem tr_template_argument (hr : GoodRend T rend) (hrec : RecOK T n r) (hi : Inv T A s)
    (hl : s.len < n) (auto : Bool) :
    Tr T A (template_argument rend r auto)
      (fun h s' => Good T s'.cache A .any h ∧ s'.len < s.len) s := by
  unfold template_argument
  refine Tr.bind (tr_tryStr' hi _) ?_
  intro y s1 hi1 hs1 h1
  refine Tr.ite (fun hb => ?_) fun hb => ?_
  · refine (tr_qualified_type_name hr hrec hi1 (by have := hs1.len; omega)).mono ?_
    rintro h s2 _ hs2 ⟨h2, h3⟩
    exact ⟨h2.toAny (by simp), by have := hs1.len; omega⟩
  refine Tr.bind (tr_tryStr' hi1 _) ?_
  intro y s2 hi2 hs2 h2
  have l2 := hs2.len
  have l1 := hs1.len
  refine Tr.ite (fun hb => ?_) fun hb => ?_
  · refine (hrec.type _ hi2 (by omega)).mono ?_
    rintro h s3 _ hs3 ⟨h2, h3⟩
    exact ⟨h2.toAny (by simp), by omega⟩
  refine Tr.bind (tr_tryStr' hi2 _) ?_
  intro y s3 hi3 hs3 h3
  have l3 := hs3.len
  refine Tr.ite (fun hb => ?_) fun hb => ?_
  · refine (hrec.type _ hi3 (by omega)).mono ?_
    rintro h s4 _ hs4 ⟨h2, h3⟩
    exact ⟨h2.toAny (by simp), by omega⟩
  unfold trySpecifier
  refine Tr.bind (tr_table _ spec_ne hi3) ?_
  intro mp s4 hi4 hs4 h4
  have l4 := hs4.len
  split
  · next spec =>
    have := (h4.2.2 spec rfl).1
    refine (tr_template_member_pointer hr hrec hi4 (by omega) spec).mono ?_
    intro h s5 _ hs5 h5
    exact ⟨h5, by have := hs5.len; omega⟩
  refine Tr.query ?_
  refine Tr.ite (fun hb => ?_) fun hb => ?_
  · refine Tr.bind (tr_expectStr hi4 _ _) ?_
    intro _ s5 hi5 hs5 h5
    have l5 := hs5.len
    refine Tr.bind (hrec.parse hi5 (by omega)) ?_
    rintro sy s6 hi6 hs6 ⟨h6, h7⟩
    refine (tr_template_param_ref hi6 (by rintro h ⟨rfl⟩; exact h6)).mono ?_
    rintro h s7 _ hs7 ⟨h8, h9⟩
    exact ⟨h8, by omega⟩
  refine Tr.bind (tr_table _ spec_ne hi4) ?_
  intro dp s5 hi5 hs5 h5
  have l5 := hs5.len
  split
  · next spec =>
    have := (h5.2.2 spec rfl).1
    refine (tr_template_data_member_pointer hi5 spec).mono ?_
    intro h s6 _ hs6 h6
    exact ⟨h6, by have := hs6.len; omega⟩
  refine Tr.bind (tr_tryStr' hi5 _ (by split <;> simp)) ?_
  intro z s6 hi6 hs6 h6
  have l6 := hs6.len
  refine Tr.ite (fun hb => ?_) fun hb => ?_
  · refine Tr.bind (tr_number hi6) ?_
    rintro ⟨v, neg⟩ s7 hi7 hs7 h7
    refine (tr_intern_good (nd := .IntegerLiteral v neg) hi7 .any rfl trivial (by simp [kids, kidsOf])).mono ?_
    rintro h s8 _ hs8 ⟨h8, _, _, h9⟩
    exact ⟨h8, by have := h7.2.1; omega⟩
  · refine (hrec.type _ hi6 (by omega)).mono ?_
    rintro h s7 _ hs7 ⟨h2, h3⟩
    exact ⟨h2.toAny (by simp), by omega⟩

theorem tr_template_params (hr : GoodRend T rend) (hrec : RecOK T n r) (hi : Inv T A s) (hl : s.len < n) :
    Tr T A (demangle_template_parameter_list rend r) (fun h s' => Good T s'.cache A .arr h) s := by
  unfold demangle_template_parameter_list
  refine Tr.bind (Q := fun (l : List Handle) s' => ∀ h ∈ l, Good T s'.cache A .any h)
    (Tr.loop (fun (l : List Handle) s' => ∀ h ∈ l, Good T s'.cache A .any h) hi (by simp) ?_) ?_
  · intro nodes s1 hi1 hs1 hn
    unfold templateListBody
    refine Tr.bind (tr_tryChar hi1 '@') ?_
    intro e s2 hi2 hs2 h2
    have l1 := hs1.len
    have l2 := hs2.len
    have hn2 : ∀ h ∈ nodes, Good T s2.cache A .any h := fun h hh => hs2.ext (hn h hh)
    refine Tr.ite (fun _ => Tr.pure hi2 hn2) fun _ => ?_
    refine Tr.bind (tr_table _ (by decide) hi2) ?_
    intro p s3 hi3 hs3 h3
    have l3 := hs3.len
    have hn3 : ∀ h ∈ nodes, Good T s3.cache A .any h := fun h hh => hs3.ext (hn2 h hh)
    refine Tr.ite (fun hp => Tr.pure hi3 ⟨hn3, ?_⟩) fun _ => ?_
    · obtain ⟨x, hx⟩ := Option.isSome_iff_exists.1 hp
      have := (h3.2.2 x hx).1; omega
    refine Tr.query ?_
    refine Tr.ite (fun _ => Tr.err) fun _ => ?_
    refine Tr.bind (tr_tryStr' hi3 _) ?_
    intro auto s4 hi4 hs4 h4
    have l4 := hs4.len
    refine Tr.bind (Q := fun _ _ => True) (Tr.whenB hi4 (fun hb => ?_) fun _ => trivial) ?_
    · refine Tr.bind (hrec.type _ hi4 (by omega)) ?_
      intro _ s5 hi5 hs5 _
      exact Tr.pure hi5 trivial
    intro _ s5 hi5 hs5 _
    have l5 := hs5.len
    refine Tr.bind (tr_template_argument hr hrec hi5 (by omega) auto) ?_
    rintro x s6 hi6 hs6 ⟨h6, h7⟩
    refine Tr.pure hi6 ⟨?_, by omega⟩
    intro h hh
    rcases List.mem_append.1 hh with hh | hh
    · exact hs6.ext (hs5.ext (hs4.ext (hn3 h hh)))
    · simp only [List.mem_singleton] at hh; subst hh; exact h6
  · intro nodes s2 hi2 hs2 hn
    refine (tr_intern_good (nd := .NodeArray nodes) hi2 .arr rfl trivial ?_).mono fun _ _ _ _ h => h.1
    intro p hp
    simp only [kids, kidsOf, List.mem_map] at hp
    obtain ⟨x, hx, rfl⟩ := hp
    exact hn x hx

/-- Template instantiation names. -/
theorem tr_template (hr : GoodRend T rend) (hrec : RecOK T n r) (hi : Inv T A s) (hl : s.len < n + 1) (b : NBB) :
    Tr T A (demangle_template_instantiation_name rend r b) (Fresh T A s) s := by
  unfold demangle_template_instantiation_name
  refine Tr.bind (tr_expectStr_str hi _ _) ?_
  intro _ s1 hi1 hs1 h1
  refine Tr.get ?_
  refine wp.bind (wp.modify ?_)
  have hi2 : Inv T A { s1 with names := [], function_params := [] } :=
    { hi1 with names_len := by simp, params_len := by simp, names := by simp, params := by simp }
  have hs2 : Step T s1 { s1 with names := [], function_params := [] } :=
    ⟨id, Nat.le_refl _, Nat.le_refl _, fun h _ => h⟩
  have hl2 : St.len { s1 with names := [], function_params := [] } < n := by
    have := h1.2; show s1.len < n; omega
  refine wp.bind (wp.mono (tr_symbol_name hrec hi2 hl2 .Simple fun _ => Or.inr (h1.2.2 ▸ hi.inp)) ?_)
  rintro i s3 ⟨hi3, hs3, h3⟩
  rcases h3.2 with ⟨_, hm⟩ | ⟨f1, f2, f3, f4⟩
  · cases hm
  refine wp.bind (wp.mono (tr_template_params hr hrec f4 (by omega)) ?_)
  rintro tp s4 ⟨hi4, hs4, h4⟩
  have hgi : Good T s4.cache A .ident i := hs4.ext f1
  obtain ⟨nd, e0, e1, e2⟩ := resolve_good hgi
  refine wp.bind (wp_modify e1 e2 ?_)
  refine wp.bind (wp.modify ?_)
  obtain ⟨k1, k2, k3⟩ := set_template_params_ok (T := T) tp e2
  have hset : ∀ {g h}, Good T s4.cache A g h → Good T (s4.cache.set i (nd.set_template_params tp)) A g h := by
    intro g h hg
    refine hg.set_ident hgi e1 k1 k2 ?_
    intro g p hp
    rcases k3 g p hp with h | rfl
    · exact Or.inl h
    · exact Or.inr h4
  have hfz := is_ident_not_frozen e2
  have hstep : Step T s1 s4 := hs2.trans (hs3.trans hs4)
  have hs5 := hstep.set_late (nd' := nd.set_template_params tp) f3 e1 hfz
  have hi5 := hi4.set_avoid (nd' := nd.set_template_params tp) fun j h => h.2
  have hi6 := hi1.restore hs5 f3 hi5
  generalize hS6 : ({ s4 with cache := s4.cache.set i (nd.set_template_params tp), names := s1.names, function_params := s1.function_params } : St) = s6 at hi6
  have hs6 : Step T s1 s6 := by
    subst hS6
    exact ⟨hs5.ext, hs5.len, hs5.clen, hs5.frz⟩
  have hg6 : Good T s6.cache A .ident i := by subst hS6; exact hset hgi
  have hlen6 : s6.len < s1.len := by
    have : s6.len = s4.len := by subst hS6; rfl
    have := hs4.len
    have h : s3.len < s1.len := f2
    omega
  have f3' : s.cache.length ≤ i := Nat.le_trans hs1.clen f3
  have hend : ∀ s7, Inv T (fun j => A j ∧ j ≠ i) s7 → Step T s6 s7 →
      wp (pure i : P Handle) (fun a s' => Inv T A s' ∧ Step T s1 s' ∧ Fresh T A s a s') s7 := by
    intro s7 hi7 hs7
    refine wp.pure ⟨hi7.mono fun j h => h.1, hs6.trans hs7, hs7.ext hg6, ?_, f3', hi7⟩
    have := hs7.len; have := hs1.len; omega
  show wp _ _ s6
  split
  · have hg6' := hg6
    obtain ⟨nd6, r0, r1, r2⟩ := resolve_good hg6
    refine wp.bind (wp.bind (wp.get (wp.lift_ok r0 ?_)))
    split
    · exact wp.err trivial
    · refine wp.bind (wp.mono (tr_memorize_identifier hr hi6 hg6) ?_)
      rintro _ s7 ⟨hi7, hs7, _⟩
      exact hend s7 hi7 hs7
  · exact hend s6 hi6 (Step.refl _)


/-! ### Symbols -/

theorem pointer_or_quals_same (q : Qualifiers) (nd : Node) :
    (∀ g : GK, g.ok nd = true → g.ok (pointer_or_quals q nd) = true) ∧
    (nodeOK T nd → nodeOK T (pointer_or_quals q nd)) ∧ (∀ g, kids g (pointer_or_quals q nd) = kids g nd) ∧
    (nd.frozen = true → pointer_or_quals q nd = nd) := by
  refine ⟨?_, ?_, ?_, ?_⟩
  · intro g
    cases g with
    | k kd => cases kd <;> cases nd <;> exact id
    | dims => cases nd <;> exact id
    | comps => cases nd <;> exact id
    | intLit => cases nd <;> exact id
  · cases nd <;> exact id
  · intro g; cases g <;> cases nd <;> rfl
  · cases nd <;> intro h <;> first | rfl | cases h

theorem set_function_class_same (q : FuncClass) (nd : Node) :
    (∀ g : GK, g.ok nd = true → g.ok (nd.set_function_class q) = true) ∧
    (nodeOK T nd → nodeOK T (nd.set_function_class q)) ∧ (∀ g, kids g (nd.set_function_class q) = kids g nd) ∧
    (nd.frozen = true → nd.set_function_class q = nd) := by
  refine ⟨?_, ?_, ?_, ?_⟩
  · intro g
    cases g with
    | k kd => cases kd <;> cases nd <;> exact id
    | dims => cases nd <;> exact id
    | comps => cases nd <;> exact id
    | intLit => cases nd <;> exact id
  · cases nd <;> exact id
  · intro g; cases g <;> cases nd <;> rfl
  · cases nd <;> intro h <;> first | rfl | cases h

theorem set_scope_index_same (q : Nat) (nd : Node) :
    (∀ g : GK, g.ok nd = true → g.ok (set_scope_index q nd) = true) ∧
    (nodeOK T nd → nodeOK T (set_scope_index q nd)) ∧ (∀ g, kids g (set_scope_index q nd) = kids g nd) ∧
    (nd.frozen = true → set_scope_index q nd = nd) := by
  refine ⟨?_, ?_, ?_, ?_⟩
  · intro g
    cases g with
    | k kd => cases kd <;> cases nd <;> exact id
    | dims => cases nd <;> exact id
    | comps => cases nd <;> exact id
    | intLit => cases nd <;> exact id
  · cases nd <;> exact id
  · intro g; cases g <;> cases nd <;> rfl
  · cases nd <;> intro h <;> first | rfl | cases h

theorem set_offset_same (q : Nat) (nd : Node) :
    (∀ g : GK, g.ok nd = true → g.ok (set_offset q nd) = true) ∧
    (nodeOK T nd → nodeOK T (set_offset q nd)) ∧ (∀ g, kids g (set_offset q nd) = kids g nd) ∧
    (nd.frozen = true → set_offset q nd = nd) := by
  refine ⟨?_, ?_, ?_, ?_⟩
  · intro g
    cases g with
    | k kd => cases kd <;> cases nd <;> exact id
    | dims => cases nd <;> exact id
    | comps => cases nd <;> exact id
    | intLit => cases nd <;> exact id
  · cases nd <;> exact id
  · intro g; cases g <;> cases nd <;> rfl
  · cases nd <;> intro h <;> first | rfl | cases h

theorem tr_variable_quals (hr : GoodRend T rend) (hrec : RecOK T n r) (hi : Inv T A s) (hl : s.len < n)
    {t : Handle} (hg : Good T s.cache A .type t) :
    Tr T A (variable_quals rend r t) (fun _ _ => True) s := by
  unfold variable_quals
  refine tr_downcastP hg fun nd h1 h2 => ?_
  by_cases hp : nd.is .PointerType = true
  · rw [if_pos hp]
    simp only
    refine Tr.bind (tr_ext_quals hi) ?_
    intro q s1 hi1 hs1 hq
    have hgp : Good T s1.cache A (.k .PointerType) t :=
      hs1.ext (hg.cast (by simp) (by simp) fun nd' h _ => by rw [h1] at h; cases h; exact hp)
    refine tr_resolveP hgp fun nd1 e1 e2 e3 e4 => ?_
    cases nd1 <;> first | (cases e2; done) | skip
    rename_i qs aff cp pointee
    simp only
    have hpo : Good T s1.cache A .type pointee := e4 (.type, pointee) (by simp [kidsOf])
    refine Tr.bind (tr_modify_same hi1 hgp fun nd _ => pointer_or_quals_same _ nd) ?_
    intro _ s2 hi2 hs2 _
    refine Tr.bind (tr_qualifiers hi2) ?_
    rintro ⟨eq, _⟩ s3 hi3 hs3 _
    have l1 := hs1.len
    have l2 := hs2.len
    have l3 := hs3.len
    refine Tr.bind (Q := fun _ _ => True) (Tr.whenB hi3 (fun _ => ?_) fun _ => trivial) ?_
    · refine Tr.bind (tr_qualified_type_name hr hrec hi3 (by omega)) ?_
      intro _ s4 hi4 _ _
      exact Tr.pure hi4 trivial
    · intro _ s4 hi4 hs4 _
      exact (tr_modify_same hi4 (hs4.ext (hs3.ext (hs2.ext hpo))) fun nd _ => append_quals_same _ nd).mono
        fun _ _ _ _ _ => trivial
  · rw [if_neg hp]
    simp only
    refine Tr.bind (tr_qualifiers hi) ?_
    rintro ⟨q, _⟩ s1 hi1 hs1 _
    exact (tr_modify_same hi1 (hs1.ext hg) fun nd _ => set_quals_same _ nd).mono fun _ _ _ _ _ => trivial

/-- Interning a node, which nothing else uses. -/
theorem tr_intern_raw (hi : Inv T A s) (nd : Node) :
    Tr T A (intern nd) (fun h s' => h = s.cache.length ∧ s'.cache = s.cache ++ [nd] ∧ s'.len = s.len ∧
      Inv T (fun i => A i ∧ i ≠ h) s' ∧
      ∀ {g x}, Good T s.cache A g x → Good T s'.cache (fun i => A i ∧ i ≠ h) g x) s :=
  (tr_intern hi nd).mono fun h s' hi' _ hq => by
    obtain ⟨h1, h2, h3, h4, h5⟩ := hq
    subst h1
    have key : ∀ {g h}, Good T s.cache A g h → Good T s'.cache (fun i => A i ∧ i ≠ s.cache.length) g h := by
      intro g h hg
      rw [h2]
      exact (hg.bound.append _).mono fun i hi => ⟨hi.1, Nat.ne_of_lt hi.2⟩
    refine ⟨rfl, h2, by simp [St.len, h3], ?_, key⟩
    exact { hi' with
      names := fun x hx => key (hi.names x (by rw [← h4]; exact hx))
      params := fun x hx => key (hi.params x (by rw [← h5]; exact hx))
      fresh := fun i hii => ⟨hi'.fresh i hii, by rw [h2, List.length_append] at hii; exact Nat.ne_of_gt hii⟩ }

/-- A symbol that does not have its name yet. -/
def RawSym (T : TSpec) (A : Handle → Prop) (h : Handle) (s : St) : Prop :=
  A h ∧ ((∃ sc t, s.cache[h]? = some (.VariableSymbol none sc (some t)) ∧
      Good T s.cache (fun j => A j ∧ j ≠ h) .type t) ∨
    ∃ sg, s.cache[h]? = some (.FunctionSymbol none sg) ∧ Good T s.cache (fun j => A j ∧ j ≠ h) .sig sg)

/-- The result of parsing an encoding: a new symbol without name. -/
def RawQ (T : TSpec) (A : Handle → Prop) (s : St) (h : Handle) (s' : St) : Prop :=
  s'.len < s.len ∧ s.cache.length ≤ h ∧ Inv T (fun j => A j ∧ j ≠ h) s' ∧ RawSym T A h s'

theorem tr_variable_encoding (hr : GoodRend T rend) (hrec : RecOK T n r) (hi : Inv T A s) (hl : s.len < n)
    (sc : StorageClass) : Tr T A (demangle_variable_encoding rend r sc) (RawQ T A s) s := by
  unfold demangle_variable_encoding
  refine Tr.bind (hrec.type _ hi hl) ?_
  rintro t s1 hi1 hs1 ⟨h1, h2⟩
  refine Tr.bind (tr_variable_quals hr hrec hi1 (by omega) h1) ?_
  intro _ s2 hi2 hs2 _
  refine (tr_intern_raw hi2 _).mono ?_
  rintro h s3 hi3 hs3 ⟨rfl, h4, h5, h6, h7⟩
  refine ⟨by have := hs2.len; omega, Nat.le_trans hs1.clen hs2.clen, h6, hi2.fresh _ (Nat.le_refl _), Or.inl ?_⟩
  exact ⟨some sc, t, by rw [h4]; simp, h7 (hs2.ext h1)⟩

theorem tr_thunk_adjust (hi : Inv T A s) (fc : FuncClass) :
    Tr T A (thunk_adjust fc) (fun _ s' => Same s s') s := by
  unfold thunk_adjust
  refine Tr.ite (fun _ => ?_) fun _ => ?_
  · refine Tr.bind (tr_signed hi) ?_
    intro _ s1 hi1 _ h1
    exact Tr.pure hi1 h1.1
  refine Tr.ite (fun _ => ?_) fun _ => Tr.pure hi (Same.refl s)
  refine Tr.ite (fun _ => ?_) fun _ => ?_
  · refine Tr.bind (tr_signed hi) ?_
    intro _ s1 hi1 _ h1
    refine Tr.bind (tr_signed hi1) ?_
    intro _ s2 hi2 _ h2
    refine Tr.bind (tr_signed hi2) ?_
    intro _ s3 hi3 _ h3
    refine Tr.bind (tr_signed hi3) ?_
    intro _ s4 hi4 _ h4
    exact Tr.pure hi4 (((h1.1.trans h2.1).trans h3.1).trans h4.1)
  · refine Tr.bind (tr_signed hi) ?_
    intro _ s1 hi1 _ h1
    refine Tr.bind (tr_signed hi1) ?_
    intro _ s2 hi2 _ h2
    exact Tr.pure hi2 (h1.1.trans h2.1)

theorem tr_function_encoding (hrec : RecOK T n r) (hi : Inv T A s) (hl : s.len < n + 1) :
    Tr T A (demangle_function_encoding r) (fun h s' => RawQ T A s h s' ∧
      ∃ sg, s'.cache[h]? = some (.FunctionSymbol none sg)) s := by
  unfold demangle_function_encoding
  refine Tr.bind (tr_tryStr' hi _) ?_
  intro ec s1 hi1 hs1 h1
  refine Tr.query ?_
  refine Tr.ite (fun _ => Tr.err) fun _ => ?_
  refine Tr.bind (tr_function_class hi1) ?_
  intro fc s2 hi2 hs2 h2
  simp only
  generalize (fc ||| if ec = true then FuncClass.FC_ExternC else FuncClass.FC_None) = fc
  refine Tr.bind (tr_thunk_adjust hi2 fc) ?_
  intro ttn s3 hi3 hs3 h3
  have hl3 : s3.len < s.len := by have := h2.2; have := hs1.len; have := hs3.len; omega
  have hc3 : s.cache.length ≤ s3.cache.length := Nat.le_trans (Nat.le_trans hs1.clen hs2.clen) hs3.clen
  have hfin : ∀ sg, ∀ s4, Inv T A s4 → Step T s3 s4 → Good T s4.cache A .sig sg → Tr T A (do
      modifyNode .ISignatureNode sg (Node.set_function_class fc)
      intern (.FunctionSymbol none sg)) (fun h s' => RawQ T A s h s' ∧
      ∃ sg, s'.cache[h]? = some (.FunctionSymbol none sg)) s4 := by
    intro sg s4 hi4 hs4 hg
    refine Tr.bind (tr_modify_same hi4 hg fun nd _ => set_function_class_same _ nd) ?_
    intro _ s5 hi5 hs5 _
    refine (tr_intern_raw hi5 _).mono ?_
    rintro h s6 hi6 hs6 ⟨rfl, h4, h5, h6, h7⟩
    have hcell : s6.cache[s5.cache.length]? = some (.FunctionSymbol none sg) := by rw [h4]; simp
    refine ⟨⟨by have := hs4.len; have := hs5.len; omega, ?_, h6, hi5.fresh _ (Nat.le_refl _), Or.inr ?_⟩, sg, hcell⟩
    · exact Nat.le_trans hc3 (Nat.le_trans hs4.clen hs5.clen)
    · exact ⟨sg, hcell, h7 (hs5.ext hg)⟩
  have hsig : ∀ f, ∀ s4, Inv T A s4 → Step T s3 s4 → Good T s4.cache A (.k .FunctionSignature) f → Tr T A (do
      let signature ← match ttn with
        | some adjust => do
          let fs ← resolveP .FunctionSignature f
          intern (.ThunkSignature fs.asFuncSig adjust)
        | none => pure f
      modifyNode .ISignatureNode signature (Node.set_function_class fc)
      intern (.FunctionSymbol none signature)) (fun h s' => RawQ T A s h s' ∧
      ∃ sg, s'.cache[h]? = some (.FunctionSymbol none sg)) s4 := by
    intro f s4 hi4 hs4 hg
    cases ttn with
    | none => exact hfin f s4 hi4 hs4 hg.sig_of_fsig
    | some adjust =>
      simp only
      refine tr_resolveP hg fun nd e1 e2 e3 e4 => ?_
      cases nd <;> first | (cases e2; done) | skip
      rename_i fs
      refine Tr.bind (tr_intern_good (nd := .ThunkSignature fs adjust) hi4 .sig rfl trivial e4) ?_
      rintro sg s5 hi5 hs5 ⟨h5, _⟩
      exact hfin sg s5 hi5 (hs4.trans hs5) h5
  split
  · refine Tr.bind (tr_intern_good (nd := .FunctionSignature {}) hi3 (.k .FunctionSignature) rfl trivial
      (by simp [kids, kidsOf, sigKids, optKid])) ?_
    rintro f s4 hi4 hs4 ⟨h4, _⟩
    exact hsig f s4 hi4 hs4 h4
  · refine Tr.bind (tr_function_type hrec hi3 (by omega) _) ?_
    rintro f s4 hi4 hs4 ⟨h4, _⟩
    exact hsig f s4 hi4 hs4 h4

theorem set_self {c : Cache} {i : Handle} {nd : Node} (h : c[i]? = some nd) : c.set i nd = c := by
  apply List.ext_getElem?
  intro j
  by_cases hij : i = j
  · subst hij; rw [getElem?_set_self' h, h]
  · rw [List.getElem?_set_ne hij]

/-- Symbols: the encoding after a name `qn` whose last identifier is `i`. -/
theorem wp_encoded {s0 : St} (hr : GoodRend T rend) (hrec : RecOK T n r) (hBA : ∀ j, B j → A j)
    (hi : Inv T B s) (hl : s.len < n) (hs0 : Step T s0 s) {i qn : Handle} (hc : Chain T A B i qn s)
    (hN : Good T s.cache A .named i ∨ (s0.cache.length ≤ i ∧ ∀ j, B j → j ≠ i)) :
    wp (demangle_encoded_symbol rend r qn) (fun h s' => s'.len < s.len ∧ s0.cache.length ≤ h ∧
      Step T s0 s' ∧ Inv T (fun j => B j ∧ j ≠ h) s' ∧ RawSym T B h s' ∧
      Good T s'.cache (fun j => A j ∧ j ≠ h) .qn qn) s := by
  unfold demangle_encoded_symbol
  refine wp.bind (wp.bind (wp.get (wp.pure ?_)))
  refine wp.bind (wp.okOr trivial fun c hcc => ?_)
  split
  · rename_i hcd
    have hst : ∃ c l, s.str.string = c :: l ∧ (c = '0' ∨ c = '1' ∨ c = '2' ∨ c = '3' ∨ c = '4') := by
      unfold MStr.first_char at hcc
      cases hl : s.str.string with
      | nil => rw [hl] at hcc; simp at hcc
      | cons d l =>
        rw [hl] at hcc
        simp only [List.head?_cons, Option.some.injEq] at hcc
        subst hcc
        exact ⟨d, l, rfl, by simpa [or_assoc] using hcd⟩
    refine wp.bind (wp.mono (tr_storage_class hi hst) ?_)
    rintro sc s1 ⟨hi1, hs1, h1⟩
    refine wp.mono (tr_variable_encoding hr hrec hi1 (by have := h1.2; omega) sc) ?_
    rintro h s2 ⟨hi2, hs2, h2, h3, h4, h5⟩
    refine ⟨by have := h1.2; omega, ?_, hs0.trans (hs1.trans hs2), h4, h5, ?_⟩
    · exact Nat.le_trans hs0.clen (Nat.le_trans hs1.clen h3)
    · exact (hc.good hBA).before (hs1.trans hs2) (Nat.le_trans hs1.clen h3)
  · refine wp.bind (wp.mono (tr_function_encoding hrec hi (by omega)) ?_)
    rintro h s1 ⟨hi1, hs1, ⟨h1, h2, h3, h4⟩, sg', h5⟩
    obtain ⟨hB, hraw⟩ := h4
    have hsg : Good T s1.cache (fun j => B j ∧ j ≠ h) .sig sg' := by
      rcases hraw with ⟨sc, t, e1, _⟩ | ⟨sg, e1, e2⟩
      · rw [h5] at e1; cases e1
      · rw [h5] at e1; cases e1; exact e2
    obtain ⟨snd, r0, r1, r2, r3, r4⟩ := hsg.resolve
    have hrt : function_return_type h s1 = .ok (snd.asFuncSig.return_type, s1) := by
      have q1 : resolveP .FunctionSymbol h s1 = .ok (.FunctionSymbol none sg', s1) := by
        show SM.lift (resolve _ s1.cache h) s1 = _
        unfold resolve; simp [h5, Node.is, SM.lift]
      have q2 : resolveP .ISignatureNode sg' s1 = .ok (snd, s1) := by
        show SM.lift (resolve _ s1.cache sg') s1 = _
        rw [r0]; rfl
      unfold function_return_type
      show SM.bind (resolveP .FunctionSymbol h) _ s1 = _
      unfold SM.bind
      rw [q1]
      show SM.bind (resolveP .ISignatureNode sg') _ s1 = _
      unfold SM.bind
      rw [q2]
      rfl
    refine wp.bind ?_
    unfold wp
    rw [hrt]
    show wp _ _ s1
    refine wp.bind (wp.get ?_)
    have hc1 := hc.step hs1
    refine wp.bind (wp.lift_ok hc1.unqualified ?_)
    refine wp.bind (wp.okOr trivial ?_)
    rintro _ ⟨rfl⟩
    have hrtg : ∀ t, snd.asFuncSig.return_type = some t → Good T s1.cache (fun j => B j ∧ j ≠ h) .type t := by
      intro t ht
      refine r4 (.type, t) ?_
      cases snd <;> first | (cases ht; done) | skip
      · rename_i f
        have : f.return_type = some t := ht
        simp [kidsOf, sigKids, this, optKid]
      · rename_i f _
        have : f.return_type = some t := ht
        simp [kidsOf, sigKids, this, optKid]
    have hgi1 : Good T s1.cache (fun j => A j ∧ j ≠ h) .ident i := by
      obtain ⟨_, _, _, _, _, _, _, g⟩ := hc
      exact g.before hs1 h2
    have hqn1 : Good T s1.cache (fun j => A j ∧ j ≠ h) .qn qn := (hc.good hBA).before hs1 h2
    obtain ⟨nd, e0, e1, e2⟩ := resolve_good hgi1
    refine wp.bind (wp_modify e1 e2 ?_)
    refine wp.pure ?_
    rcases hN with hN | ⟨hi0, hBi⟩
    · -- a back reference: nothing changes
      have hsame : set_target_type snd.asFuncSig.return_type nd = nd := by
        obtain ⟨nd', _, y1, y2⟩ := resolve_good (hs1.ext hN)
        rw [e1] at y1; cases y1
        cases nd <;> first | rfl | cases y2
      rw [hsame, set_self e1]
      exact ⟨h1, Nat.le_trans hs0.clen h2, hs0.trans hs1, h3, ⟨hB, Or.inr ⟨sg', h5, hsg⟩⟩, hqn1⟩
    · obtain ⟨k1, k2, k3⟩ := set_target_ok (T := T) snd.asFuncSig.return_type e2
      have hfz := is_ident_not_frozen e2
      refine ⟨h1, Nat.le_trans hs0.clen h2, (hs0.trans hs1).set_late hi0 e1 hfz,
        h3.set_avoid fun j hj => hBi j hj.1, ⟨hB, Or.inr ⟨sg', ?_, hsg.set_avoid fun j hj => hBi j hj.1⟩⟩, ?_⟩
      · show (List.set _ _ _)[h]? = _
        rw [List.getElem?_set_ne (Ne.symm (hBi h hB))]; exact h5
      · refine hqn1.set_ident hgi1 e1 k1 k2 ?_
        intro g p hp
        rcases k3 g p hp with h | ⟨t, ht, rfl⟩
        · exact Or.inl h
        · exact Or.inr ((hrtg t ht).mono fun j hj => ⟨⟨hBA j hj.1, hj.2⟩, hBi j hj.1⟩)

/-- Giving a new symbol its name. -/
theorem RawSym.named {h q : Handle} (hraw : RawSym T B h s) (hBA : ∀ j, B j → A j)
    (hq : Good T s.cache (fun j => A j ∧ j ≠ h) .qn q) :
    ∃ nd, s.cache[h]? = some nd ∧ nd.is .ISymbolNode = true ∧ nd.frozen = false ∧
      (∀ kd, nd.is kd = true → Good T (s.cache.set h (nd.set_name q)) A (.k kd) h) := by
  obtain ⟨hB, hraw⟩ := hraw
  have key : ∀ {g x}, Good T s.cache (fun j => A j ∧ j ≠ h) g x → ∀ nd', Good T (s.cache.set h nd') A g x :=
    fun hg nd' => (hg.set_avoid fun j hj => hj.2).mono fun j hj => hj.1
  rcases hraw with ⟨sc, t, h1, h2⟩ | ⟨sg, h1, h2⟩
  · refine ⟨_, h1, rfl, rfl, fun kd hk => ?_⟩
    refine Good.intro (hBA _ hB) (getElem?_set_self' h1) (by cases kd <;> first | exact hk | cases hk) rfl ?_
    intro p hp
    simp only [kids, kidsOf, Node.set_name, optKid, List.mem_append, List.mem_singleton] at hp
    rcases hp with rfl | rfl
    · exact key hq _
    · exact key (h2.mono fun j hj => ⟨hBA j hj.1, hj.2⟩) _
  · refine ⟨_, h1, rfl, rfl, fun kd hk => ?_⟩
    refine Good.intro (hBA _ hB) (getElem?_set_self' h1) (by cases kd <;> first | exact hk | cases hk) trivial ?_
    intro p hp
    simp only [kids, kidsOf, Node.set_name, optKid, List.mem_append, List.mem_singleton] at hp
    rcases hp with rfl | rfl
    · exact key hq _
    · exact key (h2.mono fun j hj => ⟨hBA j hj.1, hj.2⟩) _

/-- Declarators: a new symbol. -/
theorem tr_declarator (hr : GoodRend T rend) (hrec : RecOK T n r) (hi : Inv T A s) (hl : s.len < n) (hL : T.lead s.str.string) :
    Tr T A (demangle_declarator rend r) (fun h s' => Good T s'.cache A .sym h ∧ s'.len < s.len ∧
      s.cache.length ≤ h ∧ Inv T (fun j => A j ∧ j ≠ h) s') s := by
  unfold demangle_declarator
  refine wp.bind (wp.mono (tr_qualified_symbol_name hr hrec hi hl hL) ?_)
  rintro qn s1 ⟨hi1, hs1, hl1, i, hn⟩
  have hsome : ∃ B : Handle → Prop, (∀ j, B j → A j) ∧ Inv T B s1 ∧ Chain T A B i qn s1 ∧
      (Good T s1.cache A .named i ∨ (s.cache.length ≤ i ∧ ∀ j, B j → j ≠ i)) := by
    rcases hn with ⟨h1, h2⟩ | ⟨h1, h2, h3⟩
    · exact ⟨A, fun _ h => h, hi1, h1, Or.inl h2⟩
    · exact ⟨_, fun j h => h.1, h3, h1, Or.inr ⟨h2, fun j h => h.2⟩⟩
  obtain ⟨B, hBA, hiB, hc, hN⟩ := hsome
  refine wp.bind (wp.mono (wp_encoded hr hrec hBA hiB (by omega) hs1 hc hN) ?_)
  rintro h s2 ⟨hl2, hh, hs2, hi2, hraw, hq⟩
  obtain ⟨nd, e1, e2, e3, e4⟩ := hraw.named hBA hq
  refine wp.bind (wp_modify e1 e2 ?_)
  have hi3 := hi2.set_avoid (nd' := nd.set_name qn) fun j hj => hj.2
  have hs3 := hs2.set_late (nd' := nd.set_name qn) hh e1 e3
  have hq3 : Good T (s2.cache.set h (nd.set_name qn)) (fun j => A j ∧ j ≠ h) .qn qn :=
    hq.set_avoid fun j hj => hj.2
  refine wp.bind (wp.get ?_)
  obtain ⟨o, ho, hoi⟩ := get_unqualified_ok hq3
  refine wp.bind (wp.lift_ok ho ?_)
  refine wp.bind (wp.okOr trivial ?_)
  intro u hu
  obtain ⟨un, r0, _, _⟩ := resolve_good (hoi u hu)
  refine wp.bind (wp.bind (wp.get (wp.lift_ok r0 ?_)))
  split
  · exact wp.err trivial
  · refine wp.pure ⟨hi3.mono fun j hj => hBA j hj.1, hs3, e4 _ e2, ?_, hh, hi3.mono fun j hj => ⟨hBA j hj.1, hj.2⟩⟩
    show s2.len < s.len
    omega

end Undname
