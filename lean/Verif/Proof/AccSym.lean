/-
  What the text must have been when a symbol is read; and so: whatever is accepted is in the grammar.
-/
import Verif.Proof.AccTmpl
import Verif.Proof.AccLit

namespace Undname
open Spec (CV FnKind Sig Adjust AdjKind Access T Tbl Ext Name Fits Cat Gram Free EncNat EncInt cvCodes memberCvCodes hashed locator hashT)

section
variable {E : Env} {n : Nat} {tb : Tbl} {s : Text} {w : World} {ns ps : List Handle}

theorem chain_bind (hn : AccN E n) {β : Type} {k : Handle → P β} {Q : β → St → Prop} {id : Handle} (ht : Tab w tb ns ps)
    (hk : ∀ x R ps' tb', s = x ++ R → Gram E .scopes tb ps' x tb' → ∀ qn (w' : World) ns' ps1, w <+: w' → Tab w' tb' ns' ps1 →
      After (k qn) (mk R w'.c ns' ps1) Q) :
    After (demangle_name_scope_chain (render E) (fns (render E) n) id >>= k) (mk s w.c ns ps) Q := by
  refine After.know (X := Took E .scopes tb s) ?_ ?_
  · unfold demangle_name_scope_chain
    exact After.loop fun k => scopes_inv hn k _ ht
  rintro ⟨x, R, ps', tb', rfl, hs⟩
  have hms : MScopes E tb ps' x tb' := gram_reads hs
  unfold demangle_name_scope_chain
  refine After.simB (Q := Reach w tb' R (QPost ps' [id] w)) (Sim.loop fun k => hms n k [id] R w ns ps ht) ?_
  rintro qn _ ⟨w2, ns2, ps2, rfl, hp2, ht2, _⟩
  exact hk x R ps' tb' rfl hs qn w2 ns2 ps2 hp2 ht2

theorem fenc_bind (hn : AccN E n) {β : Type} {k : Handle → P β} {Q : β → St → Prop} (ht : Tab w tb ns ps)
    (hk : ∀ x R t tb', s = x ++ R → Gram E .fenc tb t x tb' → ∀ a (w' : World) ns' ps', w <+: w' → Tab w' tb' ns' ps' →
      After (k a) (mk R w'.c ns' ps') Q) : After (demangle_function_encoding (fns (render E) n) >>= k) (mk s w.c ns ps) Q :=
  Acc.bind (Q := fun t w w' a => FencPost t w w' a) (fenc_inv hn) (fun hg => (gram_reads hg).run n) ht
    fun x R t tb' e hg a w' ns' ps' hp ht' _ => hk x R t tb' e hg a w' ns' ps' hp ht'

theorem table_inv (hn : AccN E n) (ht : Tab w tb ns ps) {code nm : Text} {k : SpecialIntrinsicKind} (hc : (code, nm) ∈ Spec.tableCodes)
    (hk : specialTableName k = some nm) :
    Wh (demangle_special_table_symbol_node (render E) (fns (render E) n) k) (mk s w.c ns ps) (Took E .sym tb ('?' :: code ++ s)) := by
  unfold demangle_special_table_symbol_node
  rw [hk]
  refine After.step rfl (After.intern true ?_)
  refine chain_bind hn (ht.mono (Vis.push _)) fun x R ps' tb1 e hs qn w1 ns1 ps1 hp1 ht1 => ?_
  subst e
  refine After.tryIf (fun d u e hd => ?_) fun _ => After.okOr fun a h => by cases h
  subst e
  refine After.step rfl ?_
  refine After.know quals_inv ?_
  rintro ⟨ch, q, v, rfl, hq⟩
  obtain ⟨_, _, _, he⟩ := quals_run hq
  refine After.step he ?_
  have hd' : d ∈ c!"67" := by simpa using hd
  refine After.tryChar (fun u e => ?_) fun _ => ?_
  · subst e
    exact After.now ⟨'?' :: code ++ x ++ [d, ch, '@'], u, _, _, by simp, .table hc hs hd' hq⟩
  · refine qtn_bind hn ht1 fun y R t tb' e hg _ _ _ _ _ _ _ => After.now ?_
    subst e
    exact ⟨'?' :: code ++ x ++ d :: ch :: y, R, _, _, by simp, .tableFor hc hs hd' hq hg⟩

theorem vcall_inv (hn : AccN E n) (ht : Tab w tb ns ps) :
    Wh (demangle_vcall_thunk_node (render E) (fns (render E) n)) (mk s w.c ns ps) (Took E .sym tb (c!"??_9" ++ s)) := by
  unfold demangle_vcall_thunk_node
  refine After.intern false ?_
  refine chain_bind hn (ht.mono (Vis.push _)) fun x R ps' tb1 e hs qn w1 ns1 ps1 hp1 ht1 => ?_
  subst e
  refine After.expectStr fun u e => ?_
  subst e
  refine After.know unsigned_inv ?_
  rintro ⟨y, i, v, rfl, hy⟩
  refine After.step (unsigned_run hy) ?_
  have e2 := get_prefix hp1 (get_push w (Node.VcallThunkIdentifier none 0, false))
  refine After.modify true e2 ?_
  refine After.expectChar fun v e => ?_
  subst e
  refine After.know (X := ∃ cc R, v = cc :: R) ?_ ?_
  · unfold demangle_calling_convention
    exact After.expectAny fun cc R e => After.now ⟨cc, R, e⟩
  rintro ⟨cc, R, rfl⟩
  exact After.now ⟨c!"??_9" ++ x ++ c!"$B" ++ y ++ ['A', cc], R, _, _, by simp, .vcall cc hs hy⟩

theorem guardian_inv (hn : AccN E n) (ht : Tab w tb ns ps) (th : Bool) :
    Wh (demangle_local_static_guard (render E) (fns (render E) n) th) (mk s w.c ns ps) (ParseOk E tb ((if th then c!"??__J" else c!"??_B") ++ s)) := by
  unfold demangle_local_static_guard
  refine After.intern false ?_
  refine chain_bind hn (ht.mono (Vis.push _)) fun x R ps' tb1 e hs qn w1 ns1 ps1 hp1 ht1 => ?_
  subst e
  have e2 := get_prefix hp1 (get_push w (Node.LocalStaticGuardIdentifier none th 0, false))
  have key : ∀ (vis : Bool) (v : Text), R = (if vis then c!"5" else c!"4IA") ++ v → Wh (do
      let e ← query MStr.is_empty
      whenB (!e) (do
        let i ← demangle_unsigned
        if i < 2 ^ 32 then modifyNode .LocalStaticGuardIdentifier w.length (set_scope_index i)
        else SM.err .InvalidLocalStaticGuard)
      intern (.LocalStaticGuardVariable qn vis)) (mk v w1.c ns1 ps1) (ParseOk E tb ((if th then c!"??__J" else c!"??_B") ++ (x ++ R))) := by
    rintro vis v rfl
    refine After.query ?_
    cases v with
    | nil =>
      have := Gram.guardEnd (E := E) (tb := tb) th vis hs
      rw [List.append_nil]
      rw [List.append_assoc] at this
      exact After.now (.inr (.inl ⟨_, _, this⟩))
    | cons y v =>
      refine After.know (X := ∃ z i u, y :: v = z ++ u ∧ EncNat z i ∧ i < 2 ^ 32) ?_ ?_
      · show Wh (demangle_unsigned >>= _) _ _
        refine After.know unsigned_inv ?_
        rintro ⟨z, i, u, e, hz⟩
        rw [e]
        refine After.step (unsigned_run hz) ?_
        exact After.ite (fun h => After.now ⟨z, i, u, rfl, hz, h⟩) fun _ => After.err
      · rintro ⟨z, i, u, e, hz, hi⟩
        rw [e]
        exact After.now (.inl ⟨_, u, _, _, by simp, .guardVar th vis hs hz hi⟩)
  refine After.tryStr (fun u e => ?_) fun _ => ?_
  · exact After.step rfl (key false u e)
  · refine After.tryChar (fun u e => ?_) fun _ => After.errB
    exact After.step rfl (key true u e)

theorem untyped_inv (hn : AccN E n) (ht : Tab w tb ns ps) {code nm : Text} (hc : (code, nm) ∈ Spec.untypedCodes) :
    Wh (demangle_untyped_variable (render E) (fns (render E) n) nm) (mk s w.c ns ps) (Took E .sym tb ('?' :: code ++ s)) := by
  unfold demangle_untyped_variable
  refine After.intern true ?_
  refine chain_bind hn (ht.mono (Vis.push _)) fun x R ps' tb1 e hs qn w1 ns1 ps1 hp1 ht1 => ?_
  subst e
  refine After.tryChar (fun u e => ?_) fun _ => After.err
  subst e
  exact After.now ⟨'?' :: code ++ x ++ c!"8", u, _, _, by simp, .untyped hc hs⟩

theorem u32_inv {c : Cache} : Wh demangle_rtti_base_class_descriptor_node.u32 (mk s c ns ps) (∃ x i u, s = x ++ u ∧ EncNat x i ∧ i < 2 ^ 32) := by
  unfold demangle_rtti_base_class_descriptor_node.u32
  refine After.know unsigned_inv ?_
  rintro ⟨z, i, u, rfl, hz⟩
  refine After.step (unsigned_run hz) ?_
  exact After.ite (fun h => After.now ⟨z, i, u, rfl, hz, h⟩) fun _ => After.err

theorem baseDescr_inv (hn : AccN E n) (ht : Tab w tb ns ps) :
    Wh (demangle_rtti_base_class_descriptor_node (render E) (fns (render E) n)) (mk s w.c ns ps) (Took E .sym tb (c!"??_R1" ++ s)) := by
  unfold demangle_rtti_base_class_descriptor_node
  refine After.know u32_inv ?_
  rintro ⟨x1, nv, u, rfl, h1, b1⟩
  refine After.step (u32_run h1 b1) ?_
  refine After.know signed_inv ?_
  rintro ⟨x2, vb, u, rfl, h2⟩
  refine After.step (signed_run h2) ?_
  refine After.iteB (fun _ => After.err) fun hb => ?_
  have b2 : -(2 ^ 31) ≤ vb ∧ vb < 2 ^ 31 := by simp at hb; omega
  refine After.know u32_inv ?_
  rintro ⟨x3, vt, u, rfl, h3, b3⟩
  refine After.step (u32_run h3 b3) ?_
  refine After.know u32_inv ?_
  rintro ⟨x4, fl, u, rfl, h4, b4⟩
  refine After.step (u32_run h4 b4) ?_
  refine After.intern true ?_
  refine chain_bind hn (ht.mono (Vis.push _)) fun x R ps' tb1 e hs qn w1 ns1 ps1 hp1 ht1 => ?_
  subst e
  refine After.expectChar fun v e => ?_
  subst e
  exact After.now ⟨c!"??_R1" ++ x1 ++ x2 ++ x3 ++ x4 ++ x ++ c!"8", v, _, _, by simp, .baseDescr h1 h2 h3 h4 b1 b2 b3 b4 hs⟩

theorem rttiType_inv (hn : AccN E n) (ht : Tab w tb ns ps) :
    Wh (demangle_rtti_type_descriptor (fns (render E) n)) (mk s w.c ns ps) (∃ t tb', Gram E .symEnd tb t (c!"??_R0" ++ s) tb') := by
  unfold demangle_rtti_type_descriptor
  refine result_bind hn ht fun x R t tb' e hg _ w1 ns1 ps1 hp1 ht1 _ => ?_
  subst e
  refine After.expectStr fun u e => ?_
  subst e
  refine After.query (After.iteB (fun he => ?_) fun _ => After.err)
  obtain rfl : u = [] := by cases u with | nil => rfl | cons y u => cases he
  have := Gram.rttiType hg
  rw [List.append_assoc] at this
  exact After.now ⟨_, _, this⟩

theorem stub_inv (hn : AccN E n) (ht : Tab w tb ns ps) (d : Bool) :
    Wh (demangle_init_fini_stub (render E) (fns (render E) n) d) (mk s w.c ns ps) (Took E .sym tb ((if d then c!"??__F" else c!"??__E") ++ s)) := by
  have key : ∀ (known : Bool) (v : Text), s = (if known then c!"?" else []) ++ v → (known = false → s.head? ≠ some '?') → Wh (do
      let symbol ← demangle_declarator (render E) (fns (render E) n)
      let variable? ← downcastP .ISymbolNode .VariableSymbol symbol
      match variable? with
      | some var => do
        if known then expectStr c!"@@" .InvalidInitFiniStub
        else expectChar '@' .InvalidInitFiniStub
        let fsn ← demangle_function_encoding (fns (render E) n)
        let dsin ← intern (.DynamicStructorIdentifier none (.Variable var) d)
        let name ← synthesize_from_id dsin
        modifyNode .FunctionSymbol fsn (Node.set_name name)
        pure fsn
      | none => do
        let function? ← downcastP .ISymbolNode .FunctionSymbol symbol
        match function? with
        | some fsn =>
          if known then SM.err .InvalidInitFiniStub
          else do
            let n ← resolveP .FunctionSymbol fsn
            let old ← SM.okOr .InvalidInitFiniStub n.get_name
            let dstn ← intern (.DynamicStructorIdentifier none (.Name old) d)
            let name ← synthesize_from_id dstn
            modifyNode .FunctionSymbol fsn (Node.set_name name)
            pure fsn
        | none => SM.err .InvalidInitFiniStub) (mk v w.c ns ps) (Took E .sym tb ((if d then c!"??__F" else c!"??__E") ++ s)) := by
    rintro known v rfl hk
    refine After.know (decl_inv hn ht) ?_
    rintro ⟨x, R, t, tb1, rfl, hg⟩
    have hm : MDecl E tb t x tb1 := gram_reads hg
    have hx : known = false → x.head? ≠ some '?' := by
      rintro rfl h
      refine hk rfl ?_
      cases x with
      | nil => cases h
      | cons y x => exact h
    refine Runs.post (hm.run n) ht fun sy w1 ns1 ps1 hp1 ht1 H1 => ?_
    obtain ⟨nd, e1, hl1, hr1⟩ := H1
    have hd := hm.decl
    refine After.down e1 ?_
    cases t <;> first | (cases hd; done) | skip
    · next sc nm ty =>
      have hn1 : nd.is .VariableSymbol = true := by cases hr1; rfl
      rw [hn1, if_pos rfl]
      have tail : ∀ u, R = (if known then c!"@@" else c!"@") ++ u → ∀ k : Handle → P Handle, After (demangle_function_encoding (fns (render E) n) >>= k) (mk u w1.c ns1 ps1)
          fun _ _ => Took E .sym tb ((if d then c!"??__F" else c!"??__E") ++ ((if known then c!"?" else []) ++ (x ++ R))) := by
        rintro u rfl k
        refine fenc_bind hn ht1 fun y R t tb' e hf _ _ _ _ _ _ => After.now ?_
        subst e
        refine ⟨_, R, _, _, ?_, .dynVar d known hg ?_ hf⟩
        · simp
        · cases known with
          | true => exact .inl rfl
          | false => exact .inr (hx rfl)
      cases known with
      | true => exact After.expectStr fun u e => tail u e _
      | false => exact After.expectChar fun u e => tail u e _
    · next nm sg =>
      have hn1 : nd.is .VariableSymbol = false := by cases hr1; rfl
      have hn2 : nd.is .FunctionSymbol = true := by cases hr1; rfl
      rw [hn1, if_neg (by simp)]
      refine After.down e1 ?_
      rw [hn2, if_pos rfl]
      cases known with
      | true => exact After.err
      | false => exact After.now ⟨_, R, _, _, by simp, .dynFn d hg (hx rfl)⟩
  unfold demangle_init_fini_stub
  refine After.tryChar (fun u e => ?_) fun h => ?_
  · exact key true u e (by simp)
  · exact key false s rfl (fun _ => h)

theorem special_inv (hn : AccN E n) (ht : Tab w tb ns ps) {code : Text} {k : SpecialIntrinsicKind} (hm : (code, k) ∈ specialIntrinsics) :
    Wh (special_intrinsic (render E) (fns (render E) n) k) (mk s w.c ns ps) (ParseOk E tb ('?' :: (code ++ s))) := by
  simp only [specialIntrinsics, List.mem_cons, List.not_mem_nil, or_false, Prod.mk.injEq] at hm
  rcases hm with ⟨rfl, rfl⟩ | ⟨rfl, rfl⟩ | ⟨rfl, rfl⟩ | ⟨rfl, rfl⟩ | ⟨rfl, rfl⟩ | ⟨rfl, rfl⟩ | ⟨rfl, rfl⟩ | ⟨rfl, rfl⟩ |
    ⟨rfl, rfl⟩ | ⟨rfl, rfl⟩ | ⟨rfl, rfl⟩ | ⟨rfl, rfl⟩ | ⟨rfl, rfl⟩ | ⟨rfl, rfl⟩ | ⟨rfl, rfl⟩ | ⟨rfl, rfl⟩
  · exact After.mono (table_inv (code := c!"?_7") hn ht (by decide) rfl) fun _ _ h => Or.inl h
  · exact After.mono (table_inv (code := c!"?_8") hn ht (by decide) rfl) fun _ _ h => Or.inl h
  · exact After.mono (vcall_inv hn ht) fun _ _ h => Or.inl h
  · exact After.err
  · exact guardian_inv hn ht false
  · exact After.mono literal_inv fun _ _ h => Or.inl h
  · exact After.err
  · exact After.mono (rttiType_inv hn ht) fun _ _ h => Or.inr (Or.inl h)
  · exact After.mono (baseDescr_inv hn ht) fun _ _ h => Or.inl h
  · exact After.mono (untyped_inv (code := c!"?_R2") hn ht (by decide)) fun _ _ h => Or.inl h
  · exact After.mono (untyped_inv (code := c!"?_R3") hn ht (by decide)) fun _ _ h => Or.inl h
  · exact After.mono (table_inv (code := c!"?_R4") hn ht (by decide) rfl) fun _ _ h => Or.inl h
  · exact After.mono (table_inv (code := c!"?_S") hn ht (by decide) rfl) fun _ _ h => Or.inl h
  · exact After.mono (stub_inv hn ht false) fun _ _ h => Or.inl h
  · exact After.mono (stub_inv hn ht true) fun _ _ h => Or.inl h
  · exact guardian_inv hn ht true

theorem parse_inv (hn : AccN E n) (ht : Tab w tb ns ps) : Wh (do_parse (render E) (fns (render E) n)) (mk s w.c ns ps) (ParseOk E tb s) := by
  unfold do_parse
  refine After.query (After.iteB (fun _ => ?_) fun _ => After.query (After.iteB (fun h5 => ?_) fun h5 => ?_))
  · unfold demangle_typeinfo_name
    refine After.expectChar fun u e => ?_
    subst e
    refine result_bind hn ht fun x R t tb' e hg _ w1 ns1 ps1 hp1 ht1 _ => ?_
    subst e
    refine After.query (After.iteB (fun he => ?_) fun _ => After.err)
    obtain rfl : R = [] := by cases R with | nil => rfl | cons y u => cases he
    rw [List.append_nil]
    exact After.now (.inr (.inl ⟨_, _, .typeinfo hg⟩))
  · unfold demangle_md5_name
    refine After.query (After.expectStr fun u e => ?_)
    subst e
    refine After.query (After.okOr fun i hi => ?_)
    obtain ⟨x, v, rfl, hx, rfl⟩ := find_inv hi
    refine After.now ?_
    have e : c!"??@" ++ (x ++ '@' :: v) = hashed x ++ v := by simp [hashed]
    rw [e]
    by_cases hl : locator <+: v
    · obtain ⟨R, rfl⟩ := hl
      exact .inl ⟨hashed x ++ locator, R, _, _, by simp, .hashLocator hx⟩
    · exact .inr (.inr ⟨x, v, rfl, hx, hl⟩)
  · refine After.expectChar fun u e => ?_
    subst e
    unfold consume_special_intrinsic_kind
    refine After.table (fun code k v hm e => ?_) fun hm => ?_
    · subst e
      exact special_inv hn ht hm
    · refine After.mono (decl_inv hn ht) ?_
      rintro _ _ ⟨x, R, t, tb', rfl, hg⟩
      refine .inl ⟨'?' :: x, R, t, tb', rfl, .sym hg fun code hc hp => ?_⟩
      have hp' : code <+: x ++ R := hp.trans (List.prefix_append _ _)
      rcases (reserved_iff code).1 hc with rfl | hc
      · have : (MStr.new ('?' :: (x ++ R))).starts_with c!"??@" = true := by
          show (c!"??@").isPrefixOf ('?' :: (x ++ R)) = true
          rw [List.isPrefixOf_iff_prefix]
          exact List.cons_prefix_cons.2 ⟨rfl, hp'⟩
        rw [mk_str, this] at h5; cases h5
      · obtain ⟨p, hp1, rfl⟩ := List.mem_map.1 hc
        exact hm p hp1 hp'

end

theorem accN_succ {E : Env} {n : Nat} (hn : AccN E n) : AccN E (n + 1) :=
  ⟨type_drop hn, type_result hn, type_mangle hn, tmpl_simple hn, tmpl_template hn, parse_inv hn⟩

/-- Whatever the parser accepts is in the grammar. -/
theorem accN (E : Env) (n : Nat) : AccN E n := by
  induction n with
  | zero => exact accN_zero E
  | succ n ih => exact accN_succ ih

end Undname
