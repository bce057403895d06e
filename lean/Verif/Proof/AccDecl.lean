/-
  What the text must have been when a declaration is read.
-/
import Verif.Proof.AccTmpl

namespace Undname
open Spec (CV FnKind Sig Adjust AdjKind Access T Tbl Ext Name Fits Cat Gram cvCodes memberCvCodes)

section
variable {E : Env} {n : Nat} {tb tb' tb1 tb2 : Tbl} {s x y z R : Text} {w : World} {ns ps : List Handle}

/-! ### Functions -/

theorem fty_sig {b : Bool} {t : T} (h : Gram E (.fty b) tb t x tb') : ∃ f r ps, t = .sig f r ps ∧ (r = .nil ∨ ∃ r', r = T.one r') := by
  have ret : ∀ {tb r x tb'}, Gram E .ret tb r x tb' → r = .nil ∨ ∃ r', r = T.one r' := by
    intro tb r x tb' h
    cases h with
    | retNone => exact .inl rfl
    | retSome _ => exact .inr ⟨_, rfl⟩
  cases h with
  | fn _ _ h _ => exact ⟨_, _, _, rfl, ret h⟩
  | fnThis _ _ _ _ _ h _ => exact ⟨_, _, _, rfl, ret h⟩

theorem fenc_ret {t : T} (h : Gram E .fenc tb t x tb') : T.retOf t = .nil ∨ ∃ r', T.retOf t = T.one r' := by
  cases h with
  | @fenc _ f r ps y _ code k ak x adj extC _ _ h =>
    obtain ⟨f', r', ps', e, hr⟩ := fty_sig h
    cases e
    split
    · exact hr
    · exact hr
  | fencBare => exact .inl rfl

theorem fenc_inv (hn : AccN E n) : Acc E .fenc (demangle_function_encoding (fns (render E) n)) := by
  intro tb s w ns ps ht
  unfold demangle_function_encoding
  refine After.bind (Q := fun b st => ∃ u, s = (if b then c!"$$J0" else []) ++ u ∧ st = mk u w.c ns ps) ?_ ?_
  · refine bindPure (After.tryStr (fun u e => After.pure ⟨u, e, rfl⟩) fun _ => After.pure ⟨s, rfl, rfl⟩)
  rintro extC _ ⟨u, rfl, rfl⟩
  refine After.query (After.iteB (fun _ => After.err) fun _ => ?_)
  refine After.know class_inv ?_
  rintro ⟨v, rfl | ⟨code, k, ak, rfl, hc⟩⟩
  · exact After.now ⟨(if extC then c!"$$J0" else []) ++ c!"9", v, _, _, by simp, .fencBare extC⟩
  · obtain ⟨f0, hk, hnp, hth, hadj, hrun⟩ := class_run hc extC
    refine After.step (hrun _ _ _ _) ?_
    have hadj' : adjBits (f0 ||| (if extC = true then FuncClass.FC_ExternC else FuncClass.FC_None)) ak = true := hadj
    refine After.know (adjust_inv hadj') ?_
    rintro ⟨x, adj, v, rfl, ha⟩
    obtain ⟨o, e2, ho⟩ := adjust_run ha hadj' v w.c ns ps
    refine After.step e2 ?_
    have hnp' : (f0 ||| (if extC = true then FuncClass.FC_ExternC else FuncClass.FC_None)).no_parameter_list = false := hnp
    rw [hnp', if_neg (by simp)]
    have hth' : (!(f0 ||| (if extC = true then FuncClass.FC_ExternC else FuncClass.FC_None)).intersects (FuncClass.FC_Global ||| FuncClass.FC_Static)) = k.hasThis := hth
    rw [hth']
    refine After.know (fty_inv hn _ ht) ?_
    rintro ⟨y, R, t, tb', rfl, hg⟩
    obtain ⟨f, r, ps', rfl, _⟩ := fty_sig hg
    exact After.now ⟨(if extC then c!"$$J0" else []) ++ code ++ x ++ y, R, _, _, by simp, .fenc extC hc ha hg⟩

/-! ### Variables -/

/-- The type of a variable with the qualifiers after it. -/
def VarText (E : Env) (tb : Tbl) (t : T) (z : Text) (tb' : Tbl) : Prop :=
  (∃ t0 x ch q, z = x ++ [ch] ∧ Gram E .ty tb t0 x tb' ∧ t0.isPtr = false ∧ (ch, q) ∈ cvCodes ++ memberCvCodes ∧ t = t0.setQ q) ∨
  (∃ cv a to x ch q, ∃ e : Ext, z = x ++ (e.code ++ [ch]) ∧ Gram E .ty tb (.ptr cv a .nil to) x tb' ∧ (ch, q) ∈ cvCodes ++ memberCvCodes ∧
    t = .ptr (cv.or e.cv) a .nil (to.addQ q)) ∨
  ∃ cv a cls to x ch q tb3 nm u, ∃ e : Ext, z = x ++ (e.code ++ ch :: u) ∧ Gram E .ty tb (.ptr cv a (T.one cls) to) x tb3 ∧
    (ch, q) ∈ cvCodes ++ memberCvCodes ∧ Gram E .qtn tb3 nm u tb' ∧ t = .ptr (cv.or e.cv) a (T.one cls) (to.addQ q)

theorem VarText.reads {t : T} (h : VarText E tb t z tb') : MVty E tb t z tb' := by
  rcases h with ⟨t0, x, ch, q, rfl, hg, hp, hc, rfl⟩ | ⟨cv, a, to, x, ch, q, e, rfl, hg, hc, rfl⟩ | ⟨cv, a, cls, to, x, ch, q, tb3, nm, u, e, rfl, hg, hc, hq, rfl⟩
  · exact vty_plain (gram_reads hg) hp hc
  · exact vty_ptr e (gram_reads hg) hc
  · exact vty_member e (gram_reads hg) hc (gram_reads hq).1

theorem VarText.plain {t i ps' : T} {st : Char} {sc : StorageClass} (h : VarText E tb2 t z tb') (hs : (st, sc) ∈ Spec.storageCodes)
    (hi : Gram E .sname tb i x tb1) (hp : i.isPlain = true) (hc : Gram E .scopes tb1 ps' y tb2) :
    Gram E .decl tb (.var (some sc) (.qname (ps'.snoc i)) t.one) (x ++ y ++ st :: z) tb' := by
  rcases h with ⟨t0, x, ch, q, rfl, hg, hp0, hc0, rfl⟩ | ⟨cv, a, to, x, ch, q, e, rfl, hg, hc0, rfl⟩ | ⟨cv, a, cls, to, x, ch, q, tb3, nm, u, e, rfl, hg, hc0, hq, rfl⟩
  · exact cast (by simp) (Gram.var hi hp hc hs hg hp0 hc0)
  · exact cast (by simp) (Gram.varPtr e hi hp hc hs hg hc0)
  · exact cast (by simp) (Gram.varMemberPtr e hi hp hc hs hg hc0 hq)

theorem VarText.structor {t ta ps' cls : T} {d : Bool} {st : Char} {sc : StorageClass} (h : VarText E tb2 t z tb') (hs : (st, sc) ∈ Spec.storageCodes)
    (hi : Gram E .sname tb (.structor d .nil ta) x tb1) (hp : cls.isPlain = true) (hc : Gram E .scopes tb1 (ps'.snoc cls) y tb2) :
    Gram E .decl tb (.var (some sc) (.qname ((ps'.snoc cls).snoc (.structor d cls.one ta))) t.one) (x ++ y ++ st :: z) tb' := by
  rcases h with ⟨t0, x, ch, q, rfl, hg, hp0, hc0, rfl⟩ | ⟨cv, a, to, x, ch, q, e, rfl, hg, hc0, rfl⟩ | ⟨cv, a, cls, to, x, ch, q, tb3, nm, u, e, rfl, hg, hc0, hq, rfl⟩
  · exact cast (by simp) (Gram.varStructor hi hc hp hs hg hp0 hc0)
  · exact cast (by simp) (Gram.varStructorPtr e hi hc hp hs hg hc0)
  · exact cast (by simp) (Gram.varStructorMemberPtr e hi hc hp hs hg hc0 hq)

theorem var_inv (hn : AccN E n) (ht : Tab w tb ns ps) {sc : StorageClass} :
    Wh (demangle_variable_encoding (render E) (fns (render E) n) sc) (mk s w.c ns ps)
      (∃ z R t tb', s = z ++ R ∧ VarText E tb t z tb') := by
  unfold demangle_variable_encoding
  refine drop_bind hn ht fun x R t tb' e hg ty w1 ns1 ps1 hp1 ht1 H => ?_
  subst e
  refine After.know (X := ∃ z R', ∃ t' tb'', x ++ R = z ++ R' ∧ VarText E tb t' z tb'') ?_ fun h => After.now h
  unfold variable_quals
  by_cases hp : t.isPtr = true
  · obtain ⟨cv, a, cls, to, rfl⟩ : ∃ cv a cls to, t = .ptr cv a cls to := by
      cases t <;> first | (cases hp; done) | exact ⟨_, _, _, _, rfl⟩
    obtain ⟨q', co, p, e, hl, hq', hcl, hne, nd, ep, hlp, hr⟩ := H
    refine After.down e ?_
    refine After.ext fun ex u q e1 => ?_
    subst e1
    refine After.res e ?_
    refine After.modify false e ?_
    refine After.know quals_inv ?_
    rintro ⟨ch, cq, v, rfl, hc⟩
    obtain ⟨qq, b, hq, he⟩ := quals_run hc
    refine After.step he ?_
    cases co with
    | none =>
      cases hcl
      exact After.now ⟨x ++ (ex.code ++ [ch]), v, _, _, by simp, .inr (.inl ⟨_, _, _, _, _, _, ex, rfl, hg, hc, rfl⟩)⟩
    | some cl =>
      obtain ⟨cls, rfl⟩ : ∃ c, cls = T.one c := by
        cases hcl with
        | cons h1 h2 => cases h2; exact ⟨_, rfl⟩
      refine After.know (X := Took E .qtn tb' v) ?_ ?_
      · show Wh (demangle_fully_qualified_type_name (render E) (fns (render E) n) >>= fun _ => Pure.pure ()) _ _
        exact After.know (qtn_inv hn (ht1.mono (Vis.set e _))) fun h => After.now h
      · rintro ⟨u, R, nm, tb3, rfl, hqn⟩
        exact After.now ⟨x ++ (ex.code ++ ch :: u), R, _, _, by simp, .inr (.inr ⟨_, _, _, _, _, _, _, _, _, _, ex, rfl, hg, hc, hqn, rfl⟩)⟩
  · have hp : t.isPtr = false := by simpa using hp
    rw [tyHole_of hp] at H
    obtain ⟨nd, e, hl, hr⟩ := H
    refine After.down e ?_
    rw [rep_notPtr hr hp]
    refine After.know quals_inv ?_
    rintro ⟨ch, q, u, rfl, hc⟩
    exact After.now ⟨x ++ [ch], u, _, _, by simp, .inl ⟨_, _, _, _, rfl, hg, hp, hc, rfl⟩⟩

/-- What follows the name of a declaration. -/
theorem encoded_inv (hn : AccN E n) (ht : Tab w tb ns ps) {qn : Handle} :
    Wh (demangle_encoded_symbol (render E) (fns (render E) n) qn) (mk s w.c ns ps)
      ((∃ st sc z R t tb', s = st :: z ++ R ∧ (st, sc) ∈ Spec.storageCodes ∧ VarText E tb t z tb') ∨ Took E .fenc tb s) := by
  unfold demangle_encoded_symbol
  refine After.query (After.okOr fun c _ => ?_)
  refine After.iteB (fun _ => ?_) fun _ => ?_
  · refine After.know storage_inv ?_
    rintro ⟨st, sc, u, rfl, hs⟩
    refine After.step (storage_run hs).1 ?_
    refine After.mono (var_inv hn ht) ?_
    rintro _ _ ⟨z, R, t, tb', rfl, h⟩
    exact .inl ⟨st, sc, z, R, t, tb', rfl, hs, h⟩
  · exact After.know (fenc_inv hn ht) fun h => After.now (.inr h)

/-! ### Names -/

theorem uname_plain {t : T} (h : Gram E .uname tb t x tb') : t.isPlain = true := by
  cases h with
  | uBack => rfl
  | uName => rfl
  | uTmpl _ h => exact h

theorem piece_plain {t : T} (h : Gram E .piece tb t x tb') : t.isPlain = true := by
  cases h with
  | scName h => exact uname_plain h
  | scAnon => rfl
  | scLocal => rfl

/-- The innermost scope is a plain identifier. -/
theorem scopes_last {t : T} (h : Gram E .scopes tb t x tb') : t = .nil ∨ ∃ (ps' cls : T), t = ps'.snoc cls ∧ cls.isPlain = true := by
  cases h with
  | scNil => exact .inl rfl
  | scCons h _ => exact .inr ⟨_, _, rfl, piece_plain h⟩
  | scOdd => exact .inr ⟨_, _, rfl, rfl⟩
  | scLocalHash => exact .inr ⟨_, _, rfl, rfl⟩

/-- The forms of names. -/
def NameForm (i : T) : Prop := i.isPlain = true ∨ (∃ d ta, i = .structor d .nil ta) ∨ ∃ ta, i = .conv ta .nil

theorem NameForm.args {i : T} (h : NameForm i) (as : T) : NameForm (i.withArgs as) := by
  rcases h with h | ⟨d, ta, rfl⟩ | ⟨ta, rfl⟩
  · refine .inl ?_
    cases i <;> first | rfl | cases h
  · exact .inr (.inl ⟨_, _, rfl⟩)
  · exact .inr (.inr ⟨_, rfl⟩)

theorem fid_form {t : T} (h : Gram E .fid tb t x tb') : NameForm t := by
  cases h <;> first | exact .inl rfl | exact .inr (.inl ⟨_, _, rfl⟩) | exact .inr (.inr ⟨_, rfl⟩)

theorem gram_tmplForm {cat : Cat} {t : T} (h : Gram E cat tb t x tb') : cat = .tmpl → NameForm t := by
  induction h with
  | tmpl h _ => exact fun _ => (fid_form h).args _
  | tmplTmpl _ _ ih => exact fun _ => (ih rfl).args _
  | _ => intro h; cases h

theorem sname_form {t : T} (h : Gram E .sname tb t x tb') : NameForm t := by
  cases h with
  | sBack => exact .inl rfl
  | sFull h => exact fid_form h
  | sTmpl h => exact gram_tmplForm h rfl

/-- The name of a declaration. -/
theorem fqs_inv (hn : AccN E n) (ht : Tab w tb ns ps) :
    Wh (demangle_fully_qualified_symbol_name (render E) (fns (render E) n)) (mk s w.c ns ps)
      (∃ x y R i ps' tb1 tb2, s = x ++ y ++ R ∧ Gram E .sname tb i x tb1 ∧ Gram E .scopes tb1 ps' y tb2 ∧
        (i.isPlain = true ∨ (∃ d ta, ∃ (ps1 cls : T), i = .structor d .nil ta ∧ ps' = ps1.snoc cls ∧ cls.isPlain = true) ∨ ∃ ta, i = .conv ta .nil)) := by
  unfold demangle_fully_qualified_symbol_name
  refine After.know (sname_inv hn ht) ?_
  rintro ⟨x, R, i, tb1, rfl, hg⟩
  have hm : MSname E tb i x tb1 := gram_reads hg
  refine Runs.post (hm.run n) ht fun id w1 ns1 ps1 hp1 ht1 H1 => ?_
  refine After.know (X := Took E .scopes tb1 R) ?_ ?_
  · unfold demangle_name_scope_chain
    exact After.loop fun k => scopes_inv hn k _ ht1
  rintro ⟨y, R, ps', tb2, rfl, hs⟩
  rcases sname_form hg with hp | ⟨d, ta, rfl⟩ | ⟨ta, rfl⟩
  · exact After.now ⟨x, y, R, i, ps', tb1, tb2, by simp, hg, hs, .inl hp⟩
  · rcases scopes_last hs with rfl | ⟨ps2, cls, rfl, hc⟩
    · have hms : MScopes E tb1 .nil y tb2 := gram_reads hs
      unfold demangle_name_scope_chain
      refine After.simB (Q := Reach w1 tb2 R (QPost .nil [id] w1)) (Sim.loop fun k => hms n k [id] R w1 ns1 ps1 ht1) ?_
      rintro qn _ ⟨w2, ns2, ps2, rfl, hp2, ht2, comps, hs', e1, e2, hr⟩
      cases hr
      unfold IdPost at H1
      rw [if_neg (by simp [T.isPlain])] at H1
      obtain ⟨nd, e, hl, hN⟩ := H1.forth hp2
      refine After.down e ?_
      cases hN with
      | @structor _ _ _ o o' h1 h2 =>
        rw [show (Node.StructorIdentifier o' o d).is .StructorIdentifier = true from rfl, if_pos rfl]
        unfold class_of_structor
        refine After.bind (Q := fun _ _ => False) ?_ fun _ _ h => h.elim
        refine After.res e1 ?_
        refine After.res e2 ?_
        exact After.err
    · exact After.now ⟨x, y, R, _, _, tb1, tb2, by simp, hg, hs, .inr (.inl ⟨d, ta, ps2, cls, rfl, rfl, hc⟩)⟩
  · exact After.now ⟨x, y, R, _, ps', tb1, tb2, by simp, hg, hs, .inr (.inr ⟨ta, rfl⟩)⟩

/-! ### Conversion operators -/

theorem conv_guid {qn comps id : Handle} {hs : List Handle} {nd : Node} {b b1 b2 : Bool} (e1 : w[qn]? = some (.QualifiedName comps, b1))
    (e2 : w[comps]? = some (.NodeArray (hs ++ [id]), b2)) (e3 : w[id]? = some (nd, b)) (hi : nd.is .IIdentifierNode = true) :
    get_unqualified_identifier w.c qn = .ok (some id) := by
  unfold get_unqualified_identifier
  rw [resolve_get (World.c_get e1) rfl]
  dsimp only
  rw [resolve_get (World.c_get e2) rfl]
  dsimp only
  rw [List.getLast?_append, List.getLast?_singleton]
  unfold downcast
  have hin : nd.is .INode = true := by
    revert hi; cases nd <;> first | (intro _; rfl) | (intro h; cases h)
  simp only [Option.some_or]
  rw [resolve_get (World.c_get e3) hin]
  simp [hi]

/-- A conversion operator without a type is rejected at the end. -/
theorem conv_end {w : World} {qn comps id symbol : Handle} {hs : List Handle} {o : Option Handle} {nd : Node} {b b1 b2 b3 : Bool} {Q : Handle → St → Prop}
    (e1 : w[qn]? = some (.QualifiedName comps, b1)) (e2 : w[comps]? = some (.NodeArray (hs ++ [id]), b2))
    (e3 : w[id]? = some (.ConversionOperatorIdentifier o none, b)) (e : w[symbol]? = some (nd, b3)) (h1 : qn ≠ symbol) (h2 : comps ≠ symbol) (h3 : id ≠ symbol) :
    After (do
      modifyNode .ISymbolNode symbol (Node.set_name qn)
      let s ← SM.get
      let uqn ← SM.lift (get_unqualified_identifier s.cache qn)
      let uqn ← SM.okOr .InvalidDeclarator uqn
      let n ← resolveP .IIdentifierNode uqn
      if n.isUntypedConversion then SM.err .InvalidDeclarator else pure symbol) (mk s w.c ns ps) Q := by
  refine After.modify false e (After.get ?_)
  have e1' : (w.set symbol (nd.set_name qn, false))[qn]? = some (.QualifiedName comps, b1) := by rw [get_set_ne h1.symm]; exact e1
  have e2' : (w.set symbol (nd.set_name qn, false))[comps]? = some (.NodeArray (hs ++ [id]), b2) := by rw [get_set_ne h2.symm]; exact e2
  have e3' : (w.set symbol (nd.set_name qn, false))[id]? = some (.ConversionOperatorIdentifier o none, b) := by rw [get_set_ne h3.symm]; exact e3
  rw [mk_cache, conv_guid e1' e2' e3' rfl]
  refine After.step rfl (After.step rfl (After.res e3' ?_))
  exact After.err

theorem conv_var {ps' ta : T} {st : Char} {sc : StorageClass} {t : T} (hi : Gram E .sname tb (.conv ta .nil) x tb1)
    (hs : Gram E .scopes tb1 ps' y tb2) (hst : (st, sc) ∈ Spec.storageCodes) (hv : VarText E tb2 t z tb') (ht : Tab w tb ns ps) {Q : Handle → St → Prop} :
    After (demangle_declarator (render E) (fns (render E) n)) (mk (x ++ y ++ (st :: z ++ R)) w.c ns ps) Q := by
  unfold demangle_declarator
  refine Runs.post (fqs_conv (gram_reads hi) (gram_reads hs) n) ht fun qn w1 ns1 ps1 hp1 ht1 H1 => ?_
  refine After.simB (Q := Reach w1 tb' R (VarPost sc t w1)) ?_ ?_
  · unfold demangle_encoded_symbol
    refine Sim.query ?_
    rw [mk_str, first_of (x := st :: z) rfl]
    refine Sim.step rfl ?_
    rw [(storage_run (t := z ++ R) (c := w1.c) (ns := ns1) (ps := ps1) hst).2, if_pos rfl]
    refine Sim.step (storage_run hst).1 ?_
    exact hv.reads n sc R w1 ns1 ps1 ht1
  · rintro symbol _ ⟨w2, ns2, ps2, rfl, hp2, ht2, ty, e, hl, hr⟩
    obtain ⟨id, ⟨comps, hs', e1, e2, _⟩, nd, e3, hl3, hN⟩ := H1
    cases hN with
    | @conv _ _ o o' h1 h2 =>
      cases o' with
      | some => cases h2
      | none =>
        have far : ∀ {i : Handle} {nd : Node} {b : Bool}, w1[i]? = some (nd, b) → i ≠ symbol := by
          rintro i nd b he rfl
          exact absurd (lt_of_get he) (Nat.not_lt.2 hl)
        exact conv_end (get_prefix hp2 e1) (get_prefix hp2 e2) (get_prefix hp2 e3) e (far e1) (far e2) (far e3)

theorem conv_untyped {ps' ta sg : T} (hi : Gram E .sname tb (.conv ta .nil) x tb1)
    (hs : Gram E .scopes tb1 ps' y tb2) (hf : Gram E .fenc tb2 sg z tb') (hr : T.retOf sg = .nil) (ht : Tab w tb ns ps) {Q : Handle → St → Prop} :
    After (demangle_declarator (render E) (fns (render E) n)) (mk (x ++ y ++ (z ++ R)) w.c ns ps) Q := by
  unfold demangle_declarator
  have hm : MFenc E tb2 sg z tb' := gram_reads hf
  refine Runs.post (fqs_conv (gram_reads hi) (gram_reads hs) n) ht fun qn w1 ns1 ps1 hp1 ht1 H1 => ?_
  obtain ⟨id, ⟨comps, hs', e1, e2, _⟩, nd, e3, hl3, hN⟩ := H1
  cases hN with
  | @conv _ _ o o' h1 h2 =>
    cases o' with
    | some => cases h2
    | none =>
      refine After.simB (Q := Reach w1 tb' R (FencPost sg w1)) ?_ ?_
      · unfold demangle_encoded_symbol
        obtain ⟨c, v, hz, hc1⟩ := hm.head
        refine Sim.query ?_
        rw [mk_str, first_of hz]
        refine Sim.step rfl ?_
        rw [hc1, if_neg (by simp)]
        refine Runs.bind (hm.run n) ht1 fun fsn w2 ns2 ps2 hp2 ht2 H2 => ?_
        have H2' := H2
        obtain ⟨sg', e, hl, hrep⟩ := H2
        cases hrep with
        | handle e' hN' =>
          refine sim_return e e' ?_
          refine Sim.get ?_
          have e3' := get_prefix hp2 e3
          rw [mk_cache, conv_guid (get_prefix hp2 e1) (get_prefix hp2 e2) e3' rfl]
          refine Sim.step rfl (Sim.step rfl ?_)
          have : ∀ {nd : Node}, Rep w2 sg (.N nd) → nd.asFuncSig.return_type = none := by
            intro nd H
            have key : ∀ o : Option Handle, Rep w2 .nil (.L o.toList) → o = none := by
              intro o ho
              cases o with
              | none => rfl
              | some => cases ho
            have hsig := hm.sig
            cases H <;> first | (cases hsig; done) | skip
            · next h1 h2 h3 => exact key _ (by rw [← hr]; exact h2)
            · next h0 h1 h2 h3 => exact key _ (by rw [← hr]; exact h2)
          rw [this hN']
          exact Sim.modify_same e3' rfl (Sim.done hp2 ht2 H2')
      · rintro symbol _ ⟨w2, ns2, ps2, rfl, hp2, ht2, sg', e, hl, hr⟩
        have far : ∀ {i : Handle} {nd : Node} {b : Bool}, w1[i]? = some (nd, b) → i ≠ symbol := by
          rintro i nd b he rfl
          exact absurd (lt_of_get he) (Nat.not_lt.2 hl)
        exact conv_end (get_prefix hp2 e1) (get_prefix hp2 e2) (get_prefix hp2 e3) e (far e1) (far e2) (far e3)

theorem decl_inv (hn : AccN E n) : Acc E .decl (demangle_declarator (render E) (fns (render E) n)) := by
  intro tb s w ns ps ht
  refine After.know' (X := ∃ x y R i ps' tb1 tb2, s = x ++ y ++ R ∧ Gram E .sname tb i x tb1 ∧ Gram E .scopes tb1 ps' y tb2 ∧
        (i.isPlain = true ∨ (∃ d ta, ∃ (ps1 cls : T), i = .structor d .nil ta ∧ ps' = ps1.snoc cls ∧ cls.isPlain = true) ∨ ∃ ta, i = .conv ta .nil)) ?_ ?_
  · unfold demangle_declarator
    exact After.know (fqs_inv hn ht) fun h => After.now h
  rintro ⟨x, y, R, i, ps', tb1, tb2, rfl, hg, hs, hc⟩
  rcases hc with hp | ⟨d, ta, ps1, cls, rfl, rfl, hp⟩ | ⟨ta, rfl⟩
  · unfold demangle_declarator
    refine Runs.post (fqs_plain (gram_reads hg) hp (gram_reads hs) n) ht fun qn w1 ns1 ps1 hp1 ht1 H1 => ?_
    refine After.know (encoded_inv hn ht1) ?_
    rintro (⟨st, sc, z, R, t, tb', rfl, hst, hv⟩ | ⟨z, R, sg, tb', rfl, hf⟩)
    · exact After.now ⟨x ++ y ++ st :: z, R, _, _, by simp, hv.plain hst hg hp hs⟩
    · exact After.now ⟨x ++ y ++ z, R, _, _, by simp, .func hg hp hs hf⟩
  · unfold demangle_declarator
    refine Runs.post (fqs_structor (gram_reads hg) (gram_reads hs) hp n) ht fun qn w1 ns1 ps1 hp1 ht1 H1 => ?_
    refine After.know (encoded_inv hn ht1) ?_
    rintro (⟨st, sc, z, R, t, tb', rfl, hst, hv⟩ | ⟨z, R, sg, tb', rfl, hf⟩)
    · exact After.now ⟨x ++ y ++ st :: z, R, _, _, by simp, hv.structor hst hg hp hs⟩
    · exact After.now ⟨x ++ y ++ z, R, _, _, by simp, .structor hg hs hp hf⟩
  · refine After.know' (X := ((∃ st sc z R' t tb', R = st :: z ++ R' ∧ (st, sc) ∈ Spec.storageCodes ∧ VarText E tb2 t z tb') ∨ Took E .fenc tb2 R)) ?_ ?_
    · unfold demangle_declarator
      refine Runs.post (fqs_conv (gram_reads hg) (gram_reads hs) n) ht fun qn w1 ns1 ps1 hp1 ht1 H1 => ?_
      exact After.know (encoded_inv hn ht1) fun h => After.now h
    rintro (⟨st, sc, z, R, t, tb', rfl, hst, hv⟩ | ⟨z, R, sg, tb', rfl, hf⟩)
    · exact conv_var hg hs hst hv ht
    · rcases fenc_ret hf with hr | ⟨r, hr⟩
      · exact conv_untyped hg hs hf hr ht
      · have hsig := (gram_reads hf : MFenc E tb2 sg z tb').sig
        cases sg <;> first | (cases hsig; done) | skip
        · cases hr
          exact After.now ⟨x ++ y ++ z, R, _, _, by simp, .conv hg hs hf⟩
        · cases hr
          exact After.now ⟨x ++ y ++ z, R, _, _, by simp, .convThunk hg hs hf⟩

end

end Undname
