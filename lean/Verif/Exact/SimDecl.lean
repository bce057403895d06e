/-
  Simulation: declarations.
-/
import Verif.Exact.SimFenc

namespace Undname.Ex
open Spec (CV FnKind Sig Adjust AdjKind Access T Tbl Ext Name Fits cvCodes memberCvCodes ptrCodes refCodes primCode tagCode)

section
variable {E : Env} {tb tb' tb1 tb2 tb3 : Tbl} {t t' : T} {x y z u : Text} {k1 k2 k3 k4 : Nat} {N : Nat}

structure MDecl (E : Env) (tb : Tbl) (t : T) (x : Text) (tb' : Tbl) (cnt : Nat) : Prop where
  ne : x ≠ []
  decl : T.isDecl t = true
  ident : ∃ i, t.ident = some i ∧ T.isIdNode i = true
  run : ∀ n, Runs (demangle_declarator (render E) (fns (render E) n)) x tb tb' (Hole t) cnt

/-- The name of a symbol. -/
def MFqs (E : Env) (tb : Tbl) (q : T) (x : Text) (tb' : Tbl) (cnt : Nat) : Prop :=
  ∀ n, Runs (demangle_fully_qualified_symbol_name (render E) (fns (render E) n)) x tb tb' (Seen q) cnt

/-- The chain of scopes after an identifier. -/
theorem sim_chain {n : Nat} {w : World} {ns ps : List Handle} {rest : Text} {ps' : T} {id : Handle} {β : Type} {k : Handle → P β} {R : β → St → Prop}
    (hs : MScopes E tb ps' y tb' k1) (ht : Tab w tb ns ps)
    (hk : ∀ qn (w' : World) ns' ps1, w <+: w' → Tab w' tb' ns' ps1 → QPost ps' [id] w w' qn → {_ : w'.length = w.length + k1} → Sim N (k qn) (mk rest w'.c ns' ps1) R)
    (hN : w.length + k1 ≤ N := by nodes) :
    Sim N (demangle_name_scope_chain (render E) (fns (render E) n) id >>= k) (mk (y ++ rest) w.c ns ps) R := by
  unfold demangle_name_scope_chain
  refine Sim.loopB (fun k => (hs n k [id] rest w ns ps ht).le hN) ?_
  rintro b s ⟨w2, ns2, ps2, rfl, hl, hp2, ht2, hq⟩
  exact @hk b w2 ns2 ps2 hp2 ht2 hq hl

theorem fqs_plain {i ps' : T} (h : MSname E tb i x tb1 k1) (hp : i.isPlain = true) (hs : MScopes E tb1 ps' y tb' k2) :
    MFqs E tb (.qname (ps'.snoc i)) (x ++ y) tb' (k1 + k2) := by
  intro n rest w ns ps ht
  unfold demangle_fully_qualified_symbol_name
  rw [List.append_assoc]
  refine Runs.bind (h.run n) ht fun id w1 ns1 ps1 hp1 ht1 H1 => ?_
  intro hx1
  unfold IdPost at H1
  rw [if_pos hp] at H1
  refine sim_chain hs ht1 fun qn w2 ns2 ps2 hp2 ht2 H2 => ?_
  intro hx2
  have H1' := Rep.mono (Vis.prefix hp2) H1
  cases H1 with
  | handle e hN =>
    refine Sim.down (get_prefix hp2 e) ?_
    rw [rep_notStructor hN hp]
    exact Sim.done (hp1.trans hp2) ht2 (qpost_seen H2 H1')

theorem fqs_structor {ps' cls ta : T} {d : Bool} (h : MSname E tb (.structor d .nil ta) x tb1 k1)
    (hs : MScopes E tb1 (ps'.snoc cls) y tb' k2) (hc : cls.isPlain = true) :
    MFqs E tb (.qname ((ps'.snoc cls).snoc (.structor d cls.one ta))) (x ++ y) tb' (k1 + k2) := by
  intro n rest w ns ps ht
  unfold demangle_fully_qualified_symbol_name
  rw [List.append_assoc]
  refine Runs.bind (h.run n) ht fun id w1 ns1 ps1 hp1 ht1 H1 => ?_
  intro hx3
  unfold IdPost at H1
  rw [if_neg (by simp [T.isPlain])] at H1
  refine sim_chain hs ht1 fun qn w2 ns2 ps2 hp2 ht2 H2 => ?_
  intro hx4
  obtain ⟨nd, e, hl, hN⟩ := H1.forth hp2
  obtain ⟨comps, hs', e1, e2, hr⟩ := H2
  obtain ⟨hs0, hcls, rfl, hrc⟩ := rep_snoc_inv hr
  refine Sim.down e ?_
  cases hN with
  | @structor _ _ _ o o' h1 h2 =>
    rw [show (Node.StructorIdentifier o' o d).is .StructorIdentifier = true from rfl, if_pos rfl]
    dsimp only
    refine Sim.bind (Q := fun a s => a = hcls ∧ s = mk rest w2.c ns2 ps2) ?_ ?_
    · unfold class_of_structor
      refine Sim.res e1 ?_
      dsimp only
      refine Sim.res e2 ?_
      dsimp only
      rw [if_neg (by simp)]
      have : (hs0 ++ [hcls] ++ [id])[(hs0 ++ [hcls] ++ [id]).length - 2]? = some hcls := by simp
      rw [this]
      dsimp only
      cases hrc with
      | handle e3 h3 =>
        refine Sim.down e3 ?_
        rw [rep_idNode h3 (plain_id hc), if_pos rfl]
        exact ⟨rfl, rfl⟩
    · rintro a s ⟨rfl, rfl⟩
      refine Sim.modify true e ?_
      have hv := Vis.set e (set_class a (.StructorIdentifier o' o d), true)
      refine Sim.done (prefix_set (hp1.trans hp2) hl _) (ht2.mono hv) ?_
      refine qpost_seen ⟨comps, hs0 ++ [a], hv _ _ e1, hv _ _ e2, hr.mono hv⟩ ?_
      refine .handle (get_set e _) (.structor (.cons (hrc.mono hv) .nil) (h2.mono hv))

theorem fqs_conv {ps' ta : T} (h : MSname E tb (.conv ta .nil) x tb1 k1) (hs : MScopes E tb1 ps' y tb' k2) (n : Nat) :
    Runs (demangle_fully_qualified_symbol_name (render E) (fns (render E) n)) (x ++ y) tb tb' (ConvPost ps' ta) (k1 + k2) := by
  intro rest w ns ps ht
  unfold demangle_fully_qualified_symbol_name
  rw [List.append_assoc]
  refine Runs.bind (h.run n) ht fun id w1 ns1 ps1 hp1 ht1 H1 => ?_
  intro hx5
  unfold IdPost at H1
  rw [if_neg (by simp [T.isPlain])] at H1
  refine sim_chain hs ht1 fun qn w2 ns2 ps2 hp2 ht2 H2 => ?_
  intro hx6
  have H1' := H1.forth hp2
  obtain ⟨nd, e, hl, hN⟩ := H1'
  refine Sim.down e ?_
  have : nd.is .StructorIdentifier = false := by cases hN; rfl
  rw [this]
  exact Sim.done (hp1.trans hp2) ht2 ⟨id, H2, H1.forth hp2⟩

/-! ### The end of a declaration -/

/-- After the symbol has been read. -/
theorem sim_declEnd {w0 w : World} {qn symbol : Handle} {items i : T} {nd : Node} {rest : Text} {ns ps : List Handle}
    (hp : w0 <+: w) (hl : w0.length ≤ symbol) (ht : Tab w tb ns ps) (hq : Rep w (.qname items) (.H qn))
    (hlast : items.last = some i) (hi : T.isIdNode i = true)
    (hc : ∀ (w : World) (nd : Node), Rep w i (.N nd) → nd.isUntypedConversion = false)
    (e : w[symbol]? = some (nd, false)) (hr : Rep w t (.N (nd.set_name qn)))
    (hl1 : w.length = w0.length + k1 := by nodes) :
    Sim N (do
      modifyNode .ISymbolNode symbol (Node.set_name qn)
      let s ← SM.get
      let uqn ← SM.lift (get_unqualified_identifier s.cache qn)
      let uqn ← SM.okOr .InvalidDeclarator uqn
      let n ← resolveP .IIdentifierNode uqn
      if n.isUntypedConversion then SM.err .InvalidDeclarator else pure symbol) (mk rest w.c ns ps) (Reach w0 tb rest k1 (Hole t w0)) := by
  refine Sim.modify false e ?_
  have hv := Vis.set e (nd.set_name qn, false)
  refine Sim.get ?_
  obtain ⟨h, e2, hr2⟩ := guid_run (hq.mono hv) hlast hi
  rw [mk_cache, e2]
  refine Sim.step rfl (Sim.step rfl ?_)
  cases hr2 with
  | handle e3 h3 =>
    refine Sim.res e3 ?_
    rw [hc _ _ h3, if_neg (by simp)]
    exact Sim.done (prefix_set hp hl _) (ht.mono hv) (Hole.set e hl hr)

/-! ### Functions -/

theorem sim_return {w : World} {fsn sg : Handle} {nd : Node} {β : Type} {k : Option Handle → P β} {R : β → St → Prop} {rest : Text} {ns ps : List Handle} {b b' : Bool}
    (e : w[fsn]? = some (.FunctionSymbol none sg, b)) (e' : w[sg]? = some (nd, b'))
    (hk : Sim N (k nd.asFuncSig.return_type) (mk rest w.c ns ps) R) : Sim N (function_return_type fsn >>= k) (mk rest w.c ns ps) R := by
  refine Sim.bind (Q := fun a s => a = nd.asFuncSig.return_type ∧ s = mk rest w.c ns ps) ?_ ?_
  · unfold function_return_type
    refine Sim.res e ?_
    dsimp only
    refine Sim.res e' ?_
    exact ⟨rfl, rfl⟩
  · rintro a s ⟨rfl, rfl⟩
    exact hk

theorem decl_func {items i sg : T} (hq : MFqs E tb (.qname items) x tb1 k1) (hlast : items.last = some i) (hi : T.isIdNode i = true) (hc : T.isConv i = false)
    (hf : MFenc E tb1 sg z tb' k2) (n : Nat) : Runs (demangle_declarator (render E) (fns (render E) n)) (x ++ z) tb tb' (Hole (.fn (.qname items) sg)) (k1 + k2) := by
  intro rest w ns ps ht
  unfold demangle_declarator
  rw [List.append_assoc]
  refine Runs.bind (hq n) ht fun qn w1 ns1 ps1 hp1 ht1 H1 => ?_
  intro hx7
  refine Sim.bind (Q := Reach w1 tb' rest k2 (FencPost sg w1)) ?_ ?_
  · unfold demangle_encoded_symbol
    obtain ⟨c, v, hz, hc1⟩ := hf.head
    refine Sim.query ?_
    rw [mk_str, first_of hz]
    refine Sim.step rfl ?_
    rw [hc1, if_neg (by simp)]
    refine Runs.bind (hf.run n) ht1 fun fsn w2 ns2 ps2 hp2 ht2 H2 => ?_
    intro hx8
    have H2' := H2
    obtain ⟨sg', e, hl, hr⟩ := H2
    cases hr with
    | handle e' hN =>
      refine sim_return e e' ?_
      refine Sim.get ?_
      obtain ⟨h, e2, hr2⟩ := guid_run (Rep.mono (Vis.prefix hp2) H1) hlast hi
      rw [mk_cache, e2]
      refine Sim.step rfl (Sim.step rfl ?_)
      cases hr2 with
      | handle e3 h3 =>
        refine Sim.modify_same e3 ((rep_noconv h3 hi hc).1 _) ?_
        exact Sim.done hp2 ht2 H2'
  · rintro symbol s ⟨w2, ns2, ps2, rfl, hl1, hp2, ht2, sg', e, hl, hr⟩
    refine sim_declEnd (hp1.trans hp2) (Nat.le_trans hp1.length_le hl) ht2 (Rep.mono (Vis.prefix hp2) H1) hlast hi (fun w nd h => (rep_noconv h hi hc).2) e ?_
    exact .fn (Rep.mono (Vis.prefix hp2) H1) hr

theorem rule_func {i ps' sg : T} (h : MSname E tb i x tb1 k1) (hp : i.isPlain = true) (hs : MScopes E tb1 ps' y tb2 k2) (hf : MFenc E tb2 sg z tb' k3) :
    MDecl E tb (.fn (.qname (ps'.snoc i)) sg) (x ++ y ++ z) tb' (k1 + k2 + k3) := by
  refine ⟨by simp [h.ne], rfl, ⟨i, ?_, plain_id hp⟩, fun n => ?_⟩
  · exact last_snoc _ _
  · exact decl_func (fqs_plain h hp hs) (last_snoc _ _) (plain_id hp) (plain_noconv hp) hf n

theorem rule_structor {ps' cls ta sg : T} {d : Bool} (h : MSname E tb (.structor d .nil ta) x tb1 k1)
    (hs : MScopes E tb1 (ps'.snoc cls) y tb2 k2) (hc : cls.isPlain = true) (hf : MFenc E tb2 sg z tb' k3) :
    MDecl E tb (.fn (.qname ((ps'.snoc cls).snoc (.structor d cls.one ta))) sg) (x ++ y ++ z) tb' (k1 + k2 + k3) := by
  refine ⟨by simp [h.ne], rfl, ⟨_, last_snoc _ _, rfl⟩, fun n => ?_⟩
  exact decl_func (fqs_structor h hs hc) (last_snoc _ _) rfl rfl hf n

theorem rule_convGen {ps' ta sg r : T} (h : MSname E tb (.conv ta .nil) x tb1 k1) (hs : MScopes E tb1 ps' y tb2 k2)
    (hf : MFenc E tb2 sg z tb' k3) (hr : T.retOf sg = T.one r) :
    MDecl E tb (.fn (.qname (ps'.snoc (.conv ta (T.one r)))) sg) (x ++ y ++ z) tb' (k1 + k2 + k3) := by
  refine ⟨by simp [h.ne], rfl, ⟨_, last_snoc _ _, rfl⟩, fun n rest w ns ps ht => ?_⟩
  unfold demangle_declarator
  rw [List.append_assoc]
  refine Runs.bind (fqs_conv h hs n) ht fun qn w1 ns1 ps1 hp1 ht1 H1 => ?_
  intro hx9
  refine Sim.bind (Q := Reach w tb' rest (k1 + k2 + k3) fun w2 fsn => FencPost sg w w2 fsn ∧ Seen (.qname (ps'.snoc (.conv ta (T.one r)))) w w2 qn) ?_ ?_
  · unfold demangle_encoded_symbol
    obtain ⟨c, v, hz, hc1⟩ := hf.head
    refine Sim.query ?_
    rw [mk_str, first_of hz]
    refine Sim.step rfl ?_
    rw [hc1, if_neg (by simp)]
    refine Runs.bind (hf.run n) ht1 fun fsn w2 ns2 ps2 hp2 ht2 H2 => ?_
    intro hx10
    obtain ⟨sg', e, hl, hrep⟩ := H2
    obtain ⟨id, ⟨comps, hs', e1, e2, hr1⟩, Hid⟩ := H1
    obtain ⟨nd, eid, hlid, hN⟩ := Hid.forth hp2
    have hrep' := hrep
    cases hrep with
    | handle e' hN' =>
      refine sim_return e e' ?_
      refine Sim.get ?_
      have e1' := get_prefix hp2 e1
      have e2' := get_prefix hp2 e2
      have hg : get_unqualified_identifier w2.c qn = .ok (some id) := by
        unfold get_unqualified_identifier
        rw [resolve_get (World.c_get e1') rfl]
        dsimp only
        rw [resolve_get (World.c_get e2') rfl]
        dsimp only
        rw [List.getLast?_append, List.getLast?_singleton]
        unfold downcast
        have hid := rep_idNode hN (rfl : T.isIdNode (.conv ta .nil) = true)
        have hin : nd.is .INode = true := by
          revert hid; cases nd <;> first | (intro _; rfl) | (intro h; cases h)
        simp only [Option.some_or]
        rw [resolve_get (World.c_get eid) hin]
        simp [hid]
      rw [mk_cache, hg]
      refine Sim.step rfl (Sim.step rfl ?_)
      obtain ⟨hret, eret, hRr⟩ := rep_ret hN' hf.sig hr
      rw [eret]
      refine Sim.modify true eid ?_
      have hv := Vis.set eid (set_target_type (some hret) nd, true)
      have hne : id ≠ fsn := by
        rintro rfl
        rw [e] at eid
        obtain ⟨nd1, e4, _⟩ := Hid
        exact absurd (lt_of_get e4) (Nat.not_lt.2 hl)
      refine Sim.done (prefix_set (hp1.trans hp2) hlid _) (ht2.mono hv) ⟨⟨sg', ?_, Nat.le_trans hp1.length_le hl, hrep'.mono hv⟩, ?_⟩
      · rw [get_set_ne hne]; exact e
      · refine qpost_seen (w := w) ⟨comps, hs', hv _ _ e1', hv _ _ e2', (hr1.mono (Vis.prefix hp2)).mono hv⟩ ?_
        cases hN with
        | conv h1 h2 => exact .handle (get_set eid _) (.conv (h1.mono hv) (.cons (hRr.mono hv) .nil))
  · rintro symbol s ⟨w2, ns2, ps2, rfl, hl1, hp2, ht2, ⟨sg', e, hl, hrep⟩, hseen⟩
    refine sim_declEnd hp2 hl ht2 hseen (last_snoc _ _) rfl ?_ e (.fn hseen hrep)
    intro w nd h
    cases h with
    | @conv _ _ o o' h1 h2 =>
      cases o' with
      | none => cases h2
      | some => rfl

theorem rule_conv {ps' ta r prs : T} {f : Sig} (h : MSname E tb (.conv ta .nil) x tb1 k1) (hs : MScopes E tb1 ps' y tb2 k2)
    (hf : MFenc E tb2 (.sig f (T.one r) prs) z tb' k3) :
    MDecl E tb (.fn (.qname (ps'.snoc (.conv ta (T.one r)))) (.sig f (T.one r) prs)) (x ++ y ++ z) tb' (k1 + k2 + k3) := rule_convGen h hs hf rfl

theorem rule_convThunk {ps' ta r prs : T} {f : Sig} {adj : Adjust} (h : MSname E tb (.conv ta .nil) x tb1 k1) (hs : MScopes E tb1 ps' y tb2 k2)
    (hf : MFenc E tb2 (.thunk f adj (T.one r) prs) z tb' k3) :
    MDecl E tb (.fn (.qname (ps'.snoc (.conv ta (T.one r)))) (.thunk f adj (T.one r) prs)) (x ++ y ++ z) tb' (k1 + k2 + k3) := rule_convGen h hs hf rfl

/-! ### Variables -/

/-- Reading the type of a variable. -/
def MVty (E : Env) (tb : Tbl) (t : T) (x : Text) (tb' : Tbl) (cnt : Nat) : Prop :=
  ∀ n sc, Runs (demangle_variable_encoding (render E) (fns (render E) n) sc) x tb tb' (VarPost sc t) cnt

theorem sim_varEnd {w0 w : World} {ty : Handle} {sc : StorageClass} {rest : Text} {ns ps : List Handle}
    (hp : w0 <+: w) (ht : Tab w tb ns ps) (hr : Rep w t (.H ty))
    (hl1 : w.length + 1 = w0.length + k1 := by nodes) (hN : w0.length + k1 ≤ N := by nodes) :
    Sim N (intern (.VariableSymbol none (some sc) (some ty))) (mk rest w.c ns ps) (Reach w0 tb rest k1 (VarPost sc t w0)) := by
  refine Sim.intern_end false ⟨_, ns, ps, rfl, by nodes, prefix_push hp _, ht.mono (Vis.push _), ty, get_push _ _, hp.length_le, ?_⟩
  exact hr.mono (Vis.push _)

theorem vty_plain (h : MTy E tb t z tb' k1) (hn : t.isPtr = false) {ch : Char} {q : CV} (hc : (ch, q) ∈ cvCodes ++ memberCvCodes) :
    MVty E tb (t.setQ q) (z ++ [ch]) tb' (k1 + 1) := by
  intro n sc rest w ns ps ht
  unfold demangle_variable_encoding
  rw [List.append_assoc]
  refine Runs.bind (mty_drop h n) ht fun ty w1 ns1 ps1 hp1 ht1 H1 => ?_
  intro hx11
  rw [tyHole_of hn] at H1
  obtain ⟨qq, b, hq, he⟩ := quals_run hc
  obtain ⟨nd, e, hl, H2⟩ := H1.setQ hq
  have hnp : nd.is .PointerType = false := by
    obtain ⟨nd', e', _, hr⟩ := H1
    rw [e] at e'
    cases e'
    exact rep_notPtr hr hn
  refine Sim.bind (Q := fun _ s => s = mk rest (World.c (w1.set ty (nd.set_quals qq, false))) ns1 ps1) ?_ ?_
  · unfold variable_quals
    refine Sim.down e ?_
    rw [hnp]
    refine Sim.step he ?_
    exact Sim.modify_end false e rfl
  · rintro ⟨⟩ s rfl
    obtain ⟨w3, hc3, hp3, hv3, H3⟩ := H2.reveal (prefix_set hp1 hl _)
    rw [← hc3]
    exact sim_varEnd hp3 ((ht1.mono (Vis.set e _)).mono hv3) H3

theorem vty_ptr {cv : CV} {a : PointerAffinity} {to : T} (ex : Ext) (h : MTy E tb (.ptr cv a .nil to) z tb' k1) {ch : Char} {q : CV}
    (hc : (ch, q) ∈ cvCodes ++ memberCvCodes) :
    MVty E tb (.ptr (cv.or ex.cv) a .nil (to.addQ q)) (z ++ (ex.code ++ [ch])) tb' (k1 + 1) := by
  intro n sc rest w ns ps ht
  unfold demangle_variable_encoding
  rw [List.append_assoc]
  refine Runs.bind (mty_drop h n) ht fun ty w1 ns1 ps1 hp1 ht1 H1 => ?_
  intro hx12
  obtain ⟨q', co, p, e, hl, hq', hcl, hne, nd, ep, hlp, hr⟩ := H1
  obtain ⟨qq, b, hq, he⟩ := quals_run hc
  have hco : co = none := by
    cases co with
    | none => rfl
    | some => cases hcl
  subst hco
  have hx := ext_run (c := w1.c) (ns := ns1) (ps := ps1) ex (noExt_of hc rest)
  obtain ⟨qe, hqe, ee⟩ := hx
  let w2 := w1.set ty (.PointerType (q' ||| qe) (some a) none p, false)
  let w3 := w2.set p (nd.append_quals qq, true)
  have hw3 : w3.length = w1.length := by simp [w3, w2]
  have hv2 : Vis w1 w2 := Vis.set e _
  have ep2 : w2[p]? = some (nd, false) := by rw [get_set_ne hne.symm]; exact ep
  have hv3 : Vis w2 w3 := Vis.set ep2 _
  refine Sim.bind (Q := fun _ s => s = mk rest (World.c w3) ns1 ps1) ?_ ?_
  · unfold variable_quals
    refine Sim.down e ?_
    refine Sim.step (a := qe) (by rw [List.append_assoc]; exact ee) ?_
    refine Sim.res e ?_
    refine Sim.modify false e ?_
    refine Sim.step he ?_
    refine Sim.step rfl ?_
    exact Sim.modify_end true ep2 rfl
  · rintro ⟨⟩ s rfl
    have e3 : w3[ty]? = some (.PointerType (q' ||| qe) (some a) none p, false) := by
      rw [get_set_ne hne]; exact get_set e _
    have hp3 : w <+: w3 := prefix_set (prefix_set hp1 hl _) hlp _
    have H3 : Hole (.ptr (cv.or ex.cv) a .nil (to.addQ q)) w w3 ty := by
      refine ⟨_, e3, hl, .ptr (hq'.or hqe) .nil (.handle (get_set ep2 _) ?_)⟩
      exact (hr.mono (hv2.trans hv3)).addQ hq
    obtain ⟨w4, hc4, hp4, hv4, H4⟩ := H3.reveal hp3
    rw [← hc4]
    exact sim_varEnd hp4 (((ht1.mono hv2).mono hv3).mono hv4) H4

theorem vty_member {cv : CV} {a : PointerAffinity} {to cls n0 : T} (ex : Ext) (h : MTy E tb (.ptr cv a (T.one cls) to) z tb1 k1) {ch : Char} {q : CV}
    (hc : (ch, q) ∈ cvCodes ++ memberCvCodes) (hn : MQtn E tb1 n0 u tb' k2) :
    MVty E tb (.ptr (cv.or ex.cv) a (T.one cls) (to.addQ q)) (z ++ (ex.code ++ ch :: u)) tb' (k1 + k2 + 1) := by
  intro n sc rest w ns ps ht
  unfold demangle_variable_encoding
  rw [List.append_assoc]
  refine Runs.bind (mty_drop h n) ht fun ty w1 ns1 ps1 hp1 ht1 H1 => ?_
  intro hx13
  obtain ⟨q', co, p, e, hl, hq', hcl, hne, nd, ep, hlp, hr⟩ := H1
  obtain ⟨qq, b, hq, he⟩ := quals_run hc
  obtain ⟨cl, rfl⟩ : ∃ cl, co = some cl := by
    cases co with
    | none => cases hcl
    | some cl => exact ⟨cl, rfl⟩
  obtain ⟨qe, hqe, ee⟩ := ext_run (c := w1.c) (ns := ns1) (ps := ps1) ex (noExt_of hc (u ++ rest))
  let w2 := w1.set ty (.PointerType (q' ||| qe) (some a) (some cl) p, false)
  have hw2 : w2.length = w1.length := by simp [w2]
  have hv2 : Vis w1 w2 := Vis.set e _
  have e2 : w2[ty]? = some (.PointerType (q' ||| qe) (some a) (some cl) p, false) := get_set e _
  have ep2 : w2[p]? = some (nd, false) := by rw [get_set_ne hne.symm]; exact ep
  refine Sim.bind (Q := fun _ s => ∃ (w3 : World) (ns3 ps3 : List Handle), s = mk rest (World.c (w3.set p (nd.append_quals qq, true))) ns3 ps3 ∧ w3.length = w2.length + k2 ∧ w2 <+: w3 ∧ Tab w3 tb' ns3 ps3) ?_ ?_
  · unfold variable_quals
    refine Sim.down e ?_
    refine Sim.step (a := qe) (by rw [List.append_assoc]; exact ee) ?_
    refine Sim.res e ?_
    refine Sim.modify false e ?_
    refine Sim.step he ?_
    refine Sim.bind (Q := fun _ s => ∃ (w3 : World) (ns3 ps3 : List Handle), s = mk rest (World.c w3) ns3 ps3 ∧ w3.length = w2.length + k2 ∧ w2 <+: w3 ∧ Tab w3 tb' ns3 ps3) ?_ ?_
    · show Sim _ (demangle_fully_qualified_type_name (render E) (fns (render E) n) >>= fun _ => Pure.pure ()) _ _
      refine Runs.bind (hn n) (ht1.mono hv2) fun _ w3 ns3 ps3 hp3 ht3 _ => ?_
      intro hx14
      exact ⟨w3, ns3, ps3, rfl, by assumption, hp3, ht3⟩
    · rintro ⟨⟩ s ⟨w3, ns3, ps3, rfl, hl3, hp3, ht3⟩
      exact Sim.modify_end true (get_prefix hp3 ep2) ⟨w3, ns3, ps3, rfl, hl3, hp3, ht3⟩
  · rintro ⟨⟩ s ⟨w3, ns3, ps3, rfl, hl3, hp3, ht3⟩
    have ep3 := get_prefix hp3 ep2
    have hv3 : Vis w2 w3 := Vis.prefix hp3
    have hv4 : Vis w3 (w3.set p (nd.append_quals qq, true)) := Vis.set ep3 _
    have e3 : (w3.set p (nd.append_quals qq, true))[ty]? = some (.PointerType (q' ||| qe) (some a) (some cl) p, false) := by
      rw [get_set_ne hne]; exact get_prefix hp3 e2
    have hp2 : w <+: w3 := (prefix_set hp1 hl _).trans hp3
    have hp4 : w <+: w3.set p (nd.append_quals qq, true) := prefix_set hp2 hlp _
    have hv := (hv2.trans hv3).trans hv4
    have H3 : Hole (.ptr (cv.or ex.cv) a (T.one cls) (to.addQ q)) w (w3.set p (nd.append_quals qq, true)) ty := by
      refine ⟨_, e3, hl, .ptr (hq'.or hqe) (hcl.mono hv) (.handle (get_set ep3 _) ?_)⟩
      exact (hr.mono hv).addQ hq
    obtain ⟨w5, hc5, hp5, hv5, H5⟩ := H3.reveal hp4
    rw [← hc5]
    exact sim_varEnd hp5 ((ht3.mono hv4).mono hv5) H5

theorem decl_var {items i : T} {st : Char} {sc : StorageClass} (hq : MFqs E tb (.qname items) x tb1 k1) (hlast : items.last = some i)
    (hi : T.isIdNode i = true) (hc : T.isConv i = false) (hs : (st, sc) ∈ Spec.storageCodes) (hv : MVty E tb1 t z tb' k2) (n : Nat) :
    Runs (demangle_declarator (render E) (fns (render E) n)) (x ++ st :: z) tb tb' (Hole (.var (some sc) (.qname items) t.one)) (k1 + k2) := by
  intro rest w ns ps ht
  unfold demangle_declarator
  rw [List.append_assoc]
  refine Runs.bind (hq n) ht fun qn w1 ns1 ps1 hp1 ht1 H1 => ?_
  intro hx15
  refine Sim.bind (Q := Reach w1 tb' rest k2 (VarPost sc t w1)) ?_ ?_
  · unfold demangle_encoded_symbol
    refine Sim.query ?_
    rw [mk_str, first_of (x := st :: z) rfl]
    refine Sim.step rfl ?_
    rw [(storage_run (t := z ++ rest) (c := w1.c) (ns := ns1) (ps := ps1) hs).2, if_pos rfl]
    refine Sim.step (storage_run hs).1 ?_
    exact (hv n sc rest w1 ns1 ps1 ht1).le (by nodes)
  · rintro symbol s ⟨w2, ns2, ps2, rfl, hl1, hp2, ht2, ty, e, hl, hr⟩
    have H1' := Rep.mono (Vis.prefix hp2) H1
    refine sim_declEnd (hp1.trans hp2) (Nat.le_trans hp1.length_le hl) ht2 H1' hlast hi (fun w nd h => (rep_noconv h hi hc).2) e ?_
    exact .var H1' (.cons hr .nil)

theorem rule_varGen {i ps' : T} {st : Char} {sc : StorageClass} (h : MSname E tb i x tb1 k1) (hp : i.isPlain = true) (hs : MScopes E tb1 ps' y tb2 k2)
    (hst : (st, sc) ∈ Spec.storageCodes) (hv : MVty E tb2 t z tb' k3) :
    MDecl E tb (.var (some sc) (.qname (ps'.snoc i)) t.one) (x ++ y ++ st :: z) tb' (k1 + k2 + k3) := by
  refine ⟨by simp [h.ne], rfl, ⟨i, last_snoc _ _, plain_id hp⟩, fun n => ?_⟩
  exact decl_var (fqs_plain h hp hs) (last_snoc _ _) (plain_id hp) (plain_noconv hp) hst hv n

theorem rule_var {i ps' : T} {st ch : Char} {q : CV} {sc : StorageClass} (h : MSname E tb i x tb1 k1) (hp : i.isPlain = true) (hs : MScopes E tb1 ps' y tb2 k2)
    (hst : (st, sc) ∈ Spec.storageCodes) (ht : MTy E tb2 t z tb' k3) (hn : t.isPtr = false) (hc : (ch, q) ∈ cvCodes ++ memberCvCodes) :
    MDecl E tb (.var (some sc) (.qname (ps'.snoc i)) (t.setQ q).one) (x ++ y ++ st :: z ++ [ch]) tb' (k1 + k2 + (k3 + 1)) := by
  have := rule_varGen h hp hs hst (vty_plain ht hn hc)
  simpa only [List.append_assoc, List.cons_append] using this

theorem rule_varPtr {i ps' to : T} {st ch : Char} {q cv : CV} {a : PointerAffinity} {sc : StorageClass} (e : Ext) (h : MSname E tb i x tb1 k1) (hp : i.isPlain = true) (hs : MScopes E tb1 ps' y tb2 k2)
    (hst : (st, sc) ∈ Spec.storageCodes) (ht : MTy E tb2 (.ptr cv a .nil to) z tb' k3) (hc : (ch, q) ∈ cvCodes ++ memberCvCodes) :
    MDecl E tb (.var (some sc) (.qname (ps'.snoc i)) (T.one (.ptr (cv.or e.cv) a .nil (to.addQ q)))) (x ++ y ++ st :: z ++ e.code ++ [ch]) tb' (k1 + k2 + (k3 + 1)) := by
  have := rule_varGen h hp hs hst (vty_ptr e ht hc)
  simpa only [List.append_assoc, List.cons_append] using this

theorem rule_varMemberPtr {i ps' to cls n0 : T} {st ch : Char} {q cv : CV} {a : PointerAffinity} {sc : StorageClass} (e : Ext) (h : MSname E tb i x tb1 k1) (hp : i.isPlain = true) (hs : MScopes E tb1 ps' y tb2 k2)
    (hst : (st, sc) ∈ Spec.storageCodes) (ht : MTy E tb2 (.ptr cv a (T.one cls) to) z tb3 k3) (hc : (ch, q) ∈ cvCodes ++ memberCvCodes) (hn : MQtn E tb3 n0 u tb' k4) :
    MDecl E tb (.var (some sc) (.qname (ps'.snoc i)) (T.one (.ptr (cv.or e.cv) a (T.one cls) (to.addQ q)))) (x ++ y ++ st :: z ++ e.code ++ ch :: u) tb' (k1 + k2 + (k3 + k4 + 1)) := by
  have := rule_varGen h hp hs hst (vty_member e ht hc hn)
  simpa only [List.append_assoc, List.cons_append] using this

end

end Undname.Ex
