/-
  Simulation: identifiers and template instantiations.
-/
import Verif.Exact.SimNames

namespace Undname.Ex
open Spec (CV FnKind Sig Adjust Access T Tbl Ext Name Fits cvCodes memberCvCodes ptrCodes refCodes primCode tagCode)

section
variable {E : Env} {tb tb' tb1 tb2 : Tbl} {t t' : T} {x y z : Text} {k1 k2 k3 k4 : Nat} {N : Nat}

structure MFid (E : Env) (tb : Tbl) (t : T) (x : Text) (tb' : Tbl) (cnt : Nat) : Prop where
  ident : T.isIdent t = true
  cons : ∃ c y, x = c :: y ∧ c ≠ '@'
  run : ∀ n, Runs (demangle_unqualified_symbol_name (fns (render E) n) .Simple) x tb tb' (Hole t) cnt

theorem rule_fName {s : Text} (h : Name s) : MFid E tb (.named s .nil) (s ++ c!"@") (tb.note s) (tb.noteCost s + 1) := by
  obtain ⟨c, y, rfl, h1, h2, h3⟩ := name_cons h
  refine ⟨rfl, ⟨c, _, rfl, h3⟩, fun n rest w ns ps ht => ?_⟩
  have hsw : ∀ (t u : Text), (MStr.new (c :: t)).starts_with ('?' :: u) = false := by
    intro t u
    simp [run, Ne.symm h2]
  unfold demangle_unqualified_symbol_name
  refine Sim.step (firstIs_cons _ _ _ _ _ _) ?_
  rw [h1]
  refine Sim.query ?_
  simp only [mk_str, hsw]
  refine Sim.query ?_
  simp only [mk_str, hsw]
  exact run_simple h.ne h.at_ rest w ns ps ht

/-- Codes after `?`. -/
theorem fid_code {u : Text} (hi : T.isIdent t = true) (hd : ∀ rest, (MStr.new (u ++ rest)).starts_with c!"$" = false)
    (h : Runs demangle_function_identifier_code ('?' :: u) tb tb' (Hole t) k1) : MFid E tb t ('?' :: u) tb' k1 := by
  refine ⟨hi, ⟨_, _, rfl, by decide⟩, fun n rest w ns ps ht => ?_⟩
  unfold demangle_unqualified_symbol_name
  rw [List.cons_append]
  refine Sim.step (firstIs_cons _ _ _ _ _ _) ?_
  rw [show isDigit '?' = false from rfl]
  refine Sim.query ?_
  have e1 : (MStr.new ('?' :: (u ++ rest))).starts_with c!"?$" = false := by
    rw [sw_cons_cons, hd]; rfl
  have e2 : (MStr.new ('?' :: (u ++ rest))).starts_with c!"?" = true := by simp [run]
  simp only [mk_str, e1]
  refine Sim.query ?_
  simp only [mk_str, e2]
  exact h rest w ns ps ht

theorem fid_intern {u : Text} {nd : Node} (hi : T.isIdent t = true) (hd : ∀ rest, (MStr.new (u ++ rest)).starts_with c!"$" = false)
    (hr : ∀ w, Rep w t (.N nd))
    (h : ∀ (rest : Text) (c : Cache) (ns ps : List Handle), exec demangle_function_identifier_code (mk ('?' :: (u ++ rest)) c ns ps) = exec (intern nd) (mk rest c ns ps)) :
    MFid E tb t ('?' :: u) tb 1 := by
  refine fid_code hi hd fun rest w ns ps ht => ?_
  exact Sim.of_eq (h rest _ _ _) (sim_hole (List.prefix_refl _) ht (hr w))


/-- Everything about an operator code that computes. -/
theorem fid_op {u : Text} {k : IFK} (g : CodeGroup) (c : Char) (hu : u = (match g with | .Basic => [c] | .Under => ['_', c] | .DoubleUnder => ['_', '_', c]))
    (hc : c ≠ '$' ∧ c ≠ '_')
    (hg : (g == .Basic && (c == '0' || c == '1')) = false ∧ (g == .Basic && c == 'B') = false ∧ (g == .DoubleUnder && c == 'K') = false ∧
      trOk c g k = true) : MFid E tb (.op (some k) .nil) ('?' :: u) tb 1 := by
  subst hu
  obtain ⟨h1, h2, h3, h4⟩ := hg
  replace h4 := trOk_eq h4
  have h5 : ('$' == c) = false := by simpa using Ne.symm hc.1
  have h6 : ('_' == c) = false := by simpa using Ne.symm hc.2
  have h7 : (c == '_') = false := by simpa using hc.2
  refine fid_intern (nd := .IntrinsicFunctionIdentifier none (some k)) rfl ?_ (fun w => .op .nil) ?_
  · intro rest; cases g <;> simp [run, h5]
  · intro rest ca ns ps
    cases g <;> simp [demangle_function_identifier_code, demangle_function_identifier_code_group, run, h4, h6, h7] <;> simp_all

theorem rule_fOp {c : Char} {k : IFK} (h : (c, k) ∈ Spec.basicOps) : MFid E tb (.op (some k) .nil) ['?', c] tb 1 := by
  have key : ∀ p ∈ Spec.basicOps, (p.1 ≠ '$' ∧ p.1 ≠ '_') ∧ ((CodeGroup.Basic == .Basic && (p.1 == '0' || p.1 == '1')) = false ∧ (CodeGroup.Basic == .Basic && p.1 == 'B') = false ∧
    (CodeGroup.Basic == .DoubleUnder && p.1 == 'K') = false ∧ trOk p.1 .Basic p.2 = true) := by
    decide
  obtain ⟨⟨a, b⟩, e⟩ := key _ h
  exact fid_op .Basic c rfl ⟨a, b⟩ e

theorem rule_fOpUnder {c : Char} {k : IFK} (h : (c, k) ∈ Spec.underOps) : MFid E tb (.op (some k) .nil) ['?', '_', c] tb 1 := by
  have key : ∀ p ∈ Spec.underOps, (p.1 ≠ '$' ∧ p.1 ≠ '_') ∧ ((CodeGroup.Under == .Basic && (p.1 == '0' || p.1 == '1')) = false ∧ (CodeGroup.Under == .Basic && p.1 == 'B') = false ∧
    (CodeGroup.Under == .DoubleUnder && p.1 == 'K') = false ∧ trOk p.1 .Under p.2 = true) := by
    decide
  obtain ⟨a, e⟩ := key _ h
  exact fid_op .Under c rfl a e

theorem rule_fOpDunder {c : Char} {k : IFK} (h : (c, k) ∈ Spec.dunderOps) : MFid E tb (.op (some k) .nil) ['?', '_', '_', c] tb 1 := by
  have key : ∀ p ∈ Spec.dunderOps, (p.1 ≠ '$' ∧ p.1 ≠ '_') ∧ ((CodeGroup.DoubleUnder == .Basic && (p.1 == '0' || p.1 == '1')) = false ∧ (CodeGroup.DoubleUnder == .Basic && p.1 == 'B') = false ∧
    (CodeGroup.DoubleUnder == .DoubleUnder && p.1 == 'K') = false ∧ trOk p.1 .DoubleUnder p.2 = true) := by
    decide
  obtain ⟨a, e⟩ := key _ h
  exact fid_op .DoubleUnder c rfl a e

theorem rule_fLit {s : Text} (h0 : s ≠ []) (h : '@' ∉ s) : MFid E tb (.lit s .nil) (c!"?__K" ++ s ++ c!"@") tb 1 := by
  refine fid_code rfl (fun _ => rfl) fun rest w ns ps ht => ?_
  · refine Sim.of_eq (m' := intern (.LiteralOperatorIdentifier none s)) (s' := mk rest w.c ns ps) ?_
      (sim_hole (List.prefix_refl _) ht (.lit .nil))
    simp [demangle_function_identifier_code, demangle_function_identifier_code_group, demangle_literal_operator_identifier, run, sstring_false h0 h]

theorem rule_fCtor : MFid E tb (.structor false .nil .nil) c!"?0" tb 1 := by
  refine fid_intern (nd := .StructorIdentifier none none false) rfl (fun _ => rfl) (fun w => .structor .nil .nil) ?_
  · intro rest ca ns ps
    simp [demangle_function_identifier_code, demangle_function_identifier_code_group, run]

theorem rule_fDtor : MFid E tb (.structor true .nil .nil) c!"?1" tb 1 := by
  refine fid_intern (nd := .StructorIdentifier none none true) rfl (fun _ => rfl) (fun w => .structor .nil .nil) ?_
  · intro rest ca ns ps
    simp [demangle_function_identifier_code, demangle_function_identifier_code_group, run]

theorem rule_fConv : MFid E tb (.conv .nil .nil) c!"?B" tb 1 := by
  refine fid_intern (nd := .ConversionOperatorIdentifier none none) rfl (fun _ => rfl) (fun w => .conv .nil .nil) ?_
  · intro rest ca ns ps
    simp [demangle_function_identifier_code, demangle_function_identifier_code_group, run]

/-! ### Template instantiations -/

def MTargs (E : Env) (tb : Tbl) (t : T) (x : Text) (tb' : Tbl) (cnt : Nat) : Prop :=
  ∀ n j acc, Runs (SM.iterate j (templateListBody (render E) (fns (render E) n)) acc) x tb tb' (More t acc) cnt

structure MTmpl (E : Env) (tb : Tbl) (t : T) (x : Text) (tb' : Tbl) (cnt : Nat) : Prop where
  ident : T.isIdent t = true
  head : ∃ y, x = '?' :: '$' :: y
  simple : ∀ n, Runs ((fns (render E) n).tmpl .Simple) x tb tb' (Hole t) cnt
  template : t.isPlain = true → Fits (t.text E) → ∀ n, Runs ((fns (render E) n).tmpl .Template) x tb (tb'.note (t.text E)) (Seen t) (cnt + tb'.noteCost (t.text E))

/-- The part of `demangle_template_instantiation_name` that does not depend on the mode. -/
theorem sim_tmpl {i as : T} (hid : T.isIdent i = true)
    (hi : ∀ n, Runs (demangle_unqualified_symbol_name (fns (render E) n) .Simple) x {} tb1 (Hole i) k1) (ha : MTargs E tb1 as y tb2 k2) (n : Nat) {nbb : NBB} {Q : World → World → Handle → Prop}
    (hk : ∀ (rest : Text) (w w' : World) (ns ps : List Handle) (h : Handle), w <+: w' → Tab w' tb ns ps → Hole (i.withArgs as) w w' h → {_ : w'.length = w.length + (k1 + k2 + 1)} →
      Sim (w.length + (k1 + k2 + 1 + k3)) (if nbb.is_template then do
        let n ← resolveP .IIdentifierNode h
        if n.isConversionOrStructor then SM.err .InvalidTemplateInstantiationName
        else do
          memorize_identifier (render E) h
          pure h
        else pure h) (mk rest w'.c ns ps) (Reach w tb' rest (k1 + k2 + 1 + k3) (Q w))) :
    Runs (demangle_template_instantiation_name (render E) (fns (render E) n) nbb) (c!"?$" ++ x ++ y) tb tb' Q (k1 + k2 + 1 + k3) := by
  intro rest w ns ps ht
  unfold demangle_template_instantiation_name
  simp only [List.append_assoc]
  refine Sim.step (a := ()) (s' := mk (x ++ (y ++ rest)) w.c ns ps) ?_ ?_
  · rw [expectStr_eq, tryStr_hit]; rfl
  refine Sim.get (Sim.step (s' := mk (x ++ (y ++ rest)) w.c [] []) rfl ?_)
  refine Runs.bind (hi n) (Tab.empty w) fun h w1 ns1 ps1 hp1 ht1 H1 => ?_
  unfold demangle_template_parameter_list
  refine Sim.bind (Q := fun tp s => ∃ w2 : World, ∃ ns2 ps2, s = mk rest w2.c ns2 ps2 ∧ w2.length = w1.length + (k2 + 1) ∧ w1 <+: w2 ∧ Rep w2 (.arr as) (.H tp)) ?_ ?_
  · refine Sim.loopB (fun k => (ha n k [] rest w1 ns1 ps1 ht1).le (by nodes)) ?_
    rintro hs s ⟨w2, ns2, ps2, rfl, hl, hp2, ht2, hs', rfl, hr⟩
    refine Sim.intern_end true ⟨_, _, _, rfl, by nodes, prefix_push hp2 _, ?_⟩
    exact .handle (get_push _ _) (.arr (hr.mono (Vis.push _)))
  · rintro tp s ⟨w2, ns2, ps2, rfl, hl, hp2, hr⟩
    obtain ⟨nd, e, hl', hN⟩ := H1.forth hp2
    refine Sim.modify false e ?_
    refine Sim.step (s' := mk rest (World.c (w2.set h (nd.set_template_params tp, false))) ns ps) rfl ?_
    refine @hk rest w _ ns ps h (prefix_set (hp1.trans hp2) hl' _) (ht.mono ((Vis.prefix (hp1.trans hp2)).trans (Vis.set e _))) ?_ (by nodes)
    exact Hole.set e hl' (hN.withArgs hid hr)

theorem rule_tmplGen {i as : T} (hii : T.isIdent i = true)
    (hi : ∀ n, Runs (demangle_unqualified_symbol_name (fns (render E) n) .Simple) x {} tb1 (Hole i) k1) (ha : MTargs E tb1 as y tb2 k2) :
    MTmpl E tb (i.withArgs as) (c!"?$" ++ x ++ y) tb (k1 + k2 + 1) := by
  have hid : T.isIdent (i.withArgs as) = true := by
    cases i <;> first | rfl | cases hii
  refine ⟨hid, ⟨x ++ y, rfl⟩, fun n => ?_, fun hpl hf n => ?_⟩
  · cases n with
    | zero => intro rest w ns ps _; exact Sim.crash (c := .fuel) rfl
    | succ n =>
      refine sim_tmpl (k3 := 0) hii hi ha n fun rest w w' ns ps h hp ht H => ?_
      exact Sim.done hp ht H
  · cases n with
    | zero => intro rest w ns ps _; exact Sim.crash (c := .fuel) rfl
    | succ n =>
      refine sim_tmpl hii hi ha n fun rest w w' ns ps h hp ht H => ?_
      obtain ⟨w2, hc2, hp2, hv2, H2⟩ := H.reveal hp
      obtain ⟨nd, e, hl, hN⟩ := H
      rw [show NBB.Template.is_template = true from rfl, if_pos rfl]
      refine Sim.res e ?_
      rw [rep_plain hN hpl, if_neg (by simp), ← hc2]
      refine sim_memoId (ht.mono hv2) H2 hf fun w3 ns3 hp3 ht3 => ?_
      exact Sim.done (hp2.trans hp3) ht3 (H2.mono (Vis.prefix hp3))

theorem rule_tmpl {i as : T} (hi : MFid E {} i x tb1 k1) (ha : MTargs E tb1 as y tb2 k2) :
    MTmpl E tb (i.withArgs as) (c!"?$" ++ x ++ y) tb (k1 + k2 + 1) := rule_tmplGen hi.ident hi.run ha

/-- The name of a symbol may be an instantiation. -/
theorem usn_tmpl (h : MTmpl E tb t x tb' k1) (n : Nat) :
    Runs (demangle_unqualified_symbol_name (fns (render E) n) .Simple) x tb tb' (Hole t) k1 := by
  obtain ⟨y, rfl⟩ := h.head
  intro rest w ns ps ht
  unfold demangle_unqualified_symbol_name
  rw [List.cons_append, List.cons_append]
  refine Sim.step (firstIs_cons _ _ _ _ _ _) ?_
  rw [show isDigit '?' = false from rfl]
  refine Sim.query ?_
  rw [mk_str, show ∀ u : Text, (MStr.new ('?' :: '$' :: u)).starts_with c!"?$" = true by intro u; simp [run]]
  exact h.simple n rest w ns ps ht

theorem rule_tmplTmpl {i as : T} (hi : MTmpl E {} i x tb1 k1) (ha : MTargs E tb1 as y tb2 k2) :
    MTmpl E tb (i.withArgs as) (c!"?$" ++ x ++ y) tb (k1 + k2 + 1) := rule_tmplGen hi.ident (usn_tmpl hi) ha

theorem rule_uTmpl (h : MTmpl E tb t x tb' k1) (hpl : t.isPlain = true) (hf : Fits (t.text E)) :
    MUname E tb t x (tb'.note (t.text E)) (k1 + tb'.noteCost (t.text E)) := by
  obtain ⟨y, rfl⟩ := h.head
  have hsw : ∀ u : Text, (MStr.new ('?' :: '$' :: u)).starts_with c!"?$" = true := by intro u; simp [run]
  refine ⟨by simp, fun n rest w ns ps ht => ?_, fun n rest w ns ps ht => ?_⟩
  · unfold demangle_unqualified_type_name
    rw [List.cons_append, List.cons_append]
    refine Sim.step (firstIs_cons _ _ _ _ _ _) ?_
    rw [show isDigit '?' = false from rfl]
    refine Sim.query ?_
    rw [mk_str, hsw]
    exact h.template hpl hf n rest w ns ps ht
  · unfold demangle_name_scope_piece
    rw [List.cons_append, List.cons_append]
    refine Sim.step (firstIs_cons _ _ _ _ _ _) ?_
    rw [show isDigit '?' = false from rfl]
    refine Sim.query ?_
    rw [mk_str, hsw]
    exact h.template hpl hf n rest w ns ps ht

/-! ### Names of symbols -/

structure MSname (E : Env) (tb : Tbl) (t : T) (x : Text) (tb' : Tbl) (cnt : Nat) : Prop where
  ident : T.isIdent t = true
  ne : x ≠ []
  run : ∀ n, Runs (demangle_unqualified_symbol_name (fns (render E) n) .Simple) x tb tb' (IdPost t) cnt

theorem idPost_hole {m : P Handle} (h : Runs m x tb tb' (Hole t) k1) : Runs m x tb tb' (IdPost t) k1 := by
  unfold IdPost
  by_cases hp : t.isPlain = true
  · simp only [hp, if_true]
    exact h.mark fun w w' a hp H => H.reveal hp
  · simp only [hp]
    exact h

theorem rule_sBack {i : Nat} {s : Text} (hi : i < 10) (hget : tb.names[i]? = some s) : MSname E tb (.named s .nil) (Spec.digit i) tb 0 := by
  refine ⟨rfl, ?_, fun n rest w ns ps ht => ?_⟩
  · obtain ⟨c, hc, h1, _⟩ := digit_char hi
    rw [hc]
    simp
  · unfold demangle_unqualified_symbol_name
    refine Sim.step (digit_first hi _ _ _ _) ?_
    exact backref_run hi hget rest w ns ps ht

theorem rule_sFull (h : MFid E tb t x tb' k1) : MSname E tb t x tb' k1 := ⟨h.ident, by obtain ⟨c, y, rfl, _⟩ := h.cons; simp, fun n => idPost_hole (h.run n)⟩

theorem rule_sTmpl (h : MTmpl E tb t x tb' k1) : MSname E tb t x tb' k1 := by
  obtain ⟨y, rfl⟩ := h.head
  exact ⟨h.ident, by simp, fun n => idPost_hole (usn_tmpl h n)⟩

end

end Undname.Ex
