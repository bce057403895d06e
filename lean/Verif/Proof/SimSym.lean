/-
  Simulation: symbols.
-/
import Verif.Proof.SimDecl

namespace Undname
open Spec (CV FnKind Sig Adjust AdjKind Access T Tbl Ext Name Fits cvCodes memberCvCodes ptrCodes refCodes primCode tagCode)

section
variable {E : Env} {tb tb' tb1 tb2 tb3 : Tbl} {t t' : T} {x y z u : Text}

theorem rule_sym (h : MDecl E tb t x tb') (hh : SymHead x) : MSym E tb t ('?' :: x) tb' := by
  refine ⟨⟨x, rfl⟩, fun i hi => ?_, fun n rest w ns ps ht => ?_⟩
  · obtain ⟨j, hj, hid⟩ := h.ident
    rw [hj] at hi; cases hi; exact hid
  · cases n with
    | zero => exact Sim.crash (c := .fuel) rfl
    | succ n =>
      refine Sim.of_eq (m := (fns (render E) (n+1)).parse) (do_parse_declarator (hh rest).2 (hh rest).1) ?_
      exact (h.run n).mark (fun w w' a hp H => H.reveal hp) rest w ns ps ht

theorem runs_special {k : SpecialIntrinsicKind} {Q : World → World → Handle → Prop} {rest : Text} (hk : specialOf (x ++ rest) = some (k, y ++ rest))
    (h : ∀ n, RunsAt (special_intrinsic (render E) (fns (render E) n) k) y rest tb tb' Q) (n : Nat) :
    RunsAt (fns (render E) n).parse ('?' :: x) rest tb tb' Q := by
  intro w ns ps ht
  cases n with
  | zero => exact Sim.crash (c := .fuel) rfl
  | succ n => exact Sim.of_eq (m := (fns (render E) (n+1)).parse) (do_parse_special hk) (h n w ns ps ht)

/-- A special symbol whose text can be followed by anything. -/
theorem rule_special {k : SpecialIntrinsicKind} {s : Text} (hk : ∀ rest, specialOf ('?' :: s ++ rest) = some (k, y ++ rest))
    (hi : ∀ i, t.ident = some i → T.isIdNode i = true)
    (h : ∀ n, Runs (special_intrinsic (render E) (fns (render E) n) k) y tb tb' (Seen t)) :
    MSym E tb t ('?' :: '?' :: s) tb' :=
  ⟨⟨_, rfl⟩, hi, fun n rest => runs_special (hk rest) (fun n => h n rest) n⟩

theorem table_special {code nm : Text} (h : (code, nm) ∈ Spec.tableCodes) : ∃ k s, code = '?' :: s ∧
    (∀ rest, specialOf (code ++ rest) = some (k, rest)) ∧ specialTableName k = some nm ∧
    ∀ n, special_intrinsic (render E) (fns (render E) n) k = demangle_special_table_symbol_node (render E) (fns (render E) n) k := by
  simp only [Spec.tableCodes, List.mem_cons, List.not_mem_nil, or_false, Prod.mk.injEq] at h
  rcases h with ⟨rfl, rfl⟩ | ⟨rfl, rfl⟩ | ⟨rfl, rfl⟩ | ⟨rfl, rfl⟩
  · exact ⟨.Vftable, _, rfl, fun _ => rfl, rfl, fun _ => rfl⟩
  · exact ⟨.Vbtable, _, rfl, fun _ => rfl, rfl, fun _ => rfl⟩
  · exact ⟨.LocalVftable, _, rfl, fun _ => rfl, rfl, fun _ => rfl⟩
  · exact ⟨.RttiCompleteObjLocator, _, rfl, fun _ => rfl, rfl, fun _ => rfl⟩

theorem six_seven {d : Char} (hd : d ∈ c!"67") (s : Text) (c : Cache) (ns ps : List Handle) :
    exec (tryIf fun x => x == '6' || x == '7') (mk (d :: s) c ns ps) = .ok (some d, mk s c ns ps) := by
  rw [tryIf_cons, if_pos]
  simpa using hd

theorem table_run {k : SpecialIntrinsicKind} {nm : Text} {ps' : T} {d ch : Char} {q : CV} (hk : specialTableName k = some nm)
    (hs : MScopes E tb ps' x tb') (hd : d ∈ c!"67") (hc : (ch, q) ∈ cvCodes ++ memberCvCodes) (n : Nat) :
    Runs (demangle_special_table_symbol_node (render E) (fns (render E) n) k) (x ++ [d, ch, '@']) tb tb'
      (Seen (.table q (.qname (ps'.snoc (.named nm .nil))) .nil)) := by
  intro rest w ns ps ht
  unfold demangle_special_table_symbol_node
  rw [hk, List.append_assoc]
  refine Sim.step rfl (Sim.intern true ?_)
  refine sim_chain hs (ht.mono (Vis.push _)) fun qn w2 ns2 ps2 hp2 ht2 H2 => ?_
  refine Sim.step (six_seven hd _ _ _ _) (Sim.step rfl ?_)
  obtain ⟨qq, b, hq, he⟩ := quals_run hc
  refine Sim.step he (Sim.step (tryChar_cons _ _ _ _ _ _) ?_)
  refine Sim.step rfl ?_
  have hid : Rep w2 (.named nm .nil) (.H w.length) := .handle (get_prefix hp2 (get_push _ _)) (.named (o := none) .nil)
  exact sim_seen ((List.prefix_append _ _).trans hp2) ht2 (.table (o := none) hq (qpost_seen H2 hid) .nil)

theorem table_for {k : SpecialIntrinsicKind} {nm : Text} {ps' n0 : T} {d ch : Char} {q : CV} (hk : specialTableName k = some nm)
    (hs : MScopes E tb ps' x tb1) (hd : d ∈ c!"67") (hc : (ch, q) ∈ cvCodes ++ memberCvCodes) (hn : MQtn E tb1 n0 y tb') (hy : y ≠ [] ∧ y.head? ≠ some '@') (n : Nat) :
    Runs (demangle_special_table_symbol_node (render E) (fns (render E) n) k) (x ++ d :: ch :: y) tb tb'
      (Seen (.table q (.qname (ps'.snoc (.named nm .nil))) n0.one)) := by
  intro rest w ns ps ht
  unfold demangle_special_table_symbol_node
  rw [hk, List.append_assoc]
  refine Sim.step rfl (Sim.intern true ?_)
  refine sim_chain hs (ht.mono (Vis.push _)) fun qn w2 ns2 ps2 hp2 ht2 H2 => ?_
  refine Sim.step (six_seven hd _ _ _ _) (Sim.step rfl ?_)
  obtain ⟨qq, b, hq, he⟩ := quals_run hc
  refine Sim.step he (Sim.step (tryChar_head ?_) ?_)
  · cases y with
    | nil => exact (hy.1 rfl).elim
    | cons c y => exact hy.2
  rw [if_neg (by simp)]
  refine Runs.bind (hn n) ht2 fun h w3 ns3 ps3 hp3 ht3 H3 => ?_
  · refine Sim.step rfl ?_
    have hid : Rep w2 (.named nm .nil) (.H w.length) := .handle (get_prefix hp2 (get_push _ _)) (.named (o := none) .nil)
    exact sim_seen (((List.prefix_append _ _).trans hp2).trans hp3) ht3 (.table (o := some h) hq (Rep.mono (Vis.prefix hp3) (qpost_seen H2 hid)) (.cons H3 .nil))

theorem rule_table {ps' : T} {code nm : Text} {d ch : Char} {q : CV} (h : (code, nm) ∈ Spec.tableCodes) (hs : MScopes E tb ps' x tb')
    (hd : d ∈ c!"67") (hc : (ch, q) ∈ cvCodes ++ memberCvCodes) :
    MSym E tb (.table q (.qname (ps'.snoc (.named nm .nil))) .nil) ('?' :: code ++ x ++ [d, ch, '@']) tb' := by
  obtain ⟨k, s, rfl, hk, hn, he⟩ := table_special (E := E) h
  refine rule_special (k := k) (y := x ++ [d, ch, '@']) (fun rest => ?_) (fun i hi => ?_) (fun n => ?_)
  · rw [← hk]; simp
  · have : (some (T.named nm .nil)) = some i := (last_snoc _ _).symm.trans hi
    cases this; rfl
  · rw [he]; exact table_run hn hs hd hc n

theorem rule_tableFor {ps' n0 : T} {code nm : Text} {d ch : Char} {q : CV} (h : (code, nm) ∈ Spec.tableCodes) (hs : MScopes E tb ps' x tb1)
    (hd : d ∈ c!"67") (hc : (ch, q) ∈ cvCodes ++ memberCvCodes) (hn : MQtn E tb1 n0 y tb') (hy : y ≠ [] ∧ y.head? ≠ some '@') :
    MSym E tb (.table q (.qname (ps'.snoc (.named nm .nil))) n0.one) ('?' :: code ++ x ++ d :: ch :: y) tb' := by
  obtain ⟨k, s, rfl, hk, hkn, he⟩ := table_special (E := E) h
  refine rule_special (k := k) (y := x ++ d :: ch :: y) (fun rest => ?_) (fun i hi => ?_) (fun n => ?_)
  · rw [← hk]; simp
  · have : (some (T.named nm .nil)) = some i := (last_snoc _ _).symm.trans hi
    cases this; rfl
  · rw [he]; exact table_for hkn hs hd hc hn hy n

theorem ident_qname {ps' i j : T} {f : T → T} (hf : ∀ n, (f n).nameOf = some n) (hi : (f (.qname (ps'.snoc i))).ident = some j) : i = j := by
  unfold T.ident at hi
  rw [hf] at hi
  exact Option.some.inj ((last_snoc ps' i).symm.trans hi)

theorem rule_untyped {ps' : T} {code nm : Text} (h : (code, nm) ∈ Spec.untypedCodes) (hs : MScopes E tb ps' x tb') :
    MSym E tb (.var none (.qname (ps'.snoc (.named nm .nil))) .nil) ('?' :: code ++ x ++ c!"8") tb' := by
  have : ∃ k s, code = '?' :: s ∧ (∀ rest, specialOf (code ++ rest) = some (k, rest)) ∧
      ∀ n, special_intrinsic (render E) (fns (render E) n) k = demangle_untyped_variable (render E) (fns (render E) n) nm := by
    simp only [Spec.untypedCodes, List.mem_cons, List.not_mem_nil, or_false, Prod.mk.injEq] at h
    rcases h with ⟨rfl, rfl⟩ | ⟨rfl, rfl⟩
    · exact ⟨.RttiBaseClassArray, _, rfl, fun _ => rfl, fun _ => rfl⟩
    · exact ⟨.RttiClassHierarchyDescriptor, _, rfl, fun _ => rfl, fun _ => rfl⟩
  obtain ⟨k, s, rfl, hk, he⟩ := this
  refine rule_special (k := k) (y := x ++ c!"8") (fun rest => ?_) (fun i hi => ?_) (fun n rest w ns ps ht => ?_)
  · rw [← hk]; simp
  · cases ident_qname (f := fun n => .var none n .nil) (fun _ => rfl) hi; rfl
  · rw [he]
    unfold demangle_untyped_variable
    rw [List.append_assoc]
    refine Sim.intern true ?_
    refine sim_chain hs (ht.mono (Vis.push _)) fun qn w2 ns2 ps2 hp2 ht2 H2 => ?_
    refine Sim.step (tryChar_cons _ _ _ _ _ _) ?_
    rw [if_pos rfl]
    have hid : Rep w2 (.named nm .nil) (.H w.length) := .handle (get_prefix hp2 (get_push _ _)) (.named (o := none) .nil)
    exact sim_seen ((List.prefix_append _ _).trans hp2) ht2 (.var (o := none) (qpost_seen H2 hid) .nil)

theorem u32_run {n : Nat} {rest : Text} {c : Cache} {ns ps : List Handle} (h : Spec.EncNat x n) (hn : n < 2 ^ 32) :
    exec demangle_rtti_base_class_descriptor_node.u32 (mk (x ++ rest) c ns ps) = .ok (n, mk rest c ns ps) := by
  unfold demangle_rtti_base_class_descriptor_node.u32
  simp only [run, unsigned_run h, hn, if_true]

theorem rule_baseDescr {ps' : T} {x1 x2 x3 x4 : Text} {nv vt fl : Nat} {vb : Int} (h1 : Spec.EncNat x1 nv) (h2 : Spec.EncSigned x2 vb) (h3 : Spec.EncNat x3 vt)
    (h4 : Spec.EncNat x4 fl) (b1 : nv < 2 ^ 32) (b2 : -(2 ^ 31) ≤ vb ∧ vb < 2 ^ 31) (b3 : vt < 2 ^ 32) (b4 : fl < 2 ^ 32) (hs : MScopes E tb ps' y tb') :
    MSym E tb (.var none (.qname (ps'.snoc (.baseDescr nv vb vt fl))) .nil) (c!"??_R1" ++ x1 ++ x2 ++ x3 ++ x4 ++ y ++ c!"8") tb' := by
  refine rule_special (k := .RttiBaseClassDescriptor) (y := x1 ++ x2 ++ x3 ++ x4 ++ y ++ c!"8") (fun rest => ?_) (fun i hi => ?_) (fun n rest w ns ps ht => ?_)
  · have : ∀ s, specialOf (c!"?_R1" ++ s) = some (.RttiBaseClassDescriptor, s) := fun _ => rfl
    rw [← this]; simp
  · cases ident_qname (f := fun n => .var none n .nil) (fun _ => rfl) hi; rfl
  · unfold special_intrinsic demangle_rtti_base_class_descriptor_node
    simp only [List.append_assoc]
    refine Sim.step (u32_run h1 b1) (Sim.step (signed_run h2) ?_)
    have : (vb < -(2 ^ 31) || 2 ^ 31 ≤ vb) = false := by simp; omega
    rw [if_neg (by simpa using this)]
    refine Sim.step (u32_run h3 b3) (Sim.step (u32_run h4 b4) ?_)
    refine Sim.intern true ?_
    refine sim_chain hs (ht.mono (Vis.push _)) fun qn w2 ns2 ps2 hp2 ht2 H2 => ?_
    refine Sim.step (expectChar_cons _ _ _ _ _ _ _) ?_
    have hid : Rep w2 (.baseDescr nv vb vt fl) (.H w.length) := .handle (get_prefix hp2 (get_push _ _)) .baseDescr
    exact sim_seen ((List.prefix_append _ _).trans hp2) ht2 (.var (o := none) (qpost_seen H2 hid) .nil)

theorem QPost.mono {w w1 w2 : World} {last : List Handle} {qn : Handle} (hv : Vis w1 w2) (H : QPost t last w w1 qn) : QPost t last w w2 qn := by
  obtain ⟨comps, hs, e1, e2, hr⟩ := H
  exact ⟨comps, hs, hv _ _ e1, hv _ _ e2, hr.mono hv⟩

theorem expectStr_hit {s rest : Text} {e : Error} {c : Cache} {ns ps : List Handle} :
    exec (expectStr s e) (mk (s ++ rest) c ns ps) = .ok ((), mk rest c ns ps) := by
  rw [expectStr_eq, tryStr_hit]; rfl

theorem rule_vcall {ps' : T} {n : Nat} (cc : Char) (hs : MScopes E tb ps' x tb') (hn : Spec.EncNat y n) :
    MSym E tb (.fn (.qname (ps'.snoc (.vcall n))) (.thunk { kind := { bare := true }, conv := Spec.convOf cc } .none .nil .nil))
      (c!"??_9" ++ x ++ c!"$B" ++ y ++ ['A', cc]) tb' := by
  refine rule_special (k := .VcallThunk) (y := x ++ c!"$B" ++ y ++ ['A', cc]) (fun rest => ?_) (fun i hi => ?_) (fun m rest w ns ps ht => ?_)
  · have : ∀ s, specialOf (c!"?_9" ++ s) = some (.VcallThunk, s) := fun _ => rfl
    rw [← this]; simp
  · cases ident_qname (f := fun n => .fn n _) (fun _ => rfl) hi; rfl
  · unfold special_intrinsic demangle_vcall_thunk_node
    simp only [List.append_assoc]
    refine Sim.intern false ?_
    refine sim_chain hs (ht.mono (Vis.push _)) fun qn w2 ns2 ps2 hp2 ht2 H2 => ?_
    refine Sim.step (expectStr_hit (s := c!"$B")) (Sim.step (unsigned_run hn) ?_)
    have e2 := get_prefix hp2 (get_push w (Node.VcallThunkIdentifier none 0, false))
    refine Sim.modify true e2 ?_
    have hv := Vis.set e2 (set_offset n (.VcallThunkIdentifier none 0), true)
    refine Sim.step (expectChar_cons _ _ _ _ _ _ _) ?_
    refine Sim.step (conv_run cc) ?_
    refine Sim.intern true ?_
    have hid : Rep (w2.set w.length (set_offset n (.VcallThunkIdentifier none 0), true)) (.vcall n) (.H w.length) := .handle (get_set e2 _) .vcall
    have hq := qpost_seen (H2.mono hv) hid
    refine sim_seen ?_ ((ht2.mono hv).mono (Vis.push _)) (.fn (Rep.mono (Vis.push _) hq) (.handle (get_push _ _) ?_))
    · exact prefix_push (prefix_set ((List.prefix_append _ _).trans hp2) (Nat.le_refl _) _) _
    · exact .thunk ⟨show KRel FuncClass.FC_NoParameterList { bare := true } by decide, QRel.none, rfl, rfl, rfl, rfl⟩ (show thunkText FuncClass.FC_NoParameterList {} = [] by decide) .nil .nil

theorem guard_special (th : Bool) : ∀ s, specialOf ((if th then c!"?__J" else c!"?_B") ++ s) = some (if th then .LocalStaticThreadGuard else .LocalStaticGuard, s) := by
  cases th <;> exact fun _ => rfl

theorem guard_run {ps' : T} {i n : Nat} {rest : Text} (th vis : Bool) (hs : MScopes E tb ps' x tb')
    (hi : (y ++ rest = [] ∧ i = 0) ∨ (y ≠ [] ∧ Spec.EncNat y i ∧ i < 2 ^ 32)) :
    RunsAt (special_intrinsic (render E) (fns (render E) n) (if th then .LocalStaticThreadGuard else .LocalStaticGuard))
      (x ++ ((if vis then c!"5" else c!"4IA") ++ y)) rest tb tb' (Seen (.same (.qname (ps'.snoc (.guardId th i))))) := by
  intro w ns ps ht
  have : special_intrinsic (render E) (fns (render E) n) (if th then .LocalStaticThreadGuard else .LocalStaticGuard) =
    demangle_local_static_guard (render E) (fns (render E) n) th := by cases th <;> rfl
  rw [this]
  unfold demangle_local_static_guard
  simp only [List.append_assoc]
  refine Sim.intern false ?_
  refine sim_chain hs (ht.mono (Vis.push _)) fun qn w2 ns2 ps2 hp2 ht2 H2 => ?_
  have e2 := get_prefix hp2 (get_push w (Node.LocalStaticGuardIdentifier none th 0, false))
  have key : Sim (do
      let e ← query MStr.is_empty
      whenB (!e) (do
        let i ← demangle_unsigned
        if i < 2 ^ 32 then modifyNode .LocalStaticGuardIdentifier w.length (set_scope_index i)
        else SM.err .InvalidLocalStaticGuard)
      intern (.LocalStaticGuardVariable qn vis)) (mk (y ++ rest) w2.c ns2 ps2)
      (Reach w tb' rest (Seen (.same (.qname (ps'.snoc (.guardId th i)))) w)) := by
    refine Sim.query ?_
    let w3 : World := w2.set w.length (.LocalStaticGuardIdentifier none th i, true)
    have hv : Vis w2 w3 := Vis.set e2 _
    have hid : Rep w3 (.guardId th i) (.H w.length) := .handle (get_set e2 _) .guardId
    have hq := qpost_seen (H2.mono hv) hid
    have hp3 : w <+: w3 := prefix_set ((List.prefix_append _ _).trans hp2) (Nat.le_refl _) _
    rcases hi with ⟨h0, rfl⟩ | ⟨h0, h1, h2⟩
    · rw [h0]
      have hr : rest = [] := by simpa using (List.append_eq_nil_iff.1 h0).2
      subst hr
      refine Sim.step rfl ?_
      rw [← World.c_mark e2 true]
      exact sim_seen hp3 (ht2.mono hv) (.gvar hq)
    · rw [mk_str, not_empty_append h0]
      refine Sim.bind (Q := fun _ s => s = mk rest w3.c ns2 ps2) ?_ ?_
      · show Sim (demangle_unsigned >>= _) _ _
        refine Sim.step (unsigned_run h1) ?_
        rw [if_pos h2]
        exact Sim.modify_end true e2 rfl
      · rintro ⟨⟩ s rfl
        exact sim_seen hp3 (ht2.mono hv) (.gvar hq)
  cases vis with
  | false =>
    refine Sim.step (tryStr_hit _ c!"4IA" _ _ _) ?_
    rw [if_pos rfl]
    refine Sim.step rfl ?_
    exact key
  | true =>
    refine Sim.step (a := false) (s' := mk (c!"5" ++ (y ++ rest)) w2.c ns2 ps2) (tryStr_miss _ _ _ _ _ rfl) ?_
    rw [if_neg (by simp)]
    refine Sim.step (tryChar_cons _ _ _ _ _ _) ?_
    rw [if_pos rfl]
    refine Sim.step rfl ?_
    exact key

theorem rule_guardVar {ps' : T} {n : Nat} (th vis : Bool) (hs : MScopes E tb ps' x tb') (hn : Spec.EncNat y n) (hb : n < 2 ^ 32) :
    MSym E tb (.same (.qname (ps'.snoc (.guardId th n)))) ((if th then c!"??__J" else c!"??_B") ++ x ++ (if vis then c!"5" else c!"4IA") ++ y) tb' := by
  have e : (if th then c!"??__J" else c!"??_B") ++ x ++ (if vis then c!"5" else c!"4IA") ++ y =
      '?' :: '?' :: ((if th then c!"__J" else c!"_B") ++ x ++ (if vis then c!"5" else c!"4IA") ++ y) := by cases th <;> rfl
  rw [e]
  refine rule_special (k := if th then .LocalStaticThreadGuard else .LocalStaticGuard) (y := x ++ ((if vis then c!"5" else c!"4IA") ++ y)) (fun rest => ?_) (fun i hi => ?_) (fun m rest => ?_)
  · rw [← guard_special]; cases th <;> simp
  · cases ident_qname (f := fun n => .same n) (fun _ => rfl) hi; rfl
  · exact guard_run th vis hs (.inr ⟨encNat_ne hn, hn, hb⟩)

/-- A symbol that must end with the input. -/
def MSymEnd (E : Env) (tb : Tbl) (t : T) (x : Text) (tb' : Tbl) : Prop :=
  ∀ n, RunsAt (fns (render E) n).parse x [] tb tb' (Seen t)

theorem rule_guardEnd {ps' : T} (th vis : Bool) (hs : MScopes E tb ps' x tb') :
    MSymEnd E tb (.same (.qname (ps'.snoc (.guardId th 0)))) ((if th then c!"??__J" else c!"??_B") ++ x ++ (if vis then c!"5" else c!"4IA")) tb' := by
  have e : (if th then c!"??__J" else c!"??_B") ++ x ++ (if vis then c!"5" else c!"4IA") =
      '?' :: '?' :: ((if th then c!"__J" else c!"_B") ++ x ++ (if vis then c!"5" else c!"4IA")) := by cases th <;> rfl
  rw [e]
  intro n
  refine runs_special (k := if th then .LocalStaticThreadGuard else .LocalStaticGuard) (y := x ++ ((if vis then c!"5" else c!"4IA") ++ [])) ?_ (fun m => ?_) n
  · rw [← guard_special]; cases th <;> simp
  · exact guard_run th vis hs (.inl ⟨rfl, rfl⟩)

theorem rule_typeinfo (h : MTyR E tb t x tb') : MSymEnd E tb (.typeDescr t) ('.' :: x) tb' := by
  intro n w ns ps ht
  cases n with
  | zero => exact Sim.crash (c := .fuel) rfl
  | succ n =>
    show Sim (do_parse (render E) (fns (render E) n)) _ _
    unfold do_parse
    refine Sim.query ?_
    rw [mk_str, show (MStr.new ('.' :: x ++ [])).starts_with c!"." = true from rfl, if_pos rfl]
    unfold demangle_typeinfo_name
    refine Sim.step (expectChar_cons _ _ _ _ _ _ _) ?_
    refine Runs.bind (h.run n) ht fun ty w1 ns1 ps1 hp1 ht1 H1 => ?_
    refine Sim.query ?_
    rw [mk_str, show (MStr.new []).is_empty = true from rfl, if_pos rfl]
    exact sim_seen hp1 ht1 (.typeDescr H1)

theorem rule_rttiType (h : MTyR E tb t x tb') :
    MSymEnd E tb (.var none (.qname (T.one (.named c!"`RTTI Type Descriptor'" .nil))) t.one) (c!"??_R0" ++ x ++ c!"@8") tb' := by
  intro n
  refine runs_special (k := .RttiTypeDescriptor) (x := c!"?_R0" ++ x ++ c!"@8") (y := x ++ c!"@8") ?_ (fun n w ns ps ht => ?_) n
  · have : ∀ s, specialOf (c!"?_R0" ++ s) = some (.RttiTypeDescriptor, s) := fun _ => rfl
    rw [← this]; simp
  · unfold special_intrinsic demangle_rtti_type_descriptor
    rw [List.append_assoc]
    refine Runs.bind (h.run n) ht fun ty w1 ns1 ps1 hp1 ht1 H1 => ?_
    refine Sim.step (expectStr_hit (s := c!"@8")) (Sim.query ?_)
    rw [mk_str, show (MStr.new []).is_empty = true from rfl, if_pos rfl]
    refine Sim.bind (Q := Reach w1 tb' [] (Seen (.qname (T.one (.named c!"`RTTI Type Descriptor'" .nil))) w1)) ?_ ?_
    · unfold synthesize_from_name synthesize_from_id
      refine Sim.intern true (Sim.intern true ?_)
      refine sim_seen ((List.prefix_append _ _).trans (List.prefix_append _ _)) ((ht1.mono (Vis.push _)).mono (Vis.push _)) ?_
      refine .qname (get_push _ _) (.cons (.handle (get_prefix (List.prefix_append _ _) (get_push _ _)) (.named (o := none) .nil)) .nil)
    · rintro nm s ⟨w2, ns2, ps2, rfl, hp2, ht2, H2⟩
      exact sim_seen (hp1.trans hp2) ht2 (.var (o := some ty) H2 (.cons (Rep.mono (Vis.prefix hp2) H1) .nil))

/-! ### Dynamic initializers -/

theorem dyn_special (d : Bool) : ∀ s, specialOf ((if d then c!"?__F" else c!"?__E") ++ s) = some (if d then .DynamicAtexitDestructor else .DynamicInitializer, s) := by
  cases d <;> exact fun _ => rfl

theorem dyn_intr (d : Bool) (r : Fns) : special_intrinsic (render E) r (if d then .DynamicAtexitDestructor else .DynamicInitializer) =
    demangle_init_fini_stub (render E) r d := by cases d <;> rfl

/-- The name of a stub. -/
theorem sim_synth {w : World} {rest : Text} {ns ps : List Handle} {id : Handle} {β : Type} {k : Handle → P β} {R : β → St → Prop} {i : T}
    (ht : Tab w tb ns ps) (hi : Rep w i (.H id))
    (hk : ∀ qn (w' : World), w <+: w' → Tab w' tb ns ps → Rep w' (.qname (T.one i)) (.H qn) → Sim (k qn) (mk rest w'.c ns ps) R) :
    Sim (synthesize_from_id id >>= k) (mk rest w.c ns ps) R := by
  refine Sim.bind (Q := fun qn s => ∃ w' : World, s = mk rest w'.c ns ps ∧ w <+: w' ∧ Tab w' tb ns ps ∧ Rep w' (.qname (T.one i)) (.H qn)) ?_ ?_
  · unfold synthesize_from_id
    refine Sim.intern true ?_
    have hp : w <+: (w ++ [(Node.NodeArray [id], true)]) ++ [(Node.QualifiedName w.length, true)] := by rw [List.append_assoc]; exact List.prefix_append _ _
    refine Sim.intern_end true ⟨_, rfl, hp, ht.mono (Vis.prefix hp), ?_⟩
    refine .handle (get_push _ _) (.qname (get_prefix (List.prefix_append _ _) (get_push _ _)) (.cons (hi.mono (Vis.prefix hp)) .nil))
  · rintro qn s ⟨w', rfl, hp, ht', H⟩
    exact hk qn w' hp ht' H

theorem dyn_known {s : Text} {c : Cache} {ns ps : List Handle} (known : Bool) (h : known = true ∨ (x.head? ≠ some '?' ∧ x ≠ [])) :
    exec (tryChar '?') (mk ((if known then c!"?" else []) ++ (x ++ s)) c ns ps) = .ok (known, mk (x ++ s) c ns ps) := by
  cases known with
  | true => exact tryChar_cons _ _ _ _ _ _
  | false =>
    obtain ⟨h1, h2⟩ := h.resolve_left (by simp)
    exact tryChar_head (head_append h2 h1 s)

theorem rule_dynVar {n0 ty sg : T} {sc : Option StorageClass} (d known : Bool) (h : MDecl E tb (.var sc n0 ty) x tb1) (hk : known = true ∨ x.head? ≠ some '?')
    (hf : MFenc E tb1 sg y tb') :
    MSym E tb (.fn (.qname (T.one (.dynVar d (.var sc n0 ty)))) sg)
      ((if d then c!"??__F" else c!"??__E") ++ (if known then c!"?" else []) ++ x ++ (if known then c!"@@" else c!"@") ++ y) tb' := by
  have e : (if d then c!"??__F" else c!"??__E") ++ (if known then c!"?" else []) ++ x ++ (if known then c!"@@" else c!"@") ++ y =
      '?' :: '?' :: ((if d then c!"__F" else c!"__E") ++ ((if known then c!"?" else []) ++ (x ++ ((if known then c!"@@" else c!"@") ++ y)))) := by cases d <;> simp
  rw [e]
  refine rule_special (k := if d then .DynamicAtexitDestructor else .DynamicInitializer) (y := (if known then c!"?" else []) ++ (x ++ ((if known then c!"@@" else c!"@") ++ y))) (fun rest => ?_) (fun i hi => ?_) (fun n rest w ns ps ht => ?_)
  · rw [← dyn_special]; cases d <;> simp
  · have : some (T.dynVar d (.var sc n0 ty)) = some i := hi
    cases this; rfl
  · rw [dyn_intr]
    unfold demangle_init_fini_stub
    simp only [List.append_assoc]
    refine Sim.step (dyn_known known (hk.imp_right fun h' => ⟨h', h.ne⟩)) ?_
    refine Runs.bind (h.run n) ht fun sy w1 ns1 ps1 hp1 ht1 H1 => ?_
    obtain ⟨w2, hc2, hp2, hv2, H2⟩ := H1.reveal hp1
    obtain ⟨nd, e1, hl1, hr1⟩ := H1
    have hn : nd.is .VariableSymbol = true := by cases hr1; rfl
    refine Sim.down e1 ?_
    rw [hn, if_pos rfl]
    dsimp only
    rw [← hc2]
    have step : Sim (if known = true then expectStr c!"@@" .InvalidInitFiniStub else expectChar '@' .InvalidInitFiniStub)
        (mk ((if known then c!"@@" else c!"@") ++ (y ++ rest)) w2.c ns1 ps1) (fun _ s => s = mk (y ++ rest) w2.c ns1 ps1) := by
      cases known with
      | true => exact Sim.ok (expectStr_hit (s := c!"@@")) rfl
      | false => exact Sim.ok (expectChar_cons _ _ _ _ _ _ _) rfl
    have tail : ∀ (w2 : World), w <+: w2 → Tab w2 tb1 ns1 ps1 → Rep w2 (.var sc n0 ty) (.H sy) → Sim (do
        let fsn ← demangle_function_encoding (fns (render E) n)
        let dsin ← intern (.DynamicStructorIdentifier none (.Variable sy) d)
        let name ← synthesize_from_id dsin
        modifyNode .FunctionSymbol fsn (Node.set_name name)
        pure fsn) (mk (y ++ rest) w2.c ns1 ps1) (Reach w tb' rest (Seen (.fn (.qname (T.one (.dynVar d (.var sc n0 ty)))) sg) w)) := by
      intro w2 hp2 ht2 H2
      refine Runs.bind (hf.run n) ht2 fun fsn w3 ns3 ps3 hp3 ht3 H3 => ?_
      obtain ⟨sg', e3, hl3, hr3⟩ := H3
      refine Sim.intern true ?_
      have hpush := prefix_push (List.prefix_refl w3) (Node.DynamicStructorIdentifier none (.Variable sy) d, true)
      refine sim_synth (i := .dynVar d (.var sc n0 ty)) (ht3.mono (Vis.push _)) ?_ fun qn w4 hp4 ht4 H4 => ?_
      · exact .handle (get_push _ _) (.dynVar ((H2.mono (Vis.prefix hp3)).mono (Vis.push _)))
      · have e4 := get_prefix (hpush.trans hp4) e3
        refine Sim.modify true e4 ?_
        have hv := Vis.set e4 (Node.set_name qn (.FunctionSymbol none sg'), true)
        refine Sim.done (prefix_set ((hp2.trans hp3).trans (hpush.trans hp4)) (Nat.le_trans hp2.length_le hl3) _) (ht4.mono hv) ?_
        exact .handle (get_set e4 _) (.fn (H4.mono hv) ((hr3.mono (Vis.prefix (hpush.trans hp4))).mono hv))
    cases known with
    | true =>
      refine Sim.step (expectStr_hit (s := c!"@@")) ?_
      exact tail w2 hp2 (ht1.mono hv2) H2
    | false =>
      refine Sim.step (expectChar_cons _ _ _ _ _ _ _) ?_
      exact tail w2 hp2 (ht1.mono hv2) H2

theorem rule_dynFn {n0 sg : T} (d : Bool) (h : MDecl E tb (.fn n0 sg) x tb') (hk : x.head? ≠ some '?') :
    MSym E tb (.fn (.qname (T.one (.dynFn d n0))) sg) ((if d then c!"??__F" else c!"??__E") ++ x) tb' := by
  have e : (if d then c!"??__F" else c!"??__E") ++ x = '?' :: '?' :: ((if d then c!"__F" else c!"__E") ++ x) := by cases d <;> rfl
  rw [e]
  refine rule_special (k := if d then .DynamicAtexitDestructor else .DynamicInitializer) (y := x) (fun rest => ?_) (fun i hi => ?_) (fun n rest w ns ps ht => ?_)
  · rw [← dyn_special]; cases d <;> simp
  · have : some (T.dynFn d n0) = some i := hi
    cases this; rfl
  · rw [dyn_intr]
    unfold demangle_init_fini_stub
    refine Sim.step (dyn_known false (.inr ⟨hk, h.ne⟩)) ?_
    refine Runs.bind (h.run n) ht fun sy w1 ns1 ps1 hp1 ht1 H1 => ?_
    obtain ⟨nd, e1, hl1, hr1⟩ := H1
    cases hr1 with
    | @fn _ _ hn hs h1 h2 =>
      refine Sim.down e1 ?_
      refine Sim.down e1 ?_
      refine Sim.res e1 ?_
      refine Sim.step rfl (Sim.intern true ?_)
      have hpush := prefix_push (List.prefix_refl w1) (Node.DynamicStructorIdentifier none (.Name hn) d, true)
      refine sim_synth (i := .dynFn d n0) (ht1.mono (Vis.push _)) ?_ fun qn w4 hp4 ht4 H4 => ?_
      · exact .handle (get_push _ _) (.dynFn (h1.mono (Vis.push _)))
      · have e4 := get_prefix (hpush.trans hp4) e1
        refine Sim.modify true e4 ?_
        have hv := Vis.set e4 (Node.set_name qn (.FunctionSymbol (some hn) hs), true)
        refine Sim.done (prefix_set (hp1.trans (hpush.trans hp4)) hl1 _) (ht4.mono hv) ?_
        exact .handle (get_set e4 _) (.fn (H4.mono hv) ((h2.mono (Vis.prefix (hpush.trans hp4))).mono hv))

end

end Undname
