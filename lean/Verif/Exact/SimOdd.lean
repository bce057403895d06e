/-
  Simulation: the less regular rules of the grammar. Texts that are read in one way only because of what
  does not follow, hashed names, codes without a name, literals as symbols.
-/
import Verif.Exact.SimSym

namespace Undname.Ex
open Spec (CV FnKind Sig Adjust AdjKind Access T Tbl Ext Name Fits cvCodes memberCvCodes ptrCodes refCodes primCode tagCode hashed locator hashT
  localName Follow)

section
variable {E : Env} {tb tb' tb1 tb2 tb3 : Tbl} {t t' : T} {x y z u : Text} {k1 k2 k3 k4 : Nat} {N : Nat}

/-! ### References with member qualifiers -/

theorem rule_ptrRefMember {code : Text} {cv : CV} {a : PointerAffinity} {ch : Char} {q : CV} (e : Ext) (hc : (code, cv, a) ∈ refCodes)
    (ha : a ≠ .Pointer) (hq : (ch, q) ∈ memberCvCodes) (h : MTy E tb t x tb' k1) :
    MTy E tb (.ptr (cv.or e.cv) a .nil (t.addQ q)) (code ++ e.code ++ ch :: x) tb' (k1 + 1) := by
  refine ⟨by rw [List.append_assoc]; exact head_ref hc _, fun n rest w ns ps ht => ?_⟩
  simp only [List.append_assoc, List.cons_append]
  refine Sim.of_eq (body_pointer hc (member_false_ref hc ha _)) ?_
  unfold demangle_pointer_type
  obtain ⟨q1, hq1, e1⟩ := pcv_run (t := e.code ++ ch :: (x ++ rest)) (c := w.c) (ns := ns) (ps := ps) hc
  obtain ⟨q2, hq2, e2⟩ := ext_run (c := w.c) (ns := ns) (ps := ps) e (noExt_of (cv_right hq) (x ++ rest))
  refine Sim.step e1 (Sim.step (tryChar_head (ext_head_ne (cv_ne (cv_right hq)).1 (by decide) (by decide) (by decide))) ?_)
  refine Sim.step e2 ?_
  refine Runs.bind (x := ch :: x) (mty_mangle h (cv_right hq) n) ht fun p w' ns' ps' hp ht' H => ?_
  intro hx1
  obtain ⟨w'', hc', hp', hv, H'⟩ := H.hole hp
  rw [← hc']
  exact sim_ptr hp' (ht'.mono hv) (hq1.or hq2) .nil H'

/-! ### Names that begin with `?` -/

theorem odd_simple (h : '@' ∉ u) : Runs (demangle_simple_name true) ('?' :: u ++ c!"@") tb (tb.note ('?' :: u)) (Seen (.named ('?' :: u) .nil)) (tb.noteCost ('?' :: u) + 1) :=
  (run_simple (by simp) (by simpa using h)).mark fun w w' a hp H => H.reveal hp

theorem odd_name (h : '@' ∉ u) (hd : u.head? ≠ some '$') (n : Nat) :
    Runs (demangle_unqualified_type_name (fns (render E) n) true) ('?' :: u ++ c!"@") tb (tb.note ('?' :: u)) (Seen (.named ('?' :: u) .nil)) (tb.noteCost ('?' :: u) + 1) := by
  intro rest w ns ps ht
  have := odd_simple h rest w ns ps ht
  unfold demangle_unqualified_type_name
  rw [List.append_assoc] at this ⊢
  simp only [List.cons_append, List.nil_append] at this ⊢
  refine Sim.step (firstIs_cons _ _ _ _ _ _) ?_
  rw [show isDigit '?' = false from rfl]
  refine Sim.query ?_
  rw [mk_str, odd_sw hd]
  exact this

theorem rule_customOdd (h : '@' ∉ u) (hd : u.head? ≠ some '$') :
    MTy E tb (.custom (.named ('?' :: u) .nil)) (c!"??" ++ u ++ c!"@@") (tb.note ('?' :: u)) (tb.noteCost ('?' :: u) + 1 + 1) := by
  have := custom_run (E := E) (odd_name (tb := tb) h hd)
  simpa using this

theorem rule_qtnOdd {ps' : T} (h : '@' ∉ u) (hd : u.head? ≠ some '$') (hs : MScopes E (tb.note ('?' :: u)) ps' y tb' k1) :
    MQtn E tb (.qname (ps'.snoc (.named ('?' :: u) .nil))) ('?' :: u ++ '@' :: y) tb' (tb.noteCost ('?' :: u) + 1 + k1) := by
  have := qtn_run (E := E) (odd_name (tb := tb) h hd) hs
  simpa using this

/-- A name that begins with `?` as an enclosing scope. -/
theorem odd_piece (h : '@' ∉ u) (hd : u.head? ≠ some '$') (hA : u.head? ≠ some 'A') (rest : Text)
    (hp : ∀ z n v, Spec.EncScope z n → u ++ '@' :: rest ≠ z ++ '?' :: v) (n : Nat) :
    RunsAt (demangle_name_scope_piece (render E) (fns (render E) n)) ('?' :: u ++ c!"@") rest tb (tb.note ('?' :: u)) (Seen (.named ('?' :: u) .nil)) (tb.noteCost ('?' :: u) + 1) := by
  intro w ns ps ht
  have := odd_simple h rest w ns ps ht
  unfold demangle_name_scope_piece
  rw [List.append_assoc] at this ⊢
  simp only [List.cons_append, List.nil_append] at this ⊢
  refine Sim.step (firstIs_cons _ _ _ _ _ _) ?_
  rw [show isDigit '?' = false from rfl]
  refine Sim.query ?_
  rw [mk_str, odd_sw hd]
  refine Sim.query ?_
  have hA' : (MStr.new ('?' :: (u ++ '@' :: rest))).starts_with c!"?A" = false := by
    cases u with
    | nil => simp [run]
    | cons c u =>
      have : ('A' == c) = false := by rw [beq_eq_false_iff_ne]; rintro rfl; exact hA rfl
      simp [run, this]
  rw [mk_str, hA']
  obtain ⟨b, e, hb⟩ := pattern_inv (u ++ '@' :: rest)
  have hbf : b = false := by
    cases b with
    | false => rfl
    | true => obtain ⟨z, n, v, hz, e⟩ := hb rfl; exact (hp z n v hz e).elim
  subst hbf
  have e' : exec (queryE MStr.starts_with_local_scope_pattern) (mk ('?' :: (u ++ '@' :: rest)) w.c ns ps) =
      .ok (false, mk ('?' :: (u ++ '@' :: rest)) w.c ns ps) := by
    rw [queryE_mk, e]; rfl
  refine Sim.step e' ?_
  exact this

theorem rule_scOdd {ps' : T} (h : '@' ∉ u) (hd : u.head? ≠ some '$') (hA : u.head? ≠ some 'A') (hy : y ≠ [])
    (hp : ∀ z n v, Spec.EncScope z n → u ++ '@' :: y ≠ z ++ '?' :: v) (hs : MScopes E (tb.note ('?' :: u)) ps' y tb' k1) :
    MScopes E tb (ps'.snoc (.named ('?' :: u) .nil)) ('?' :: u ++ '@' :: y) tb' (tb.noteCost ('?' :: u) + 1 + k1) := by
  have := scopes_cons (E := E) (x := '?' :: u ++ c!"@") (y := y) (tb := tb) (by simp) (by simp)
    (fun n rest => odd_piece h hd hA (y ++ rest) (odd_far hy hp) n) hs
  simpa using this

/-! ### Codes without a name -/

theorem fid_none (g : CodeGroup) (c : Char) (hu : u = (match g with | .Basic => [c] | .Under => ['_', c] | .DoubleUnder => ['_', '_', c]))
    (hc : c ≠ '$' ∧ c ≠ '_')
    (hg : (g == .Basic && (c == '0' || c == '1')) = false ∧ (g == .Basic && c == 'B') = false ∧ (g == .DoubleUnder && c == 'K') = false ∧
      trNone c g = true) : MFid E tb (.op none .nil) ('?' :: u) tb 1 := by
  subst hu
  obtain ⟨h1, h2, h3, h4⟩ := hg
  replace h4 := trNone_eq h4
  have h5 : ('$' == c) = false := by simpa using Ne.symm hc.1
  have h6 : ('_' == c) = false := by simpa using Ne.symm hc.2
  have h7 : (c == '_') = false := by simpa using hc.2
  refine fid_intern (nd := .IntrinsicFunctionIdentifier none none) rfl ?_ (fun w => .op .nil) ?_
  · intro rest; cases g <;> simp [run, h5]
  · intro rest ca ns ps
    cases g <;> simp [demangle_function_identifier_code, demangle_function_identifier_code_group, run, h4, h6, h7] <;> simp_all

theorem rule_fOpNone {c : Char} (h : c ∈ Spec.underNone) : MFid E tb (.op none .nil) ['?', '_', c] tb 1 := by
  have key : ∀ c ∈ Spec.underNone, (c ≠ '$' ∧ c ≠ '_') ∧ ((CodeGroup.Under == .Basic && (c == '0' || c == '1')) = false ∧ (CodeGroup.Under == .Basic && c == 'B') = false ∧
    (CodeGroup.Under == .DoubleUnder && c == 'K') = false ∧ trNone c .Under = true) := by
    decide
  obtain ⟨a, e⟩ := key _ h
  exact fid_none .Under c rfl a e

theorem rule_fOpNone2 {c : Char} (h : c ∈ Spec.dunderNone) : MFid E tb (.op none .nil) ['?', '_', '_', c] tb 1 := by
  have key : ∀ c ∈ Spec.dunderNone, (c ≠ '$' ∧ c ≠ '_') ∧ ((CodeGroup.DoubleUnder == .Basic && (c == '0' || c == '1')) = false ∧ (CodeGroup.DoubleUnder == .Basic && c == 'B') = false ∧
    (CodeGroup.DoubleUnder == .DoubleUnder && c == 'K') = false ∧ trNone c .DoubleUnder = true) := by
    decide
  obtain ⟨a, e⟩ := key _ h
  exact fid_none .DoubleUnder c rfl a e

/-! ### Hashed names -/

theorem md5_run (X : Text) (hX : '@' ∉ X) {Y suf Z : Text} (h : (Y = locator ++ Z ∧ suf = locator) ∨ (¬ locator <+: Y ∧ suf = [] ∧ Z = Y))
    (n : Nat) {w : World} {ns ps : List Handle} (ht : Tab w tb ns ps) :
    Sim (w.length + 4) ((fns (render E) n).parse) (mk (hashed X ++ Y) w.c ns ps) (Reach w tb Z 4 (Seen (hashT (hashed X ++ suf)) w)) := by
  cases n with
  | zero => exact Sim.crash (c := .fuel) rfl
  | succ n =>
    refine Sim.of_eq (md5_eq X Y hX w.c ns ps n h) ?_
    refine Sim.of_eq (m' := intern (.NamedIdentifier none (hashed X ++ suf)) >>= fun id => synthesize_from_id id >>= fun name => intern (.Md5Symbol name))
      (s' := mk Z w.c ns ps) ?_ ?_
    · unfold synthesize_from_name
      simp only [run_bind_eq]
      cases exec (intern (.NamedIdentifier none (hashed X ++ suf))) (mk Z w.c ns ps) <;> rfl
    refine Sim.intern true ?_
    have hp : w <+: w ++ [(Node.NamedIdentifier none (hashed X ++ suf), true)] := List.prefix_append _ _
    refine sim_synth (ht.mono (Vis.prefix hp)) (.handle (get_push _ _) (.named (o := none) .nil)) fun qn w' hp' ht' H => ?_
    exact sim_seen (hp.trans hp') ht' (.md5 H)

theorem hash_run (hX : '@' ∉ u) {rest : Text} (h : ¬ locator <+: rest) (n : Nat) :
    RunsAt (fns (render E) n).parse (hashed u) rest tb tb (Seen (hashT (hashed u))) 4 := fun w ns ps ht => by
  have := md5_run (E := E) u hX (Y := rest) (suf := []) (Z := rest) (.inr ⟨h, rfl, rfl⟩) n ht
  simpa using this

theorem rule_hashLocator (h : '@' ∉ u) : MSym E tb (hashT (hashed u ++ locator)) (hashed u ++ locator) tb 4 := by
  refine ⟨⟨_, rfl⟩, ?_, fun n rest w ns ps ht => ?_⟩
  · intro i hi
    obtain rfl : T.named (hashed u ++ locator) .nil = i := Option.some.inj hi
    rfl
  · rw [List.append_assoc]
    exact md5_run u h (.inl ⟨rfl, rfl⟩) n ht

theorem rule_scLocalHash {ps' : T} {n : Nat} (hz : Spec.EncScope z n) (hu : '@' ∉ u) (hy : '@' ∈ y) (hl : ¬ locator <+: y)
    (hf : Fits (localName E (hashT (hashed u)) n)) (hs : MScopes E tb ps' y tb' k1) :
    MScopes E tb (ps'.snoc (.named (localName E (hashT (hashed u)) n) .nil)) ('?' :: z ++ '?' :: hashed u ++ y) tb' (4 + 1 + k1) :=
  scopes_cons (by simp) (by simp) (fun m rest => scLocal_run hz (fun k => hash_run hu (locator_far hy hl) k) hf m) hs

/-! ### Template arguments that depend on what follows -/

structure MTargN (E : Env) (auto : Bool) (f : Follow) (tb : Tbl) (t : T) (x : Text) (tb' : Tbl) (cnt : Nat) : Prop where
  head : auto = false → ArgHead x
  run : ∀ n rest, f.ok rest → RunsAt (template_argument (render E) (fns (render E) n) auto) x rest tb tb' (Seen t) cnt

theorem rule_taConsN {f : Follow} {a as : T} (h : MTargN E false f tb a x tb1 k1) (hy : '@' ∈ y) (hf : f.ok y) (hs : MTargs E tb1 as y tb' k2) :
    MTargs E tb (.cons a as) (x ++ y) tb' (k1 + k2) :=
  targs_cons (h.head rfl) (fun n rest => h.run n _ (follow_far hy hf)) hs

theorem rule_taAutoN {f : Follow} {a as : T} (ht0 : MTy E tb t x tb1 k1) (h : MTargN E true f tb1 a y tb2 k2) (hz : '@' ∈ z) (hf : f.ok z)
    (hs : MTargs E tb2 as z tb' k3) : MTargs E tb (.cons a as) (c!"$M" ++ x ++ y ++ z) tb' (k1 + k2 + k3) :=
  targs_auto ht0 (fun n rest => h.run n _ (follow_far hz hf)) hs

theorem rule_nNull {m : Bool} : MTargN E m .noQ tb (.addr true .nil []) ((if m then [] else c!"$") ++ c!"1") tb 1 := by
  refine ⟨fun hm => mp_head (by simp) hm, fun n rest hf w ns ps ht => ?_⟩
  rw [List.append_assoc, List.cons_append]
  refine Sim.of_eq (mp_dispatch (by simp)) ?_
  unfold template_member_pointer
  refine Sim.query ?_
  have : (MStr.new ([] ++ rest)).starts_with c!"?" = false := by
    cases rest with
    | nil => rfl
    | cons c y =>
      have : ('?' == c) = false := by
        rw [beq_eq_false_iff_ne]; rintro rfl; exact hf rfl
      simp [run, this]
  simp only [mk_str, this, Bool.false_eq_true, if_false]
  refine Sim.step (s' := mk ([] ++ rest) w.c ns ps) rfl ?_
  refine Sim.step (a := []) (s' := mk rest w.c ns ps) rfl ?_
  exact sim_seen (List.prefix_refl _) ht (.addr (o := none) (aff := some .Pointer) .nil)

theorem rule_nHash {m : Bool} (h : '@' ∉ u) (hf : Fits ((T.named (hashed u) .nil).text E)) :
    MTargN E m .noLocator tb (.addr true (hashT (hashed u)).one []) ((if m then [] else c!"$") ++ '1' :: hashed u)
      (tb.note ((T.named (hashed u) .nil).text E)) (4 + tb.noteCost ((T.named (hashed u) .nil).text E) + 1) := by
  refine ⟨fun hm => mp_head (by simp) hm, fun n rest hl w ns ps ht => ?_⟩
  rw [List.append_assoc, List.cons_append]
  refine Sim.of_eq (mp_dispatch (by simp)) ?_
  have := sim_mpSome (E := E) (n := n) (ch := '1') (offs := []) (y := []) (rest := rest) (by simp) ⟨_, rfl⟩ rfl (hash_run h hl n) (hash_ident u) hf .nil w ns ps ht
  rwa [List.append_nil] at this

theorem rule_nHashRef {m : Bool} (h : '@' ∉ u) :
    MTargN E m .noLocator tb (.addr false (hashT (hashed u)).one []) (c!"$E" ++ hashed u) tb (4 + 1) :=
  ⟨fun _ => argHead_code rfl, fun n _ hl => aRef_run ⟨_, rfl⟩ (hash_run h hl n)⟩

theorem rule_aHash {m : Bool} {ch : Char} {offs : List Int} (hc : (ch, offs.length) ∈ [('H', 1), ('I', 2), ('J', 3)]) (h : '@' ∉ u)
    (hf : Fits ((T.named (hashed u) .nil).text E)) (ho : Spec.EncInts x offs) :
    MTarg E m tb (.addr true (hashT (hashed u)).one offs) ((if m then [] else c!"$") ++ ch :: hashed u ++ x)
      (tb.note ((T.named (hashed u) .nil).text E)) (4 + tb.noteCost ((T.named (hashed u) .nil).text E) + 1) := by
  have h1 : ch ∈ ['1', 'H', 'I', 'J', 'F', 'G'] ∧ ch ∈ ['1', 'H', 'I', 'J'] ∧ offs ≠ [] := by
    simp only [List.mem_cons, List.not_mem_nil, or_false, Prod.mk.injEq] at hc
    rcases hc with ⟨rfl, e⟩ | ⟨rfl, e⟩ | ⟨rfl, e⟩ <;> exact ⟨by simp, by simp, by rintro rfl; simp at e⟩
  refine ⟨fun hm => ?_, fun n rest w ns ps ht => ?_⟩
  · rw [List.append_assoc]; exact mp_head h1.1 hm
  · simp only [List.append_assoc, List.cons_append]
    refine Sim.of_eq (mp_dispatch h1.2.1) ?_
    have := sim_mpSome (E := E) (n := n) (rest := rest) (List.mem_cons_of_mem _ hc) ⟨_, rfl⟩ rfl
      (hash_run h (encInts_locator ho h1.2.2 rest) n) (hash_ident u) hf ho w ns ps ht
    rwa [List.append_assoc] at this

theorem rule_aTypeAuto (h : MTy E tb t x tb' k1) (hx : ∀ c ∈ x.head?, c ∉ c!"HIJFG") : MTarg E true tb t x tb' k1 := by
  refine ⟨nofun, fun n => ?_⟩
  refine Runs.mark (Q := TyHole t) ?_ fun w w' a hp H => H.reveal hp
  intro rest w ns ps ht
  refine Sim.of_eq ?_ (mty_drop h n rest w ns ps ht)
  obtain ⟨c, y, rfl, h1, h2, h3, h5⟩ := tyHead_cons h.head
  unfold template_argument
  by_cases hc : c = '$'
  · obtain ⟨d, z, rfl, h6⟩ := h5 hc
    subst hc
    rcases h6 with rfl | rfl | rfl <;> simp [run, trySpecifier, tryTable]
  · have : ('$' == c) = false := by simpa using Ne.symm hc
    have hx := hx c rfl
    have hd : ('0' == c) = false ∧ ('1' == c) = false ∧ ('H' == c) = false ∧ ('I' == c) = false ∧ ('J' == c) = false ∧ ('F' == c) = false ∧ ('G' == c) = false := by
      simp only [beq_eq_false_iff_ne]
      refine ⟨?_, ?_, ?_, ?_, ?_, ?_, ?_⟩ <;> rintro rfl <;> first | (exact hx (by decide)) | (revert h1 h2 h3; decide)
    obtain ⟨d0, d1, d2, d3, d4, d5, d6⟩ := hd
    simp [run, trySpecifier, tryTable, this, d0, d1, d2, d3, d4, d5, d6]

/-! ### Variables with the name of a constructor or destructor -/

theorem rule_varStructorGen {ps' cls ta : T} {d : Bool} {st : Char} {sc : StorageClass} (h : MSname E tb (.structor d .nil ta) x tb1 k1)
    (hs : MScopes E tb1 (ps'.snoc cls) y tb2 k2) (hc : cls.isPlain = true) (hst : (st, sc) ∈ Spec.storageCodes) (hv : MVty E tb2 t z tb' k3) :
    MDecl E tb (.var (some sc) (.qname ((ps'.snoc cls).snoc (.structor d cls.one ta))) t.one) (x ++ y ++ st :: z) tb' (k1 + k2 + k3) := by
  refine ⟨by simp [h.ne], rfl, ⟨_, last_snoc _ _, rfl⟩, fun n => ?_⟩
  exact decl_var (fqs_structor h hs hc) (last_snoc _ _) rfl rfl hst hv n

theorem rule_varStructor {ps' cls ta : T} {d : Bool} {st ch : Char} {q : CV} {sc : StorageClass} (h : MSname E tb (.structor d .nil ta) x tb1 k1)
    (hs : MScopes E tb1 (ps'.snoc cls) y tb2 k2) (hc : cls.isPlain = true) (hst : (st, sc) ∈ Spec.storageCodes)
    (ht : MTy E tb2 t z tb' k3) (hn : t.isPtr = false) (hq : (ch, q) ∈ cvCodes ++ memberCvCodes) :
    MDecl E tb (.var (some sc) (.qname ((ps'.snoc cls).snoc (.structor d cls.one ta))) (t.setQ q).one) (x ++ y ++ st :: z ++ [ch]) tb' (k1 + k2 + (k3 + 1)) := by
  have := rule_varStructorGen h hs hc hst (vty_plain ht hn hq)
  simpa only [List.append_assoc, List.cons_append] using this

theorem rule_varStructorPtr {ps' cls ta to : T} {d : Bool} {st ch : Char} {q cv : CV} {a : PointerAffinity} {sc : StorageClass} (e : Ext)
    (h : MSname E tb (.structor d .nil ta) x tb1 k1)
    (hs : MScopes E tb1 (ps'.snoc cls) y tb2 k2) (hc : cls.isPlain = true) (hst : (st, sc) ∈ Spec.storageCodes)
    (ht : MTy E tb2 (.ptr cv a .nil to) z tb' k3) (hq : (ch, q) ∈ cvCodes ++ memberCvCodes) :
    MDecl E tb (.var (some sc) (.qname ((ps'.snoc cls).snoc (.structor d cls.one ta))) (T.one (.ptr (cv.or e.cv) a .nil (to.addQ q))))
      (x ++ y ++ st :: z ++ e.code ++ [ch]) tb' (k1 + k2 + (k3 + 1)) := by
  have := rule_varStructorGen h hs hc hst (vty_ptr e ht hq)
  simpa only [List.append_assoc, List.cons_append] using this

theorem rule_varStructorMemberPtr {ps' cls ta to c n0 : T} {d : Bool} {st ch : Char} {q cv : CV} {a : PointerAffinity} {sc : StorageClass} (e : Ext)
    (h : MSname E tb (.structor d .nil ta) x tb1 k1)
    (hs : MScopes E tb1 (ps'.snoc cls) y tb2 k2) (hc : cls.isPlain = true) (hst : (st, sc) ∈ Spec.storageCodes)
    (ht : MTy E tb2 (.ptr cv a (T.one c) to) z tb3 k3) (hq : (ch, q) ∈ cvCodes ++ memberCvCodes) (hn : MQtn E tb3 n0 u tb' k4) :
    MDecl E tb (.var (some sc) (.qname ((ps'.snoc cls).snoc (.structor d cls.one ta))) (T.one (.ptr (cv.or e.cv) a (T.one c) (to.addQ q))))
      (x ++ y ++ st :: z ++ e.code ++ ch :: u) tb' (k1 + k2 + (k3 + k4 + 1)) := by
  have := rule_varStructorGen h hs hc hst (vty_member e ht hq hn)
  simpa only [List.append_assoc, List.cons_append] using this

/-! ### Literals -/

theorem rule_narrow {xn crc : Text} {n : Nat} {bytes : List Nat} (hn : Spec.EncNat xn n) (h0 : n ≠ 0) (hcrc : '@' ∉ crc) (hu : Spec.EncBytes u bytes)
    (hb : bytes.length ≤ 128) :
    MSym E tb (.str (Spec.charKind (Spec.charWidth n bytes)) ((Spec.narrowShown n bytes).flatMap Spec.escape) (decide (bytes.length < n)))
      (c!"??_C@_0" ++ xn ++ crc ++ c!"@" ++ u ++ c!"@") tb 1 := by
  refine ⟨⟨_, rfl⟩, nofun, fun m rest w ns ps ht => ?_⟩
  refine runs_special (k := .StringLiteralSymbol) (x := c!"?_C@_0" ++ xn ++ crc ++ c!"@" ++ u ++ c!"@") (y := c!"@_0" ++ xn ++ crc ++ c!"@" ++ u ++ c!"@") (rest := rest)
    rfl (fun m w ns ps ht => ?_) m w ns ps ht
  obtain ⟨k, hk, e⟩ := narrow_eq (rest := rest) (c := w.c) (ns := ns) (ps := ps) hn h0 hcrc hu hb
  have hkk : k = Spec.charKind (Spec.charWidth n bytes) := by
    rcases charWidth_cases n bytes with h | h | h <;> rw [h] at hk ⊢ <;> cases hk <;> rfl
  subst hkk
  exact Sim.of_eq e (sim_seen (List.prefix_refl _) ht .str)

theorem rule_wide {xn crc : Text} {n : Nat} {vs : List Nat} (hn : Spec.EncNat xn n) (h0 : 2 ≤ n) (hcrc : '@' ∉ crc) (hu : Spec.EncWide u vs)
    (hf : Fits ((Spec.wideShown n vs).flatMap Spec.escape)) :
    MSym E tb (.str .Wchar ((Spec.wideShown n vs).flatMap Spec.escape) (decide (64 < n))) (c!"??_C@_1" ++ xn ++ crc ++ c!"@" ++ u ++ c!"@") tb 1 := by
  refine ⟨⟨_, rfl⟩, nofun, fun m rest w ns ps ht => ?_⟩
  refine runs_special (k := .StringLiteralSymbol) (x := c!"?_C@_1" ++ xn ++ crc ++ c!"@" ++ u ++ c!"@") (y := c!"@_1" ++ xn ++ crc ++ c!"@" ++ u ++ c!"@") (rest := rest)
    rfl (fun m w ns ps ht => ?_) m w ns ps ht
  have e := wide_run (rest := rest) (c := w.c) (ns := ns) (ps := ps) hn h0 hcrc hu
  rw [wideKept_shown n h0] at e
  unfold grow at e
  rw [List.nil_append, if_pos (show _ < OUTPUT_LIMIT from hf), andThen_ok] at e
  exact Sim.of_eq e (sim_seen (List.prefix_refl _) ht .str)

end
end Undname.Ex
