/-
  Simulation: the less regular rules of the grammar. Texts that are read in one way only because of what
  does not follow, hashed names, codes without a name, literals as symbols.
-/
import Verif.Proof.SimSym
import Verif.Proof.Literals

namespace Undname
open Spec (CV FnKind Sig Adjust AdjKind Access T Tbl Ext Name Fits cvCodes memberCvCodes ptrCodes refCodes primCode tagCode hashed locator hashT
  localName Follow)

section
variable {E : Env} {tb tb' tb1 tb2 tb3 : Tbl} {t t' : T} {x y z u : Text}

/-! ### References with member qualifiers -/

theorem member_false_ref {code : Text} {cv : CV} {a : PointerAffinity} (hc : (code, cv, a) ∈ refCodes) (ha : a ≠ .Pointer) (s : Text) :
    MStr.is_member_pointer (MStr.new (code ++ s)) = .ok (some false) := by
  simp only [refCodes, List.mem_cons, List.not_mem_nil, or_false, Prod.mk.injEq] at hc
  rcases hc with ⟨rfl, rfl, rfl⟩ | ⟨rfl, rfl, rfl⟩ | ⟨rfl, rfl, rfl⟩ | ⟨rfl, rfl, rfl⟩ | ⟨rfl, rfl, rfl⟩ | ⟨rfl, rfl, rfl⟩ <;>
    first | exact (ha rfl).elim | exact probe_ref _ rfl

theorem rule_ptrRefMember {code : Text} {cv : CV} {a : PointerAffinity} {ch : Char} {q : CV} (e : Ext) (hc : (code, cv, a) ∈ refCodes)
    (ha : a ≠ .Pointer) (hq : (ch, q) ∈ memberCvCodes) (h : MTy E tb t x tb') :
    MTy E tb (.ptr (cv.or e.cv) a .nil (t.addQ q)) (code ++ e.code ++ ch :: x) tb' := by
  refine ⟨by rw [List.append_assoc]; exact head_ref hc _, fun n rest w ns ps ht => ?_⟩
  simp only [List.append_assoc, List.cons_append]
  refine Sim.of_eq (body_pointer hc (member_false_ref hc ha _)) ?_
  unfold demangle_pointer_type
  obtain ⟨q1, hq1, e1⟩ := pcv_run (t := e.code ++ ch :: (x ++ rest)) (c := w.c) (ns := ns) (ps := ps) hc
  obtain ⟨q2, hq2, e2⟩ := ext_run (c := w.c) (ns := ns) (ps := ps) e (noExt_of (cv_right hq) (x ++ rest))
  refine Sim.step e1 (Sim.step (tryChar_head (ext_head_ne (cv_ne (cv_right hq)).1 (by decide) (by decide) (by decide))) ?_)
  refine Sim.step e2 ?_
  refine Runs.bind (x := ch :: x) (mty_mangle h (cv_right hq) n) ht fun p w' ns' ps' hp ht' H => ?_
  obtain ⟨w'', hc', hp', hv, H'⟩ := H.hole hp
  rw [← hc']
  exact sim_ptr hp' (ht'.mono hv) (hq1.or hq2) .nil H'

/-! ### Names that begin with `?` -/

theorem odd_sw (hd : u.head? ≠ some '$') (s : Text) : (MStr.new ('?' :: (u ++ '@' :: s))).starts_with c!"?$" = false := by
  cases u with
  | nil => simp [run]
  | cons c u =>
    have : ('$' == c) = false := by rw [beq_eq_false_iff_ne]; rintro rfl; exact hd rfl
    simp [run, this]

theorem odd_simple (h : '@' ∉ u) : Runs (demangle_simple_name true) ('?' :: u ++ c!"@") tb (tb.note ('?' :: u)) (Seen (.named ('?' :: u) .nil)) :=
  (run_simple (by simp) (by simpa using h)).mark fun w w' a hp H => H.reveal hp

theorem odd_name (h : '@' ∉ u) (hd : u.head? ≠ some '$') (n : Nat) :
    Runs (demangle_unqualified_type_name (fns (render E) n) true) ('?' :: u ++ c!"@") tb (tb.note ('?' :: u)) (Seen (.named ('?' :: u) .nil)) := by
  intro rest w ns ps ht
  have := odd_simple h rest w ns ps ht
  unfold demangle_unqualified_type_name
  rw [List.append_assoc] at this ⊢
  simp only [List.cons_append, List.nil_append] at this ⊢
  refine Sim.step (firstIs_cons _ _ _ _ _ _) ?_
  rw [show isDigit '?' = false from rfl]
  refine Sim.query ?_
  rw [mk_str, odd_sw hd]
  exact this

theorem rule_customOdd (h : '@' ∉ u) (hd : u.head? ≠ some '$') :
    MTy E tb (.custom (.named ('?' :: u) .nil)) (c!"??" ++ u ++ c!"@@") (tb.note ('?' :: u)) := by
  have := custom_run (E := E) (odd_name (tb := tb) h hd)
  simpa using this

theorem rule_qtnOdd {ps' : T} (h : '@' ∉ u) (hd : u.head? ≠ some '$') (hs : MScopes E (tb.note ('?' :: u)) ps' y tb') :
    MQtn E tb (.qname (ps'.snoc (.named ('?' :: u) .nil))) ('?' :: u ++ '@' :: y) tb' := by
  have := qtn_run (E := E) (odd_name (tb := tb) h hd) hs
  simpa using this

theorem isDigit_of {c : Char} (hd : isDigit c = true) : ∃ d, d < 10 ∧ c = Char.ofNat ('0'.toNat + d) := by
  unfold isDigit at hd
  simp only [Bool.and_eq_true, decide_eq_true_eq] at hd
  have h0 : '0'.toNat = 48 := rfl
  have h9 : '9'.toNat = 57 := rfl
  refine ⟨c.toNat - 48, by omega, ?_⟩
  have : '0'.toNat + (c.toNat - 48) = c.toNat := by omega
  rw [this, Char.ofNat_toNat]

/-- A text is taken for a local scope only if it begins with a number and `?`. -/
theorem pattern_inv (s : Text) : ∃ b, MStr.starts_with_local_scope_pattern (MStr.new ('?' :: s)) = .ok b ∧
    (b = true → ∃ z n v, Spec.EncScope z n ∧ s = z ++ '?' :: v) := by
  have e1 : MStr.try_consume_char '?' (MStr.new ('?' :: s)) = .ok (some '?', MStr.new s) := char_cons '?' '?' _
  unfold MStr.starts_with_local_scope_pattern
  rw [e1]
  dsimp only
  cases hf : (MStr.new s).find_char '?' with
  | none => exact ⟨false, rfl, by simp⟩
  | some stop =>
    obtain ⟨z, v, rfl, hz, rfl⟩ := findChar_split hf
    dsimp only
    rw [slice_len]
    dsimp only
    cases z with
    | nil => exact ⟨false, rfl, by simp⟩
    | cons c z =>
      have l1 : (MStr.new (c :: z)).is_empty = false := rfl
      rw [l1, if_neg (by simp)]
      cases z with
      | nil =>
        refine ⟨c == '@' || isDigit c, rfl, fun h => ?_⟩
        by_cases hc : c = '@'
        · subst hc; exact ⟨_, _, v, .zero, rfl⟩
        · have hd : isDigit c = true := by simpa [hc] using h
          obtain ⟨d, hlt, rfl⟩ := isDigit_of hd
          exact ⟨_, d + 1, v, .digit d hlt, rfl⟩
      | cons d z =>
        have l2 : ((MStr.new (c :: d :: z)).len_chars == 1) = false := by simp [MStr.new, MStr.len_chars]
        rw [l2, if_neg (by simp)]
        obtain ⟨u, a, hu⟩ : ∃ u a, c :: d :: z = u ++ [a] := ⟨_, _, (List.dropLast_concat_getLast (l := c :: d :: z) (by simp)).symm⟩
        have l3 : (MStr.new (c :: d :: z)).last_char = some a := by
          show (c :: d :: z).getLast? = _
          rw [hu]; simp
        rw [l3]
        by_cases ha : a = '@'
        · subst ha
          have l4 : (MStr.new (c :: d :: z)).len_bytes - 1 = utf8Len u := by
            show utf8Len (c :: d :: z) - 1 = _
            rw [hu, Emit.utf8Len_append]
            show utf8Len u + 1 - 1 = _
            omega
          rw [l4, hu, slice_len]
          cases u with
          | nil => simp at hu
          | cons c' u =>
            obtain ⟨rfl, hu'⟩ := List.cons.inj hu
            have e3 := char_if_cons c u (fun x => decide ('B'.toNat ≤ x.toNat) && decide (x.toNat ≤ 'P'.toNat))
            simp only [exec] at e3
            simp only [e3]
            by_cases hb : (decide ('B'.toNat ≤ c.toNat) && decide (c.toNat ≤ 'P'.toNat)) = true
            · simp only [hb, if_true]
              refine ⟨_, rfl, fun h => ?_⟩
              have h65 : 'A'.toNat = 65 := rfl
              have h66 : 'B'.toNat = 66 := rfl
              simp only [Bool.and_eq_true, decide_eq_true_eq] at hb
              refine ⟨c :: u ++ c!"@", _, v, .hex c u ((isHex_iff c).1 ?_) ?_ ?_, by rw [← hu]⟩
              · unfold is_rebased_ascii_hexdigit
                simp only [Bool.and_eq_true, decide_eq_true_eq]
                exact ⟨by omega, hb.2⟩
              · rintro rfl; omega
              · have h : u.all is_rebased_ascii_hexdigit = true := h
                rw [List.all_eq_true] at h
                exact fun x hx => (isHex_iff x).1 (h x hx)
            · simp only [hb]
              exact ⟨false, rfl, by simp⟩
        · refine ⟨false, ?_, by simp⟩
          split
          · next h => exact (ha (Option.some.inj h)).elim
          · rfl

/-- A name that begins with `?` as an enclosing scope. -/
theorem odd_piece (h : '@' ∉ u) (hd : u.head? ≠ some '$') (hA : u.head? ≠ some 'A') (rest : Text)
    (hp : ∀ z n v, Spec.EncScope z n → u ++ '@' :: rest ≠ z ++ '?' :: v) (n : Nat) :
    RunsAt (demangle_name_scope_piece (render E) (fns (render E) n)) ('?' :: u ++ c!"@") rest tb (tb.note ('?' :: u)) (Seen (.named ('?' :: u) .nil)) := by
  intro w ns ps ht
  have := odd_simple h rest w ns ps ht
  unfold demangle_name_scope_piece
  rw [List.append_assoc] at this ⊢
  simp only [List.cons_append, List.nil_append] at this ⊢
  refine Sim.step (firstIs_cons _ _ _ _ _ _) ?_
  rw [show isDigit '?' = false from rfl]
  refine Sim.query ?_
  rw [mk_str, odd_sw hd]
  refine Sim.query ?_
  have hA' : (MStr.new ('?' :: (u ++ '@' :: rest))).starts_with c!"?A" = false := by
    cases u with
    | nil => simp [run]
    | cons c u =>
      have : ('A' == c) = false := by rw [beq_eq_false_iff_ne]; rintro rfl; exact hA rfl
      simp [run, this]
  rw [mk_str, hA']
  obtain ⟨b, e, hb⟩ := pattern_inv (u ++ '@' :: rest)
  have hbf : b = false := by
    cases b with
    | false => rfl
    | true => obtain ⟨z, n, v, hz, e⟩ := hb rfl; exact (hp z n v hz e).elim
  subst hbf
  have e' : exec (queryE MStr.starts_with_local_scope_pattern) (mk ('?' :: (u ++ '@' :: rest)) w.c ns ps) =
      .ok (false, mk ('?' :: (u ++ '@' :: rest)) w.c ns ps) := by
    rw [queryE_mk, e]; rfl
  refine Sim.step e' ?_
  exact this

theorem scope_at {z : Text} {n : Nat} (h : Spec.EncScope z n) : '@' ∉ z.dropLast := by
  cases h with
  | digit d h => simp
  | zero => simp
  | hex c ds hc h0 h =>
    rw [List.dropLast_concat]
    intro hm
    rcases List.mem_cons.1 hm with e | hm
    · exact (hex_not_digit hc).2.1 e.symm
    · exact (hex_not_digit (h _ hm)).2.1 rfl

theorem odd_far {rest : Text} (hy : y ≠ []) (hp : ∀ z n v, Spec.EncScope z n → u ++ '@' :: y ≠ z ++ '?' :: v) (z : Text) (n : Nat) (v : Text)
    (hz : Spec.EncScope z n) : u ++ '@' :: (y ++ rest) ≠ z ++ '?' :: v := by
  intro e
  have hl : z.length ≤ u.length + 1 := by
    rcases Nat.lt_or_ge (u.length + 1) z.length with h | h
    · exfalso
      have hm := scope_at hz
      have h1 : u ++ '@' :: (y ++ rest) = (u ++ ['@']) ++ (y ++ rest) := by simp
      have h2 : z ++ '?' :: v = z.dropLast ++ (z.drop (z.length - 1) ++ '?' :: v) := by
        rw [← List.append_assoc, List.dropLast_eq_take, List.take_append_drop]
      rw [h1, h2] at e
      have : u ++ ['@'] <+: z.dropLast := by
        refine List.prefix_of_prefix_length_le (l₃ := z.dropLast ++ (z.drop (z.length - 1) ++ '?' :: v)) ?_ (List.prefix_append _ _) (by simp; omega)
        rw [← e]; exact List.prefix_append _ _
      exact hm (this.subset (by simp))
    · exact h
  have h1 : u ++ '@' :: (y ++ rest) = (u ++ '@' :: y) ++ rest := by simp
  have h2 : z ++ '?' :: v = (z ++ ['?']) ++ v := by simp
  rw [h1, h2] at e
  have : z ++ ['?'] <+: u ++ '@' :: y := by
    refine List.prefix_of_prefix_length_le (l₃ := (u ++ '@' :: y) ++ rest) ?_ (List.prefix_append _ _) ?_
    · rw [e]; exact List.prefix_append _ _
    · have : 0 < y.length := List.length_pos_iff.2 hy
      simp; omega
  obtain ⟨v', hv'⟩ := this
  exact hp z n v' hz (by rw [← hv']; simp)

theorem rule_scOdd {ps' : T} (h : '@' ∉ u) (hd : u.head? ≠ some '$') (hA : u.head? ≠ some 'A') (hy : y ≠ [])
    (hp : ∀ z n v, Spec.EncScope z n → u ++ '@' :: y ≠ z ++ '?' :: v) (hs : MScopes E (tb.note ('?' :: u)) ps' y tb') :
    MScopes E tb (ps'.snoc (.named ('?' :: u) .nil)) ('?' :: u ++ '@' :: y) tb' := by
  have := scopes_cons (E := E) (x := '?' :: u ++ c!"@") (y := y) (tb := tb) (by simp) (by simp)
    (fun n rest => odd_piece h hd hA (y ++ rest) (odd_far hy hp) n) hs
  simpa using this

/-! ### Codes without a name -/

def trNone (c : Char) (g : CodeGroup) : Bool :=
  match translate_intrinsic_function_code c g with
  | .ok none => true
  | _ => false

theorem trNone_eq {c : Char} {g : CodeGroup} (h : trNone c g = true) : translate_intrinsic_function_code c g = .ok none := by
  unfold trNone at h
  split at h
  · assumption
  · cases h

theorem fid_none (g : CodeGroup) (c : Char) (hu : u = (match g with | .Basic => [c] | .Under => ['_', c] | .DoubleUnder => ['_', '_', c]))
    (hc : c ≠ '$' ∧ c ≠ '_')
    (hg : (g == .Basic && (c == '0' || c == '1')) = false ∧ (g == .Basic && c == 'B') = false ∧ (g == .DoubleUnder && c == 'K') = false ∧
      trNone c g = true) : MFid E tb (.op none .nil) ('?' :: u) tb := by
  subst hu
  obtain ⟨h1, h2, h3, h4⟩ := hg
  replace h4 := trNone_eq h4
  have h5 : ('$' == c) = false := by simpa using Ne.symm hc.1
  have h6 : ('_' == c) = false := by simpa using Ne.symm hc.2
  have h7 : (c == '_') = false := by simpa using hc.2
  refine fid_intern (nd := .IntrinsicFunctionIdentifier none none) rfl ?_ (fun w => .op .nil) ?_
  · intro rest; cases g <;> simp [run, h5]
  · intro rest ca ns ps
    cases g <;> simp [demangle_function_identifier_code, demangle_function_identifier_code_group, run, h4, h6, h7] <;> simp_all

theorem rule_fOpNone {c : Char} (h : c ∈ Spec.underNone) : MFid E tb (.op none .nil) ['?', '_', c] tb := by
  have key : ∀ c ∈ Spec.underNone, (c ≠ '$' ∧ c ≠ '_') ∧ ((CodeGroup.Under == .Basic && (c == '0' || c == '1')) = false ∧ (CodeGroup.Under == .Basic && c == 'B') = false ∧
    (CodeGroup.Under == .DoubleUnder && c == 'K') = false ∧ trNone c .Under = true) := by
    decide
  obtain ⟨a, e⟩ := key _ h
  exact fid_none .Under c rfl a e

theorem rule_fOpNone2 {c : Char} (h : c ∈ Spec.dunderNone) : MFid E tb (.op none .nil) ['?', '_', '_', c] tb := by
  have key : ∀ c ∈ Spec.dunderNone, (c ≠ '$' ∧ c ≠ '_') ∧ ((CodeGroup.DoubleUnder == .Basic && (c == '0' || c == '1')) = false ∧ (CodeGroup.DoubleUnder == .Basic && c == 'B') = false ∧
    (CodeGroup.DoubleUnder == .DoubleUnder && c == 'K') = false ∧ trNone c .DoubleUnder = true) := by
    decide
  obtain ⟨a, e⟩ := key _ h
  exact fid_none .DoubleUnder c rfl a e

/-! ### Hashed names -/

theorem md5_eq (X Y : Text) (hX : '@' ∉ X) (c : Cache) (ns ps : List Handle) {rend : Renderer} (m : Nat) {suf Z : Text}
    (h : (Y = locator ++ Z ∧ suf = locator) ∨ (¬ locator <+: Y ∧ suf = [] ∧ Z = Y)) :
    exec (do_parse rend (fns rend m)) (mk (hashed X ++ Y) c ns ps) =
      exec (do
        let name ← synthesize_from_name (hashed X ++ suf)
        intern (.Md5Symbol name)) (mk Z c ns ps) := by
  have e1 : splitAtBytes (utf8Len X + 1) (X ++ '@' :: Y) = some (X ++ ['@'], Y) := by
    have := splitAtBytes_len (X ++ ['@']) Y
    rw [Emit.utf8Len_append, show utf8Len ['@'] = 1 from rfl] at this
    simpa using this
  have hhead : exec (do_parse rend (fns rend m)) (mk (c!"??@" ++ X ++ c!"@" ++ Y) c ns ps) =
      andThen (exec (tryStr c!"??_R4@") (mk Y c ns ps)) fun x =>
        exec (match splitAtBytes ((if x.1 then utf8Len X + 3 + 6 else utf8Len X + 3) + 1)
            (c!"??@" ++ X ++ c!"@" ++ Y) with
          | none => SM.crash .panic
          | some (md5, _) => do
            let name ← synthesize_from_name md5
            intern (.Md5Symbol name)) x.2 := by
    simp [do_parse, run, demangle_md5_name, MStr.find_char, findChar_at Y hX]
    rw [tryBytes_hit _ _ _ _ e1 (by simp)]
    simp [run]
    rfl
  unfold hashed
  rw [hhead]
  rcases h with ⟨rfl, rfl⟩ | ⟨hY, rfl, rfl⟩
  · unfold locator
    rw [tryStr_hit, andThen_ok]
    have := splitAtBytes_len (c!"??@" ++ X ++ c!"@" ++ c!"??_R4@") Z
    have hl : utf8Len (c!"??@" ++ X ++ c!"@" ++ c!"??_R4@") = utf8Len X + 3 + 6 + 1 := by
      simp only [Emit.utf8Len_append]
      have : utf8Len c!"??@" = 3 ∧ utf8Len c!"@" = 1 ∧ utf8Len c!"??_R4@" = 6 := by decide
      omega
    rw [hl] at this
    simp only [List.append_assoc] at this ⊢
    simp only [if_true, this]
  · unfold locator at hY
    rw [tryStr_miss _ _ _ _ _ (by
      rw [Bool.eq_false_iff]; intro h; exact hY (List.isPrefixOf_iff_prefix.1 h)), andThen_ok]
    have := splitAtBytes_len (c!"??@" ++ X ++ c!"@") Z
    have hl : utf8Len (c!"??@" ++ X ++ c!"@") = utf8Len X + 3 + 1 := by
      simp only [Emit.utf8Len_append]
      have : utf8Len c!"??@" = 3 ∧ utf8Len c!"@" = 1 := by decide
      omega
    rw [hl] at this
    simp only [List.append_assoc] at this ⊢
    simp only [Bool.false_eq_true, if_false, this, List.append_nil]

theorem md5_run (X : Text) (hX : '@' ∉ X) {Y suf Z : Text} (h : (Y = locator ++ Z ∧ suf = locator) ∨ (¬ locator <+: Y ∧ suf = [] ∧ Z = Y))
    (n : Nat) {w : World} {ns ps : List Handle} (ht : Tab w tb ns ps) :
    Sim ((fns (render E) n).parse) (mk (hashed X ++ Y) w.c ns ps) (Reach w tb Z (Seen (hashT (hashed X ++ suf)) w)) := by
  cases n with
  | zero => exact Sim.crash (c := .fuel) rfl
  | succ n =>
    refine Sim.of_eq (md5_eq X Y hX w.c ns ps n h) ?_
    refine Sim.of_eq (m' := intern (.NamedIdentifier none (hashed X ++ suf)) >>= fun id => synthesize_from_id id >>= fun name => intern (.Md5Symbol name))
      (s' := mk Z w.c ns ps) ?_ ?_
    · unfold synthesize_from_name
      simp only [run_bind_eq]
      cases exec (intern (.NamedIdentifier none (hashed X ++ suf))) (mk Z w.c ns ps) <;> rfl
    refine Sim.intern true ?_
    have hp : w <+: w ++ [(Node.NamedIdentifier none (hashed X ++ suf), true)] := List.prefix_append _ _
    refine sim_synth (ht.mono (Vis.prefix hp)) (.handle (get_push _ _) (.named (o := none) .nil)) fun qn w' hp' ht' H => ?_
    exact sim_seen (hp.trans hp') ht' (.md5 H)

theorem hash_run (hX : '@' ∉ u) {rest : Text} (h : ¬ locator <+: rest) (n : Nat) :
    RunsAt (fns (render E) n).parse (hashed u) rest tb tb (Seen (hashT (hashed u))) := fun w ns ps ht => by
  have := md5_run (E := E) u hX (Y := rest) (suf := []) (Z := rest) (.inr ⟨h, rfl, rfl⟩) n ht
  simpa using this

theorem rule_hashLocator (h : '@' ∉ u) : MSym E tb (hashT (hashed u ++ locator)) (hashed u ++ locator) tb := by
  refine ⟨⟨_, rfl⟩, ?_, fun n rest w ns ps ht => ?_⟩
  · intro i hi
    obtain rfl : T.named (hashed u ++ locator) .nil = i := Option.some.inj hi
    rfl
  · rw [List.append_assoc]
    exact md5_run u h (.inl ⟨rfl, rfl⟩) n ht

/-- The marker does not reach beyond a text with `@`. -/
theorem locator_far {rest : Text} (hy : '@' ∈ y) (h : ¬ locator <+: y) : ¬ locator <+: y ++ rest := by
  intro hp
  rcases Nat.lt_or_ge y.length locator.length with hl | hl
  · have hy' : y <+: locator := List.prefix_of_prefix_length_le (List.prefix_append _ _) hp (Nat.le_of_lt hl)
    have : y <+: c!"??_R4" := List.prefix_of_prefix_length_le hy' (show c!"??_R4" <+: locator by decide) (by
      have : locator.length = 6 := rfl
      have : (c!"??_R4").length = 5 := rfl
      omega)
    exact absurd (this.subset hy) (by decide)
  · exact h (List.prefix_of_prefix_length_le hp (List.prefix_append _ _) hl)

theorem rule_scLocalHash {ps' : T} {n : Nat} (hz : Spec.EncScope z n) (hu : '@' ∉ u) (hy : '@' ∈ y) (hl : ¬ locator <+: y)
    (hf : Fits (localName E (hashT (hashed u)) n)) (hs : MScopes E tb ps' y tb') :
    MScopes E tb (ps'.snoc (.named (localName E (hashT (hashed u)) n) .nil)) ('?' :: z ++ '?' :: hashed u ++ y) tb' :=
  scopes_cons (by simp) (by simp) (fun m rest => scLocal_run hz (fun k => hash_run hu (locator_far hy hl) k) hf m) hs

/-! ### Template arguments that depend on what follows -/

structure MTargN (E : Env) (auto : Bool) (f : Follow) (tb : Tbl) (t : T) (x : Text) (tb' : Tbl) : Prop where
  head : auto = false → ArgHead x
  run : ∀ n rest, f.ok rest → RunsAt (template_argument (render E) (fns (render E) n) auto) x rest tb tb' (Seen t)

theorem follow_far {f : Follow} {rest : Text} (hy : '@' ∈ y) (h : f.ok y) : f.ok (y ++ rest) := by
  cases f with
  | noQ =>
    cases y with
    | nil => cases hy
    | cons c y => exact h
  | noLocator => exact locator_far hy h

theorem rule_taConsN {f : Follow} {a as : T} (h : MTargN E false f tb a x tb1) (hy : '@' ∈ y) (hf : f.ok y) (hs : MTargs E tb1 as y tb') :
    MTargs E tb (.cons a as) (x ++ y) tb' :=
  targs_cons (h.head rfl) (fun n rest => h.run n _ (follow_far hy hf)) hs

theorem rule_taAutoN {f : Follow} {a as : T} (ht0 : MTy E tb t x tb1) (h : MTargN E true f tb1 a y tb2) (hz : '@' ∈ z) (hf : f.ok z)
    (hs : MTargs E tb2 as z tb') : MTargs E tb (.cons a as) (c!"$M" ++ x ++ y ++ z) tb' :=
  targs_auto ht0 (fun n rest => h.run n _ (follow_far hz hf)) hs

theorem rule_nNull {m : Bool} : MTargN E m .noQ tb (.addr true .nil []) ((if m then [] else c!"$") ++ c!"1") tb := by
  refine ⟨fun hm => mp_head (by simp) hm, fun n rest hf w ns ps ht => ?_⟩
  rw [List.append_assoc, List.cons_append]
  refine Sim.of_eq (mp_dispatch (by simp)) ?_
  unfold template_member_pointer
  refine Sim.query ?_
  have : (MStr.new ([] ++ rest)).starts_with c!"?" = false := by
    cases rest with
    | nil => rfl
    | cons c y =>
      have : ('?' == c) = false := by
        rw [beq_eq_false_iff_ne]; rintro rfl; exact hf rfl
      simp [run, this]
  simp only [mk_str, this, Bool.false_eq_true, if_false]
  refine Sim.step (s' := mk ([] ++ rest) w.c ns ps) rfl ?_
  refine Sim.step (a := []) (s' := mk rest w.c ns ps) rfl ?_
  exact sim_seen (List.prefix_refl _) ht (.addr (o := none) (aff := some .Pointer) .nil)

theorem hash_ident (u : Text) : (hashT (hashed u)).ident = some (.named (hashed u) .nil) := rfl

theorem rule_nHash {m : Bool} (h : '@' ∉ u) (hf : Fits ((T.named (hashed u) .nil).text E)) :
    MTargN E m .noLocator tb (.addr true (hashT (hashed u)).one []) ((if m then [] else c!"$") ++ '1' :: hashed u)
      (tb.note ((T.named (hashed u) .nil).text E)) := by
  refine ⟨fun hm => mp_head (by simp) hm, fun n rest hl w ns ps ht => ?_⟩
  rw [List.append_assoc, List.cons_append]
  refine Sim.of_eq (mp_dispatch (by simp)) ?_
  have := sim_mpSome (E := E) (n := n) (ch := '1') (offs := []) (y := []) (rest := rest) (by simp) ⟨_, rfl⟩ rfl (hash_run h hl n) (hash_ident u) hf .nil w ns ps ht
  rwa [List.append_nil] at this

theorem rule_nHashRef {m : Bool} (h : '@' ∉ u) :
    MTargN E m .noLocator tb (.addr false (hashT (hashed u)).one []) (c!"$E" ++ hashed u) tb :=
  ⟨fun _ => argHead_code rfl, fun n _ hl => aRef_run ⟨_, rfl⟩ (hash_run h hl n)⟩

theorem encInts_locator {offs : List Int} (h : Spec.EncInts x offs) (h0 : offs ≠ []) (rest : Text) : ¬ locator <+: x ++ rest := by
  cases h with
  | nil => exact (h0 rfl).elim
  | @cons x y i is hx _ =>
    rw [List.append_assoc]
    have key : ∀ {x : Text} {n : Nat}, Spec.EncNat x n → ∃ c u, x = c :: u ∧ c ≠ '?' := by
      intro x n h
      cases h with
      | digit d h => have : ∀ d, d < 10 → Char.ofNat ('0'.toNat + d) ≠ '?' := by decide
                     exact ⟨_, _, rfl, this d h⟩
      | hex ds hd =>
        cases ds with
        | nil => exact ⟨_, _, rfl, by decide⟩
        | cons c ds => exact ⟨c, _, rfl, (hex_not_digit (hd c (by simp))).2.2⟩
    intro hp
    cases hx with
    | mk h hn => cases h with
      | pos h =>
        obtain ⟨c, u, rfl, hc⟩ := key h
        exact hc (List.cons_prefix_cons.1 hp).1.symm
      | neg h =>
        obtain ⟨c, u, rfl, hc⟩ := key h
        exact hc (List.cons_prefix_cons.1 (List.cons_prefix_cons.1 hp).2).1.symm

theorem rule_aHash {m : Bool} {ch : Char} {offs : List Int} (hc : (ch, offs.length) ∈ [('H', 1), ('I', 2), ('J', 3)]) (h : '@' ∉ u)
    (hf : Fits ((T.named (hashed u) .nil).text E)) (ho : Spec.EncInts x offs) :
    MTarg E m tb (.addr true (hashT (hashed u)).one offs) ((if m then [] else c!"$") ++ ch :: hashed u ++ x)
      (tb.note ((T.named (hashed u) .nil).text E)) := by
  have h1 : ch ∈ ['1', 'H', 'I', 'J', 'F', 'G'] ∧ ch ∈ ['1', 'H', 'I', 'J'] ∧ offs ≠ [] := by
    simp only [List.mem_cons, List.not_mem_nil, or_false, Prod.mk.injEq] at hc
    rcases hc with ⟨rfl, e⟩ | ⟨rfl, e⟩ | ⟨rfl, e⟩ <;> exact ⟨by simp, by simp, by rintro rfl; simp at e⟩
  refine ⟨fun hm => ?_, fun n rest w ns ps ht => ?_⟩
  · rw [List.append_assoc]; exact mp_head h1.1 hm
  · simp only [List.append_assoc, List.cons_append]
    refine Sim.of_eq (mp_dispatch h1.2.1) ?_
    have := sim_mpSome (E := E) (n := n) (rest := rest) (List.mem_cons_of_mem _ hc) ⟨_, rfl⟩ rfl
      (hash_run h (encInts_locator ho h1.2.2 rest) n) (hash_ident u) hf ho w ns ps ht
    rwa [List.append_assoc] at this

theorem rule_aTypeAuto (h : MTy E tb t x tb') (hx : ∀ c ∈ x.head?, c ∉ c!"HIJFG") : MTarg E true tb t x tb' := by
  refine ⟨nofun, fun n => ?_⟩
  refine Runs.mark (Q := TyHole t) ?_ fun w w' a hp H => H.reveal hp
  intro rest w ns ps ht
  refine Sim.of_eq ?_ (mty_drop h n rest w ns ps ht)
  obtain ⟨c, y, rfl, h1, h2, h3, h5⟩ := tyHead_cons h.head
  unfold template_argument
  by_cases hc : c = '$'
  · obtain ⟨d, z, rfl, h6⟩ := h5 hc
    subst hc
    rcases h6 with rfl | rfl | rfl <;> simp [run, trySpecifier, tryTable]
  · have : ('$' == c) = false := by simpa using Ne.symm hc
    have hx := hx c rfl
    have hd : ('0' == c) = false ∧ ('1' == c) = false ∧ ('H' == c) = false ∧ ('I' == c) = false ∧ ('J' == c) = false ∧ ('F' == c) = false ∧ ('G' == c) = false := by
      simp only [beq_eq_false_iff_ne]
      refine ⟨?_, ?_, ?_, ?_, ?_, ?_, ?_⟩ <;> rintro rfl <;> first | (exact hx (by decide)) | (revert h1 h2 h3; decide)
    obtain ⟨d0, d1, d2, d3, d4, d5, d6⟩ := hd
    simp [run, trySpecifier, tryTable, this, d0, d1, d2, d3, d4, d5, d6]

/-! ### Variables with the name of a constructor or destructor -/

theorem rule_varStructorGen {ps' cls ta : T} {d : Bool} {st : Char} {sc : StorageClass} (h : MSname E tb (.structor d .nil ta) x tb1)
    (hs : MScopes E tb1 (ps'.snoc cls) y tb2) (hc : cls.isPlain = true) (hst : (st, sc) ∈ Spec.storageCodes) (hv : MVty E tb2 t z tb') :
    MDecl E tb (.var (some sc) (.qname ((ps'.snoc cls).snoc (.structor d cls.one ta))) t.one) (x ++ y ++ st :: z) tb' := by
  refine ⟨by simp [h.ne], rfl, ⟨_, last_snoc _ _, rfl⟩, fun n => ?_⟩
  exact decl_var (fqs_structor h hs hc) (last_snoc _ _) rfl rfl hst hv n

theorem rule_varStructor {ps' cls ta : T} {d : Bool} {st ch : Char} {q : CV} {sc : StorageClass} (h : MSname E tb (.structor d .nil ta) x tb1)
    (hs : MScopes E tb1 (ps'.snoc cls) y tb2) (hc : cls.isPlain = true) (hst : (st, sc) ∈ Spec.storageCodes)
    (ht : MTy E tb2 t z tb') (hn : t.isPtr = false) (hq : (ch, q) ∈ cvCodes ++ memberCvCodes) :
    MDecl E tb (.var (some sc) (.qname ((ps'.snoc cls).snoc (.structor d cls.one ta))) (t.setQ q).one) (x ++ y ++ st :: z ++ [ch]) tb' := by
  have := rule_varStructorGen h hs hc hst (vty_plain ht hn hq)
  simpa only [List.append_assoc, List.cons_append] using this

theorem rule_varStructorPtr {ps' cls ta to : T} {d : Bool} {st ch : Char} {q cv : CV} {a : PointerAffinity} {sc : StorageClass} (e : Ext)
    (h : MSname E tb (.structor d .nil ta) x tb1)
    (hs : MScopes E tb1 (ps'.snoc cls) y tb2) (hc : cls.isPlain = true) (hst : (st, sc) ∈ Spec.storageCodes)
    (ht : MTy E tb2 (.ptr cv a .nil to) z tb') (hq : (ch, q) ∈ cvCodes ++ memberCvCodes) :
    MDecl E tb (.var (some sc) (.qname ((ps'.snoc cls).snoc (.structor d cls.one ta))) (T.one (.ptr (cv.or e.cv) a .nil (to.addQ q))))
      (x ++ y ++ st :: z ++ e.code ++ [ch]) tb' := by
  have := rule_varStructorGen h hs hc hst (vty_ptr e ht hq)
  simpa only [List.append_assoc, List.cons_append] using this

theorem rule_varStructorMemberPtr {ps' cls ta to c n0 : T} {d : Bool} {st ch : Char} {q cv : CV} {a : PointerAffinity} {sc : StorageClass} (e : Ext)
    (h : MSname E tb (.structor d .nil ta) x tb1)
    (hs : MScopes E tb1 (ps'.snoc cls) y tb2) (hc : cls.isPlain = true) (hst : (st, sc) ∈ Spec.storageCodes)
    (ht : MTy E tb2 (.ptr cv a (T.one c) to) z tb3) (hq : (ch, q) ∈ cvCodes ++ memberCvCodes) (hn : MQtn E tb3 n0 u tb') :
    MDecl E tb (.var (some sc) (.qname ((ps'.snoc cls).snoc (.structor d cls.one ta))) (T.one (.ptr (cv.or e.cv) a (T.one c) (to.addQ q))))
      (x ++ y ++ st :: z ++ e.code ++ ch :: u) tb' := by
  have := rule_varStructorGen h hs hc hst (vty_member e ht hq hn)
  simpa only [List.append_assoc, List.cons_append] using this

/-! ### Literals -/

theorem rule_narrow {xn crc : Text} {n : Nat} {bytes : List Nat} (hn : Spec.EncNat xn n) (h0 : n ≠ 0) (hcrc : '@' ∉ crc) (hu : Spec.EncBytes u bytes)
    (hb : bytes.length ≤ 128) :
    MSym E tb (.str (Spec.charKind (Spec.charWidth n bytes)) ((Spec.narrowShown n bytes).flatMap Spec.escape) (decide (bytes.length < n)))
      (c!"??_C@_0" ++ xn ++ crc ++ c!"@" ++ u ++ c!"@") tb := by
  refine ⟨⟨_, rfl⟩, nofun, fun m rest w ns ps ht => ?_⟩
  refine runs_special (k := .StringLiteralSymbol) (x := c!"?_C@_0" ++ xn ++ crc ++ c!"@" ++ u ++ c!"@") (y := c!"@_0" ++ xn ++ crc ++ c!"@" ++ u ++ c!"@") (rest := rest)
    rfl (fun m w ns ps ht => ?_) m w ns ps ht
  obtain ⟨k, hk, e⟩ := narrow_eq (rest := rest) (c := w.c) (ns := ns) (ps := ps) hn h0 hcrc hu hb
  have hkk : k = Spec.charKind (Spec.charWidth n bytes) := by
    rcases charWidth_cases n bytes with h | h | h <;> rw [h] at hk ⊢ <;> cases hk <;> rfl
  subst hkk
  exact Sim.of_eq e (sim_seen (List.prefix_refl _) ht .str)

theorem rule_wide {xn crc : Text} {n : Nat} {vs : List Nat} (hn : Spec.EncNat xn n) (h0 : 2 ≤ n) (hcrc : '@' ∉ crc) (hu : Spec.EncWide u vs)
    (hf : Fits ((Spec.wideShown n vs).flatMap Spec.escape)) :
    MSym E tb (.str .Wchar ((Spec.wideShown n vs).flatMap Spec.escape) (decide (64 < n))) (c!"??_C@_1" ++ xn ++ crc ++ c!"@" ++ u ++ c!"@") tb := by
  refine ⟨⟨_, rfl⟩, nofun, fun m rest w ns ps ht => ?_⟩
  refine runs_special (k := .StringLiteralSymbol) (x := c!"?_C@_1" ++ xn ++ crc ++ c!"@" ++ u ++ c!"@") (y := c!"@_1" ++ xn ++ crc ++ c!"@" ++ u ++ c!"@") (rest := rest)
    rfl (fun m w ns ps ht => ?_) m w ns ps ht
  have e := wide_run (rest := rest) (c := w.c) (ns := ns) (ps := ps) hn h0 hcrc hu
  rw [wideKept_shown n h0] at e
  unfold grow at e
  rw [List.nil_append, if_pos (show _ < OUTPUT_LIMIT from hf), andThen_ok] at e
  exact Sim.of_eq e (sim_seen (List.prefix_refl _) ht .str)

end
end Undname
