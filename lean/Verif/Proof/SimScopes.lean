/-
  Simulation: scopes and qualified names.
-/
import Verif.Proof.SimTmpl

namespace Undname
open Spec (CV FnKind Sig Adjust Access T Tbl Ext Name Fits cvCodes memberCvCodes ptrCodes refCodes primCode tagCode)

section
variable {E : Env} {tb tb' tb1 tb2 : Tbl} {t t' : T} {x y z : Text}

structure MPiece (E : Env) (tb : Tbl) (t : T) (x : Text) (tb' : Tbl) : Prop where
  head : x ≠ [] ∧ x.head? ≠ some '@'
  run : ∀ n, Runs (demangle_name_scope_piece (render E) (fns (render E) n)) x tb tb' (Seen t)

/-- An identifier node. -/
def T.isIdNode : T → Bool
  | .named .. | .op .. | .lit .. | .conv .. | .structor .. | .vcall .. | .guardId .. | .baseDescr .. | .dynVar .. | .dynFn .. => true
  | _ => false

structure MSym (E : Env) (tb : Tbl) (t : T) (x : Text) (tb' : Tbl) : Prop where
  head : ∃ y, x = '?' :: y
  ident : ∀ i, t.ident = some i → T.isIdNode i = true
  run : ∀ n, Runs (fns (render E) n).parse x tb tb' (Seen t)

theorem rule_scName (h : MUname E tb t x tb') : MPiece E tb t x tb' := ⟨h.head, h.piece⟩

theorem rule_scAnon {key : Text} (h : '@' ∉ key) :
    MPiece E tb (.named c!"`anonymous namespace'" .nil) (c!"?A" ++ key ++ c!"@") (tb.note key) := by
  refine ⟨by simp, fun n rest w ns ps ht => ?_⟩
  unfold demangle_name_scope_piece
  simp only [List.append_assoc, List.cons_append, List.nil_append]
  refine Sim.step (firstIs_cons _ _ _ _ _ _) ?_
  rw [show isDigit '?' = false from rfl]
  refine Sim.query ?_
  have e1 : ∀ u : Text, (MStr.new ('?' :: 'A' :: u)).starts_with c!"?$" = false := by intro u; simp [run]
  have e2 : ∀ u : Text, (MStr.new ('?' :: 'A' :: u)).starts_with c!"?A" = true := by intro u; simp [run]
  rw [mk_str, e1]
  refine Sim.query ?_
  rw [mk_str, e2, if_pos rfl]
  unfold demangle_anonymous_namespace_name
  refine Sim.step (a := ()) (s' := mk (key ++ '@' :: rest) w.c ns ps) ?_ ?_
  · rw [expectStr_eq, show 'A' :: (key ++ '@' :: rest) = c!"A" ++ (key ++ '@' :: rest) from rfl]
    have := tryStr_hit (key ++ '@' :: rest) c!"?A" w.c ns ps
    rw [show '?' :: (c!"A" ++ (key ++ '@' :: rest)) = c!"?A" ++ (key ++ '@' :: rest) from rfl, this]; rfl
  refine Sim.query ?_
  rw [mk_str, find_at h]
  refine Sim.step rfl (Sim.step (take_run _ _ _ _ _) (Sim.step rfl ?_))
  refine sim_memo ht fun w' ns' hp ht' => ?_
  refine Sim.step (expectChar_cons _ _ _ _ _ _ _) ?_
  exact sim_seen hp ht' (.named .nil)

/-! ### Local scopes -/

theorem scope_enc {n : Nat} (h : Spec.EncScope y n) : Spec.EncNat y n := by
  cases h with
  | digit d h => exact .digit d h
  | zero => exact .hex [] (by simp)
  | hex c ds hc h0 h => exact .hex (c :: ds) (by simpa using ⟨hc, h⟩)

theorem slice_len (a b : Text) : (MStr.new (a ++ b)).slice_to (utf8Len a) = .ok (MStr.new a) := by
  unfold MStr.slice_to
  rw [show (MStr.new (a ++ b)).string = a ++ b from rfl, splitAtBytes_len]
  rfl

theorem scope_noq {n : Nat} (h : Spec.EncScope y n) : '?' ∉ y := by
  cases h with
  | digit d h => have : ∀ d, d < 10 → '?' ∉ [Char.ofNat ('0'.toNat + d)] := by decide
                 exact this d h
  | zero => decide
  | hex c ds hc h0 h =>
    intro hq
    simp only [List.cons_append, List.mem_cons, List.mem_append, List.not_mem_nil, or_false] at hq
    rcases hq with rfl | hq | hq
    · exact (hex_not_digit hc).2.2 rfl
    · exact (hex_not_digit (h _ hq)).2.2 rfl
    · cases hq

theorem scope_pattern {n : Nat} (h : Spec.EncScope y n) (rest : Text) :
    MStr.starts_with_local_scope_pattern (MStr.new ('?' :: (y ++ '?' :: rest))) = .ok true := by
  have e1 : MStr.try_consume_char '?' (MStr.new ('?' :: (y ++ '?' :: rest))) = .ok (some '?', MStr.new (y ++ '?' :: rest)) :=
    char_cons '?' '?' _
  have e2 : (MStr.new (y ++ '?' :: rest)).find_char '?' = some (utf8Len y) := findChar_at rest (scope_noq h)
  unfold MStr.starts_with_local_scope_pattern
  rw [e1]
  dsimp only
  rw [e2]
  dsimp only
  rw [slice_len]
  dsimp only
  cases h with
  | digit d h =>
    have : ∀ d, d < 10 → ((Char.ofNat ('0'.toNat + d)) == '@' || isDigit (Char.ofNat ('0'.toNat + d))) = true := by decide
    simp [MStr.new, MStr.is_empty, MStr.len_chars, MStr.first_char]
    simpa using this d h
  | zero => rfl
  | hex c ds hc h0 h =>
    have l1 : (MStr.new (c :: ds ++ c!"@")).is_empty = false := rfl
    have l2 : ((MStr.new (c :: ds ++ c!"@")).len_chars == 1) = false := by simp [MStr.new, MStr.len_chars]
    have l3 : (MStr.new (c :: ds ++ c!"@")).last_char = some '@' := by
      show (c :: ds ++ c!"@").getLast? = _
      rw [List.getLast?_append]; rfl
    have l4 : (MStr.new (c :: ds ++ c!"@")).len_bytes - 1 = utf8Len (c :: ds) := by
      show utf8Len (c :: ds ++ c!"@") - 1 = _
      rw [Emit.utf8Len_append]
      show utf8Len (c :: ds) + 1 - 1 = _
      omega
    rw [l1, l2, l3, l4, slice_len]
    have hb : (decide ('B'.toNat ≤ c.toNat) && decide (c.toNat ≤ 'P'.toNat)) = true := by
      have := (isHex_iff c).2 hc
      unfold is_rebased_ascii_hexdigit at this
      simp only [Bool.and_eq_true, decide_eq_true_eq] at this ⊢
      refine ⟨?_, this.2⟩
      have : c.toNat ≠ 'A'.toNat := fun e => h0 (Char.toNat_inj.1 e)
      have h65 : 'A'.toNat = 65 := rfl
      have h66 : 'B'.toNat = 66 := rfl
      omega
    have e3 : MStr.try_consume_char_if (fun x => decide ('B'.toNat ≤ x.toNat) && decide (x.toNat ≤ 'P'.toNat)) (MStr.new (c :: ds)) = .ok (some c, MStr.new ds) := by
      have := char_if_cons c ds (fun x => decide ('B'.toNat ≤ x.toNat) && decide (x.toNat ≤ 'P'.toNat))
      rw [if_pos hb] at this
      exact this
    simp only [Bool.false_eq_true, if_false, e3]
    congr 1
    show ds.all is_rebased_ascii_hexdigit = true
    rw [List.all_eq_true]
    exact fun x hx => (isHex_iff x).2 (h x hx)

theorem decNat_eq (n : Nat) : decNat n = Spec.nat n := rfl

theorem scope_head {n : Nat} (h : Spec.EncScope y n) (rest : Text) : (MStr.new ('?' :: (y ++ '?' :: rest))).starts_with c!"?$" = false ∧
    (MStr.new ('?' :: (y ++ '?' :: rest))).starts_with c!"?A" = false := by
  have key : ∃ c u, y = c :: u ∧ c ≠ '$' ∧ c ≠ 'A' := by
    cases h with
    | digit d h =>
      have : ∀ d, d < 10 → (Char.ofNat ('0'.toNat + d)) ≠ '$' ∧ (Char.ofNat ('0'.toNat + d)) ≠ 'A' := by decide
      exact ⟨_, _, rfl, this d h⟩
    | zero => exact ⟨_, _, rfl, by decide⟩
    | hex c ds hc h0 h => exact ⟨_, _, rfl, by rintro rfl; revert hc; decide, h0⟩
  obtain ⟨c, u, rfl, h1, h2⟩ := key
  constructor
  · simp [run, Ne.symm h1]
  · simp [run, Ne.symm h2]

theorem scLocal_run {n : Nat} {s : T} {rest : Text} (hy : Spec.EncScope y n) (hs : ∀ n, RunsAt (fns (render E) n).parse x rest tb tb' (Seen s))
    (hf : Fits (Spec.localName E s n)) (m : Nat) :
    RunsAt (demangle_name_scope_piece (render E) (fns (render E) m)) ('?' :: y ++ '?' :: x) rest tb tb' (Seen (.named (Spec.localName E s n) .nil)) := by
  intro w ns ps ht
  unfold Spec.localName at hf ⊢
  unfold demangle_name_scope_piece
  simp only [List.append_assoc, List.cons_append]
  refine Sim.step (firstIs_cons _ _ _ _ _ _) ?_
  rw [show isDigit '?' = false from rfl]
  refine Sim.query ?_
  rw [mk_str, (scope_head hy _).1]
  refine Sim.query ?_
  rw [mk_str, (scope_head hy _).2]
  have e : exec (queryE MStr.starts_with_local_scope_pattern) (mk ('?' :: (y ++ '?' :: (x ++ rest))) w.c ns ps) =
      .ok (true, mk ('?' :: (y ++ '?' :: (x ++ rest))) w.c ns ps) := by
    rw [queryE_mk, scope_pattern hy]; rfl
  refine Sim.step e ?_
  rw [if_pos rfl]
  unfold demangle_locally_scoped_name_piece
  refine Sim.step (expectChar_cons _ _ _ _ _ _ _) ?_
  refine Sim.step (encNat_run (scope_enc hy)) ?_
  dsimp only
  rw [if_neg (by simp)]
  refine Sim.step (expectChar_cons _ _ _ _ _ _ _) ?_
  refine RunsAt.bind (hs m) ht fun h w1 ns1 ps1 hp1 ht1 H1 => ?_
  refine Sim.get ?_
  rw [mk_cache]
  have hpre := Spec.pr_prefix (E := E) (u := c!"`") rfl (by decide) s
  have hem := Em.bind (k := fun _ => render E w1.c .ISymbolNode h >>= fun _ => write (c!"'::`" ++ decNat n ++ c!"'")) (Em.write c!"`")
    (Em.bind (render_em (E := E) H1 .ISymbolNode) (Em.write (c!"'::`" ++ decNat n ++ c!"'")))
  have ef : (T.pr E s).out ([] ++ c!"`") ++ (c!"'::`" ++ decNat n ++ c!"'") = c!"`" ++ s.text E ++ c!"'::`" ++ Spec.nat n ++ c!"'" := by
    have := hpre.out []
    simp only [List.append_nil] at this
    rw [List.nil_append, this, decNat_eq]
    simp [T.text]
  refine sim_runW hem ?_ ?_
  · rw [ef]
    exact hf
  · rw [ef]
    simp only [List.append_assoc]
    exact sim_seen hp1 ht1 (.named .nil)

theorem rule_scLocal {n : Nat} {s : T} (hy : Spec.EncScope y n) (hs : MSym E tb s x tb') (hf : Fits (Spec.localName E s n)) :
    MPiece E tb (.named (Spec.localName E s n) .nil) ('?' :: y ++ '?' :: x) tb' :=
  ⟨by simp, fun m rest => scLocal_run hy (fun n => hs.run n rest) hf m⟩

/-! ### Chains of scopes -/

/-- A qualified name: its components are those of the tree followed by the given ones. -/
def QPost (t : T) (last : List Handle) (_ w' : World) (qn : Handle) : Prop :=
  ∃ comps hs, w'[qn]? = some (.QualifiedName comps, true) ∧ w'[comps]? = some (.NodeArray (hs ++ last), true) ∧ Rep w' t (.L hs)

def MScopes (E : Env) (tb : Tbl) (t : T) (x : Text) (tb' : Tbl) : Prop :=
  ∀ n k acc, Runs (SM.iterate k (scopeChainBody (render E) (fns (render E) n)) acc) x tb tb' (QPost t acc.reverse)

theorem rep_snoc {w : World} {hs : List Handle} {h : Handle} {p : T} (hp : Rep w p (.H h)) (H : Rep w t (.L hs)) :
    Rep w (t.snoc p) (.L (hs ++ [h])) := by
  induction hs generalizing t with
  | nil => cases H; exact .cons hp .nil
  | cons a hs ih =>
    cases H with
    | cons h1 h2 => exact .cons h1 (ih h2)

theorem rule_scNil : MScopes E tb .nil c!"@" tb := by
  intro n k acc rest w ns ps ht
  cases k with
  | zero => exact Sim.crash (c := .fuel) rfl
  | succ k =>
    refine Sim.round ?_
    unfold scopeChainBody
    refine Sim.step (tryChar_cons _ _ _ _ _ _) ?_
    refine Sim.intern true (Sim.intern true ?_)
    refine Sim.pure (.inr ⟨_, rfl, _, ns, ps, rfl, prefix_push (List.prefix_append _ _) _, ht.mono ((Vis.push _).trans (Vis.push _)), ?_⟩)
    refine ⟨w.length, [], get_push _ _, get_prefix (List.prefix_append _ _) (get_push _ _), .nil⟩

theorem scopes_cons {p ps' : T} (h1 : x ≠ []) (h2 : x.head? ≠ some '@')
    (h : ∀ n rest, RunsAt (demangle_name_scope_piece (render E) (fns (render E) n)) x (y ++ rest) tb tb1 (Seen p)) (hs : MScopes E tb1 ps' y tb') :
    MScopes E tb (ps'.snoc p) (x ++ y) tb' := by
  intro n k acc rest w ns ps ht
  cases k with
  | zero => exact Sim.crash (c := .fuel) rfl
  | succ k =>
    refine Sim.round ?_
    unfold scopeChainBody
    rw [List.append_assoc]
    refine Sim.step (tryChar_head (head_append h1 h2 _)) (Sim.query ?_)
    rw [mk_str, not_empty_append h1]
    refine RunsAt.bind (h n rest) ht fun a w1 ns1 ps1 hp1 ht1 H1 => ?_
    refine Sim.pure (.inl ⟨_, rfl, ?_⟩)
    refine Sim.mono (hs n k (acc ++ [a]) rest w1 ns1 ps1 ht1) ?_
    rintro b s ⟨w2, ns2, ps2, rfl, hp2, ht2, comps, hs', e1, e2, hr⟩
    refine ⟨w2, ns2, ps2, rfl, hp1.trans hp2, ht2, comps, hs' ++ [a], e1, ?_, rep_snoc (H1.mono (Vis.prefix hp2)) hr⟩
    simpa using e2

theorem rule_scCons {p ps' : T} (h : MPiece E tb p x tb1) (hs : MScopes E tb1 ps' y tb') :
    MScopes E tb (ps'.snoc p) (x ++ y) tb' := scopes_cons h.head.1 h.head.2 (fun n rest => h.run n _) hs

theorem qtn_run {i ps' : T} (h : ∀ n, Runs (demangle_unqualified_type_name (fns (render E) n) true) x tb tb1 (Seen i)) (hs : MScopes E tb1 ps' y tb') : MQtn E tb (.qname (ps'.snoc i)) (x ++ y) tb' := by
  intro n rest w ns ps ht
  unfold demangle_fully_qualified_type_name demangle_name_scope_chain
  rw [List.append_assoc]
  refine Runs.bind (h n) ht fun a w1 ns1 ps1 hp1 ht1 H1 => ?_
  refine Sim.loop fun k => ?_
  refine Sim.mono (hs n k [a] rest w1 ns1 ps1 ht1) ?_
  rintro b s ⟨w2, ns2, ps2, rfl, hp2, ht2, comps, hs', e1, e2, hr⟩
  refine ⟨w2, ns2, ps2, rfl, hp1.trans hp2, ht2, .handle e1 (.qname e2 ?_)⟩
  exact rep_snoc (H1.mono (Vis.prefix hp2)) hr

theorem rule_qtn {i ps' : T} (h : MUname E tb i x tb1) (hs : MScopes E tb1 ps' y tb') : MQtn E tb (.qname (ps'.snoc i)) (x ++ y) tb' :=
  qtn_run h.run hs

end

end Undname
