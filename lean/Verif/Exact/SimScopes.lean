/-
  Simulation: scopes and qualified names.
-/
import Verif.Exact.SimTmpl

namespace Undname.Ex
open Spec (CV FnKind Sig Adjust Access T Tbl Ext Name Fits cvCodes memberCvCodes ptrCodes refCodes primCode tagCode)

section
variable {E : Env} {tb tb' tb1 tb2 : Tbl} {t t' : T} {x y z : Text} {k1 k2 k3 k4 : Nat} {N : Nat}

structure MPiece (E : Env) (tb : Tbl) (t : T) (x : Text) (tb' : Tbl) (cnt : Nat) : Prop where
  head : x ≠ [] ∧ x.head? ≠ some '@'
  run : ∀ n, Runs (demangle_name_scope_piece (render E) (fns (render E) n)) x tb tb' (Seen t) cnt

structure MSym (E : Env) (tb : Tbl) (t : T) (x : Text) (tb' : Tbl) (cnt : Nat) : Prop where
  head : ∃ y, x = '?' :: y
  ident : ∀ i, t.ident = some i → T.isIdNode i = true
  run : ∀ n, Runs (fns (render E) n).parse x tb tb' (Seen t) cnt

theorem rule_scName (h : MUname E tb t x tb' k1) : MPiece E tb t x tb' k1 := ⟨h.head, h.piece⟩

theorem rule_scAnon {key : Text} (h : '@' ∉ key) :
    MPiece E tb (.named c!"`anonymous namespace'" .nil) (c!"?A" ++ key ++ c!"@") (tb.note key) (tb.noteCost key + 1) := by
  refine ⟨by simp, fun n rest w ns ps ht => ?_⟩
  unfold demangle_name_scope_piece
  simp only [List.append_assoc, List.cons_append, List.nil_append]
  refine Sim.step (firstIs_cons _ _ _ _ _ _) ?_
  rw [show isDigit '?' = false from rfl]
  refine Sim.query ?_
  have e1 : ∀ u : Text, (MStr.new ('?' :: 'A' :: u)).starts_with c!"?$" = false := by intro u; simp [run]
  have e2 : ∀ u : Text, (MStr.new ('?' :: 'A' :: u)).starts_with c!"?A" = true := by intro u; simp [run]
  rw [mk_str, e1]
  refine Sim.query ?_
  rw [mk_str, e2, if_pos rfl]
  unfold demangle_anonymous_namespace_name
  refine Sim.step (a := ()) (s' := mk (key ++ '@' :: rest) w.c ns ps) ?_ ?_
  · rw [expectStr_eq, show 'A' :: (key ++ '@' :: rest) = c!"A" ++ (key ++ '@' :: rest) from rfl]
    have := tryStr_hit (key ++ '@' :: rest) c!"?A" w.c ns ps
    rw [show '?' :: (c!"A" ++ (key ++ '@' :: rest)) = c!"?A" ++ (key ++ '@' :: rest) from rfl, this]; rfl
  refine Sim.query ?_
  rw [mk_str, find_at h]
  refine Sim.step rfl (Sim.step (take_run _ _ _ _ _) (Sim.step rfl ?_))
  refine sim_memo ht fun w' ns' hp ht' => ?_
  refine Sim.step (expectChar_cons _ _ _ _ _ _ _) ?_
  exact sim_seen hp ht' (.named .nil)

/-! ### Local scopes -/

theorem scLocal_run {n : Nat} {s : T} {rest : Text} (hy : Spec.EncScope y n) (hs : ∀ n, RunsAt (fns (render E) n).parse x rest tb tb' (Seen s) k1)
    (hf : Fits (Spec.localName E s n)) (m : Nat) :
    RunsAt (demangle_name_scope_piece (render E) (fns (render E) m)) ('?' :: y ++ '?' :: x) rest tb tb' (Seen (.named (Spec.localName E s n) .nil)) (k1 + 1) := by
  intro w ns ps ht
  unfold Spec.localName at hf ⊢
  unfold demangle_name_scope_piece
  simp only [List.append_assoc, List.cons_append]
  refine Sim.step (firstIs_cons _ _ _ _ _ _) ?_
  rw [show isDigit '?' = false from rfl]
  refine Sim.query ?_
  rw [mk_str, (scope_head hy _).1]
  refine Sim.query ?_
  rw [mk_str, (scope_head hy _).2]
  have e : exec (queryE MStr.starts_with_local_scope_pattern) (mk ('?' :: (y ++ '?' :: (x ++ rest))) w.c ns ps) =
      .ok (true, mk ('?' :: (y ++ '?' :: (x ++ rest))) w.c ns ps) := by
    rw [queryE_mk, scope_pattern hy]; rfl
  refine Sim.step e ?_
  rw [if_pos rfl]
  unfold demangle_locally_scoped_name_piece
  refine Sim.step (expectChar_cons _ _ _ _ _ _ _) ?_
  refine Sim.step (encNat_run (scope_enc hy)) ?_
  dsimp only
  rw [if_neg (by simp)]
  refine Sim.step (expectChar_cons _ _ _ _ _ _ _) ?_
  refine RunsAt.bind (hs m) ht fun h w1 ns1 ps1 hp1 ht1 H1 => ?_
  refine Sim.get ?_
  rw [mk_cache]
  have hpre := Spec.pr_prefix (E := E) (u := c!"`") rfl (by decide) s
  have hem := Em.bind (k := fun _ => render E w1.c .ISymbolNode h >>= fun _ => write (c!"'::`" ++ decNat n ++ c!"'")) (Em.write c!"`")
    (Em.bind (render_em (E := E) H1 .ISymbolNode) (Em.write (c!"'::`" ++ decNat n ++ c!"'")))
  have ef : (T.pr E s).out ([] ++ c!"`") ++ (c!"'::`" ++ decNat n ++ c!"'") = c!"`" ++ s.text E ++ c!"'::`" ++ Spec.nat n ++ c!"'" := by
    have := hpre.out []
    simp only [List.append_nil] at this
    rw [List.nil_append, this, decNat_eq]
    simp [T.text]
  refine sim_runW hem ?_ ?_
  · rw [ef]
    exact hf
  · rw [ef]
    simp only [List.append_assoc]
    exact sim_seen hp1 ht1 (.named .nil)

theorem rule_scLocal {n : Nat} {s : T} (hy : Spec.EncScope y n) (hs : MSym E tb s x tb' k1) (hf : Fits (Spec.localName E s n)) :
    MPiece E tb (.named (Spec.localName E s n) .nil) ('?' :: y ++ '?' :: x) tb' (k1 + 1) :=
  ⟨by simp, fun m rest => scLocal_run hy (fun n => hs.run n rest) hf m⟩

/-! ### Chains of scopes -/

def MScopes (E : Env) (tb : Tbl) (t : T) (x : Text) (tb' : Tbl) (cnt : Nat) : Prop :=
  ∀ n j acc, Runs (SM.iterate j (scopeChainBody (render E) (fns (render E) n)) acc) x tb tb' (QPost t acc.reverse) cnt

theorem rule_scNil : MScopes E tb .nil c!"@" tb 2 := by
  intro n k acc rest w ns ps ht
  cases k with
  | zero => exact Sim.crash (c := .fuel) rfl
  | succ k =>
    refine Sim.round ?_
    unfold scopeChainBody
    refine Sim.step (tryChar_cons _ _ _ _ _ _) ?_
    refine Sim.intern true (Sim.intern true ?_)
    refine Sim.pure (.inr ⟨_, rfl, _, ns, ps, rfl, by nodes, prefix_push (List.prefix_append _ _) _, ht.mono ((Vis.push _).trans (Vis.push _)), ?_⟩)
    refine ⟨w.length, [], get_push _ _, get_prefix (List.prefix_append _ _) (get_push _ _), .nil⟩

theorem scopes_cons {p ps' : T} (h1 : x ≠ []) (h2 : x.head? ≠ some '@')
    (h : ∀ n rest, RunsAt (demangle_name_scope_piece (render E) (fns (render E) n)) x (y ++ rest) tb tb1 (Seen p) k1) (hs : MScopes E tb1 ps' y tb' k2) :
    MScopes E tb (ps'.snoc p) (x ++ y) tb' (k1 + k2) := by
  intro n k acc rest w ns ps ht
  cases k with
  | zero => exact Sim.crash (c := .fuel) rfl
  | succ k =>
    refine Sim.round ?_
    unfold scopeChainBody
    rw [List.append_assoc]
    refine Sim.step (tryChar_head (head_append h1 h2 _)) (Sim.query ?_)
    rw [mk_str, not_empty_append h1]
    refine RunsAt.bind (h n rest) ht fun a w1 ns1 ps1 hp1 ht1 H1 => ?_
    refine Sim.pure (.inl ⟨_, rfl, ?_⟩)
    refine Sim.mono ((hs n k (acc ++ [a]) rest w1 ns1 ps1 ht1).le (by nodes)) ?_
    rintro b s ⟨w2, ns2, ps2, rfl, hl, hp2, ht2, comps, hs', e1, e2, hr⟩
    refine ⟨w2, ns2, ps2, rfl, by nodes, hp1.trans hp2, ht2, comps, hs' ++ [a], e1, ?_, rep_snoc (H1.mono (Vis.prefix hp2)) hr⟩
    simpa using e2

theorem rule_scCons {p ps' : T} (h : MPiece E tb p x tb1 k1) (hs : MScopes E tb1 ps' y tb' k2) :
    MScopes E tb (ps'.snoc p) (x ++ y) tb' (k1 + k2) := scopes_cons h.head.1 h.head.2 (fun n rest => h.run n _) hs

theorem qtn_run {i ps' : T} (h : ∀ n, Runs (demangle_unqualified_type_name (fns (render E) n) true) x tb tb1 (Seen i) k1) (hs : MScopes E tb1 ps' y tb' k2) : MQtn E tb (.qname (ps'.snoc i)) (x ++ y) tb' (k1 + k2) := by
  intro n rest w ns ps ht
  unfold demangle_fully_qualified_type_name demangle_name_scope_chain
  rw [List.append_assoc]
  refine Runs.bind (h n) ht fun a w1 ns1 ps1 hp1 ht1 H1 => ?_
  refine Sim.loop fun k => ?_
  refine Sim.mono ((hs n k [a] rest w1 ns1 ps1 ht1).le (by nodes)) ?_
  rintro b s ⟨w2, ns2, ps2, rfl, hl, hp2, ht2, comps, hs', e1, e2, hr⟩
  refine ⟨w2, ns2, ps2, rfl, by nodes, hp1.trans hp2, ht2, .handle e1 (.qname e2 ?_)⟩
  exact rep_snoc (H1.mono (Vis.prefix hp2)) hr

theorem rule_qtn {i ps' : T} (h : MUname E tb i x tb1 k1) (hs : MScopes E tb1 ps' y tb' k2) : MQtn E tb (.qname (ps'.snoc i)) (x ++ y) tb' (k1 + k2) :=
  qtn_run h.run hs

end

end Undname.Ex
