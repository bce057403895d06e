/-
  What the text must have been when the scopes of a name are read.
-/
import Verif.Proof.AccNames

namespace Undname
open Spec (CV FnKind Sig Adjust AdjKind Access T Tbl Ext Name Fits Cat Gram cvCodes memberCvCodes hashed locator hashT localName)

/-- If the remaining text begins with a phrase, so did the text before. -/
def Leads (E : Env) (cat : Cat) (tb : Tbl) (s : Text) (st : St) : Prop :=
  ∃ R, ∃ w : World, ∃ ns ps tb', st = mk R w.c ns ps ∧ Tab w tb' ns ps ∧ (Took E cat tb' R → Took E cat tb s)

section
variable {E : Env} {n : Nat} {tb tb' : Tbl} {s x R : Text} {w : World} {ns ps : List Handle} {cat : Cat}

theorem RunsAt.leads {α : Type} {m : P α} {Q : World → World → α → Prop} (h : RunsAt m x R tb tb' Q) (ht : Tab w tb ns ps)
    (hl : Took E cat tb' R → Took E cat tb (x ++ R)) : After m (mk (x ++ R) w.c ns ps) fun _ st => Leads E cat tb (x ++ R) st := by
  refine After.mono (After.sim (h w ns ps ht)) ?_
  rintro a s ⟨w', ns', ps', rfl, _, ht', _⟩
  exact ⟨R, w', ns', ps', tb', rfl, ht', hl⟩

theorem no_scopes : ¬ Took E .scopes tb [] := by
  rintro ⟨x, R, t, tb', e, h⟩
  have := gram_at h
  rw [(List.append_eq_nil_iff.1 e.symm).1] at this
  cases this

theorem no_targs : ¬ Took E .targs tb [] := by
  rintro ⟨x, R, t, tb', e, h⟩
  have := gram_at h
  rw [(List.append_eq_nil_iff.1 e.symm).1] at this
  cases this

/-- What is read as an enclosing scope. -/
theorem piece_inv (hn : AccN E n) (ht : Tab w tb ns ps) : Wh (demangle_name_scope_piece (render E) (fns (render E) n)) (mk s w.c ns ps)
    (Took E .uname tb s ∨ (∃ key R, s = c!"?A" ++ key ++ c!"@" ++ R ∧ '@' ∉ key) ∨ (∃ z k v, Spec.EncScope z k ∧ s = '?' :: (z ++ '?' :: v)) ∨
      ∃ u R, s = '?' :: u ++ c!"@" ++ R ∧ '@' ∉ u ∧ u.head? ≠ some '$' ∧ u.head? ≠ some 'A' ∧
        ∀ z k v, Spec.EncScope z k → u ++ '@' :: R ≠ z ++ '?' :: v) := by
  unfold demangle_name_scope_piece
  refine After.firstIs (fun y u e hy => ?_) fun hd => ?_
  · refine After.mono (uname_back ht) ?_
    rintro _ _ ⟨i, u, t, hi, rfl, h⟩
    exact .inl ⟨_, _, _, _, rfl, .uBack hi h⟩
  refine After.query ?_
  refine After.iteB (fun h => ?_) fun h => ?_
  · exact After.mono (hn.template ht) fun _ _ h => .inl h
  refine After.query ?_
  refine After.iteB (fun hA => ?_) fun hA => ?_
  · unfold demangle_anonymous_namespace_name
    refine After.expectStr fun u e => ?_
    subst e
    refine After.query (After.okOr fun i hi => ?_)
    obtain ⟨key, R, rfl, hk, rfl⟩ := find_inv hi
    exact After.now (.inr (.inl ⟨key, R, by simp, hk⟩))
  by_cases hq : ∃ v, s = '?' :: v
  · obtain ⟨v, rfl⟩ := hq
    obtain ⟨b, e, hb⟩ := pattern_inv v
    refine After.queryE fun b' e' => ?_
    rw [e] at e'
    obtain rfl : b = b' := Except.ok.inj e'
    cases b with
    | true =>
      obtain ⟨z, k, v', hz, rfl⟩ := hb rfl
      exact After.now (.inr (.inr (.inl ⟨z, k, v', hz, rfl⟩)))
    | false =>
      refine After.mono (simple_inv true) ?_
      rintro _ _ ⟨x, R, ex, h0, hat⟩
      cases x with
      | nil => exact (h0 rfl).elim
      | cons c x =>
        obtain ⟨rfl, rfl⟩ := List.cons.inj ex
        refine .inr (.inr (.inr ⟨x, R, by simp, fun hm => hat (List.mem_cons_of_mem _ hm), ?_, ?_, ?_⟩))
        · intro hx
          cases x with
          | nil => cases hx
          | cons z x => cases hx; simp [run] at h
        · intro hx
          cases x with
          | nil => cases hx
          | cons z x => cases hx; simp [run] at hA
        · intro z k v hz e'
          have e'' := scope_pattern hz v
          rw [← e'] at e''
          rw [show '?' :: (x ++ '@' :: R) = '?' :: (x.append ('@' :: R)) from rfl] at e''
          have := e.symm.trans e''
          cases this
  · refine After.queryE fun b _ => ?_
    have hl : ∀ a, MStr.starts_with_local_scope_pattern (MStr.new s) = .ok a → a = false := by
      intro a ha
      cases s with
      | nil => cases ha; rfl
      | cons c v =>
        have : c ≠ '?' := fun e => hq ⟨v, by rw [e]⟩
        have e := local_miss this v w.c ns ps
        rw [queryE_mk, ha] at e
        cases e; rfl
    obtain rfl : b = false := hl b ‹_›
    refine After.mono (simple_inv true) ?_
    rintro _ _ ⟨x, u, rfl, h0, hat⟩
    refine .inl ⟨x ++ c!"@", u, _, _, by simp, .uName (name_of h0 hat ?_ ?_)⟩
    · rintro y v rfl
      exact hd _ _ rfl
    · intro hx
      cases x with
      | nil => cases hx
      | cons z x => cases hx; exact hq ⟨_, rfl⟩

theorem piece_leads (hn : AccN E n) (ht : Tab w tb ns ps) : After (demangle_name_scope_piece (render E) (fns (render E) n)) (mk s w.c ns ps)
    fun _ st => Leads E .scopes tb s st := by
  refine After.know' (piece_inv hn ht) ?_
  rintro (⟨x, R, t, tb', rfl, hg⟩ | ⟨key, R, rfl, hk⟩ | ⟨z, k, v, hz, rfl⟩ | ⟨u, R, rfl, hu, hd, hA, hp⟩)
  · refine RunsAt.leads (gram_reads (.scName hg) |>.run n R) ht ?_
    rintro ⟨y, R', t', tb'', rfl, hg'⟩
    exact ⟨x ++ y, R', _, _, by simp, .scCons (.scName hg) hg'⟩
  · refine RunsAt.leads (gram_reads (Gram.scAnon (E := E) (tb := tb) hk) |>.run n R) ht ?_
    rintro ⟨y, R', t', tb'', rfl, hg'⟩
    exact ⟨_ ++ y, R', _, _, by simp, .scCons (.scAnon hk) hg'⟩
  · unfold demangle_name_scope_piece
    refine After.step (firstIs_cons _ _ _ _ _ _) ?_
    rw [show isDigit '?' = false from rfl]
    refine After.query ?_
    rw [mk_str, (scope_head hz _).1]
    refine After.query ?_
    rw [mk_str, (scope_head hz _).2]
    have e : exec (queryE MStr.starts_with_local_scope_pattern) (mk ('?' :: (z ++ '?' :: v)) w.c ns ps) =
        .ok (true, mk ('?' :: (z ++ '?' :: v)) w.c ns ps) := by
      rw [queryE_mk, scope_pattern hz]; rfl
    refine After.step e ?_
    rw [if_pos rfl]
    unfold demangle_locally_scoped_name_piece
    refine After.step (expectChar_cons _ _ _ _ _ _ _) ?_
    refine After.step (encNat_run (scope_enc hz)) ?_
    dsimp only
    rw [if_neg (by simp)]
    refine After.step (expectChar_cons _ _ _ _ _ _ _) ?_
    refine nested_of hn ht fun R t tb' hN h w1 ns1 ps1 hp1 ht1 H1 _ => ?_
    refine After.get ?_
    rw [mk_cache]
    have hpre := Spec.pr_prefix (E := E) (u := c!"`") rfl (by decide) t
    have hem := Em.bind (k := fun _ => render E w1.c .ISymbolNode h >>= fun _ => write (c!"'::`" ++ decNat k ++ c!"'")) (Em.write c!"`")
      (Em.bind (render_em (E := E) H1 .ISymbolNode) (Em.write (c!"'::`" ++ decNat k ++ c!"'")))
    have ef : (T.pr E t).out ([] ++ c!"`") ++ (c!"'::`" ++ decNat k ++ c!"'") = localName E t k := by
      have := hpre.out []
      simp only [List.append_nil] at this
      rw [List.nil_append, this, decNat_eq]
      simp [T.text, localName]
    refine After.runW hem fun hf => ?_
    rw [ef] at hf
    refine After.mono (After.sim (Sim.intern_end true (R := fun _ st => ∃ w2 : World, w1 <+: w2 ∧ st = mk R w2.c ns1 ps1) ⟨_, List.prefix_append _ _, rfl⟩)) ?_
    rintro _ _ ⟨w2, hp2, rfl⟩
    refine ⟨R, w2, ns1, ps1, tb', rfl, ht1.mono (Vis.prefix hp2), ?_⟩
    rcases hN with ⟨x, rfl, hg⟩ | rfl | ⟨u, rfl, hu, hl, rfl, rfl⟩
    · rintro ⟨y, R', t', tb'', rfl, hg'⟩
      exact ⟨'?' :: z ++ '?' :: x ++ y, R', _, _, by simp, .scCons (.scLocal hz hg hf) hg'⟩
    · exact fun h => (no_scopes h).elim
    · rintro ⟨y, R', t', tb'', rfl, hg'⟩
      exact ⟨'?' :: z ++ '?' :: hashed u ++ y, R', _, _, by simp, .scLocalHash hz hu (fun h => hl (h.trans (List.prefix_append _ _))) hf hg'⟩
  · refine RunsAt.leads (odd_piece hu hd hA R hp n) ht ?_
    rintro ⟨y, R', t', tb'', rfl, hg'⟩
    refine ⟨'?' :: u ++ '@' :: y, R', _, _, by simp, .scOdd hu hd hA ?_ hg'⟩
    intro z k v hz e
    exact hp z k (v ++ R') hz (by rw [← List.cons_append, ← List.append_assoc, e]; simp)

theorem scopes_inv (hn : AccN E n) (k : Nat) (acc : List Handle) :
    Acc E .scopes (SM.iterate k (scopeChainBody (render E) (fns (render E) n)) acc) := by
  induction k generalizing acc with
  | zero => exact fun _ => After.iter_zero
  | succ k ih =>
    intro tb s w ns ps ht
    refine After.round ?_
    unfold scopeChainBody
    refine After.tryChar (fun u e => ?_) fun _ => ?_
    · subst e
      have : Took E .scopes tb ('@' :: u) := ⟨c!"@", u, _, _, rfl, .scNil⟩
      exact After.bind (Q := fun _ _ => True) (After.now trivial) fun _ _ _ => After.bind (Q := fun _ _ => True) (After.now trivial) fun _ _ _ => After.pure this
    refine After.query ?_
    refine After.iteB (fun _ => After.err) fun _ => ?_
    refine After.bind (piece_leads hn ht) ?_
    rintro a _ ⟨R, w', ns', ps', tb', rfl, ht', hl⟩
    refine After.pure ?_
    exact After.mono (ih _ ht') fun _ _ h => hl h

theorem qtn_inv (hn : AccN E n) : Acc E .qtn (demangle_fully_qualified_type_name (render E) (fns (render E) n)) := by
  intro tb s w ns ps ht
  unfold demangle_fully_qualified_type_name demangle_name_scope_chain
  refine After.know (uname_inv hn ht) ?_
  rintro (⟨x, R, t, tb', rfl, hg⟩ | ⟨u, R, e, hu, hd⟩)
  · refine Runs.post (gram_reads hg |>.run n) ht fun a w' ns' ps' hp ht' _ => ?_
    refine After.loop fun k => After.mono (scopes_inv hn k _ ht') ?_
    rintro _ _ ⟨y, R', t', tb'', rfl, hg'⟩
    exact ⟨x ++ y, R', _, _, by simp, .qtn hg hg'⟩
  · have e : s = '?' :: u ++ c!"@" ++ R := by simp [e]
    subst e
    refine Runs.post (odd_name hu hd n) ht fun a w' ns' ps' hp ht' _ => ?_
    refine After.loop fun k => After.mono (scopes_inv hn k _ ht') ?_
    rintro _ _ ⟨y, R', t', tb'', rfl, hg'⟩
    exact ⟨'?' :: u ++ '@' :: y, R', _, _, by simp, .qtnOdd hu hd hg'⟩

end

end Undname
