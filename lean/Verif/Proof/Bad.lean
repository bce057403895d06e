/-
  Texts the parser rejects: names, scopes, template arguments, types, parameters.
-/
import Verif.Proof.Fails

namespace Undname
open Spec

/-- The text is rejected where a phrase is expected. -/
def BadFor {α : Type} (m : Nat → P α) (tb : Tbl) (x : Text) (e : Error) : Prop :=
  ∀ n (w : World) ns ps, Tab w tb ns ps → Fails (m n) (mk x w.c ns ps) e

structure BadUname (E : Env) (tb : Tbl) (x : Text) (e : Error) : Prop where
  head : x ≠ [] ∧ x.head? ≠ some '@'
  run : BadFor (fun n => demangle_unqualified_type_name (fns (render E) n) true) tb x e
  piece : BadFor (fun n => demangle_name_scope_piece (render E) (fns (render E) n)) tb x e

def BadScopes (E : Env) (tb : Tbl) (x : Text) (e : Error) : Prop :=
  ∀ k acc, BadFor (fun n => SM.iterate k (scopeChainBody (render E) (fns (render E) n)) acc) tb x e

def BadQtn (E : Env) (tb : Tbl) (x : Text) (e : Error) : Prop :=
  BadFor (fun n => demangle_fully_qualified_type_name (render E) (fns (render E) n)) tb x e

def BadTmpl (E : Env) (tb : Tbl) (x : Text) (e : Error) : Prop :=
  BadFor (fun n => (fns (render E) n).tmpl .Template) tb x e

def BadTargs (E : Env) (tb : Tbl) (x : Text) (e : Error) : Prop :=
  ∀ k acc, BadFor (fun n => SM.iterate k (templateListBody (render E) (fns (render E) n)) acc) tb x e

structure BadTy (E : Env) (tb : Tbl) (x : Text) (e : Error) : Prop where
  head : tyHead x = true
  run : BadFor (fun n => demangle_type_body (render E) (fns (render E) n)) tb x e

def BadPlist (E : Env) (tb : Tbl) (x : Text) (e : Error) : Prop :=
  ∀ k acc, BadFor (fun n => SM.iterate k (paramListBody (fns (render E) n)) acc) tb x e

section
variable {E : Env} {tb tb' tb1 : Tbl} {t : T} {x y : Text} {e : Error}

theorem bad_back {i : Nat} (hi : i < 10) (h : tb.names[i]? = none) (rest : Text) :
    BadUname E tb (digit i ++ rest) .InvalidBackRef := by
  obtain ⟨c, hc, h1, h2, h3, h4, h5⟩ := digit_char hi
  have key : BadFor (fun _ => demangle_back_ref_name) tb (digit i ++ rest) .InvalidBackRef := by
    intro n w ns ps ht
    rw [hc, List.singleton_append]
    unfold demangle_back_ref_name
    have h4 : exec (tryIf isDigit) (mk (c :: rest) w.c ns ps) = .ok (some c, mk rest w.c ns ps) := by
      rw [tryIf_cons, if_pos h1]
    refine Fails.step h4 (Fails.step rfl (Fails.get ?_))
    have : ns[i]? = none := by
      rw [List.getElem?_eq_none_iff] at h ⊢
      rw [← ht.names.length]; exact h
    rw [mk_names, h2, this]
    exact Fails.err
  refine ⟨?_, ?_, ?_⟩
  · rw [hc]; simpa using h5
  · intro n w ns ps ht
    unfold demangle_unqualified_type_name
    exact Fails.step (digit_first hi _ _ _ _) (key n w ns ps ht)
  · intro n w ns ps ht
    unfold demangle_name_scope_piece
    exact Fails.step (digit_first hi _ _ _ _) (key n w ns ps ht)

theorem bad_scopes_piece (h : BadUname E tb x e) : BadScopes E tb x e := by
  intro k acc n w ns ps ht
  cases k with
  | zero => exact Fails.crash (c := .fuel) rfl
  | succ k =>
    refine Fails.round ?_
    unfold scopeChainBody
    refine Fails.step (tryChar_head h.head.2) (Fails.query ?_)
    have : (MStr.new x).is_empty = false := by simpa using not_empty_append h.head.1 []
    rw [mk_str, this]
    exact Fails.left (h.piece n w ns ps ht)

theorem bad_scopes_cons (h : MPiece E tb t x tb1) (hy : BadScopes E tb1 y e) : BadScopes E tb (x ++ y) e := by
  intro k acc n w ns ps ht
  cases k with
  | zero => exact Fails.crash (c := .fuel) rfl
  | succ k =>
    refine Fails.next ?_
    unfold scopeChainBody
    refine Sim.step (tryChar_head (head_append h.head.1 h.head.2 _)) (Sim.query ?_)
    rw [mk_str, not_empty_append h.head.1]
    refine Runs.bind (h.run n) ht fun a w1 ns1 ps1 hp1 ht1 H1 => ?_
    exact Sim.pure ⟨_, rfl, hy k _ n w1 ns1 ps1 ht1⟩

theorem bad_chain (h : BadScopes E tb x e) (id : Handle) :
    BadFor (fun n => demangle_name_scope_chain (render E) (fns (render E) n) id) tb x e := by
  intro n w ns ps ht
  unfold demangle_name_scope_chain
  rw [Fails, run_loop]
  exact h _ _ n w ns ps ht

theorem bad_qtn_name (h : BadUname E tb x e) : BadQtn E tb x e := by
  intro n w ns ps ht
  unfold demangle_fully_qualified_type_name
  exact Fails.left (h.run n w ns ps ht)

theorem bad_qtn_scopes (h : MUname E tb t x tb1) (hy : BadScopes E tb1 y e) : BadQtn E tb (x ++ y) e := by
  intro n w ns ps ht
  unfold demangle_fully_qualified_type_name
  refine Runs.fail (h.run n) ht fun a w1 ns1 ps1 hp1 ht1 H1 => ?_
  exact bad_chain hy a n w1 ns1 ps1 ht1

theorem bad_type (h : BadTy E tb x e) : BadFor (fun n => (fns (render E) n).type .Drop) tb x e := by
  intro n w ns ps ht
  cases n with
  | zero => exact Fails.crash (c := .fuel) rfl
  | succ n =>
    show Fails (demangle_type (render E) (fns (render E) n) .Drop) _ _
    unfold demangle_type
    refine Fails.step rfl (Fails.query ?_)
    have : (MStr.new x).is_empty = false := by simpa using not_empty_append (tyHead_ne h.head) []
    rw [mk_str, this]
    exact Fails.left (h.run n w ns ps ht)

theorem bad_tag (k : TagKind) (h : BadQtn E tb x e) : BadTy E tb (tagCode k ++ x) e := by
  refine ⟨by cases k <;> rfl, fun n w ns ps ht => ?_⟩
  refine Fails.of_eq (s' := mk x w.c ns ps) (m' := do
    let name ← demangle_fully_qualified_type_name (render E) (fns (render E) n)
    intern (.TagType Qualifiers.Q_None name k)) ?_ ?_
  · cases k <;> simp [demangle_type_body, demangle_class_type, tagCode, run, MStr.is_tag_type]
  · exact Fails.left (h n w ns ps ht)

theorem bad_targs_ty (h : BadTy E tb x e) : BadTargs E tb x e := by
  intro k acc n w ns ps ht
  cases k with
  | zero => exact Fails.crash (c := .fuel) rfl
  | succ k =>
    refine Fails.round ?_
    unfold templateListBody
    have hr := bad_type h n w ns ps ht
    obtain ⟨c, u, e0, h0, h1, h2, h3, h4, h5⟩ := argHead_ty h.head []
    rw [List.append_nil] at e0
    have hd : exec (template_argument (render E) (fns (render E) n) false) (mk x w.c ns ps) = exec ((fns (render E) n).type .Drop) (mk x w.c ns ps) := by
      obtain ⟨c, y, rfl, h1, _, _, h5⟩ := tyHead_cons h.head
      unfold template_argument
      by_cases hc : c = '$'
      · obtain ⟨d, z, rfl, h6⟩ := h5 hc
        subst hc
        rcases h6 with rfl | rfl | rfl <;> simp [run, trySpecifier, tryTable]
      · have : ('$' == c) = false := by simpa using Ne.symm hc
        simp [run, trySpecifier, tryTable, this]
    rw [e0] at hr hd ⊢
    refine Fails.step (tryChar_head (by simpa using h0)) ?_
    refine Fails.step (pack_miss h1 h2 h3 h4) ?_
    refine Fails.query ?_
    rw [mk_str, is_empty_cons]
    refine Fails.step (tryStr_miss _ _ _ _ _ h5) ?_
    refine Fails.step (a := ()) (s' := mk (c :: u) w.c ns ps) rfl ?_
    exact Fails.left (Fails.of_eq hd hr)

theorem bad_targs_cons (h : MTarg E false tb t x tb1) (hy : BadTargs E tb1 y e) : BadTargs E tb (x ++ y) e := by
  intro k acc n w ns ps ht
  cases k with
  | zero => exact Fails.crash (c := .fuel) rfl
  | succ k =>
    refine Fails.next ?_
    unfold templateListBody
    obtain ⟨c, u, e0, h0, h1, h2, h3, h4, h5⟩ := h.head rfl y
    have hr := h.run n y w ns ps ht
    rw [e0] at hr ⊢
    refine Sim.step (tryChar_head (by simpa using h0)) ?_
    refine Sim.step (pack_miss h1 h2 h3 h4) ?_
    refine Sim.query ?_
    rw [mk_str, is_empty_cons]
    refine Sim.step (tryStr_miss _ _ _ _ _ h5) ?_
    refine Sim.step (a := ()) (s' := mk (c :: u) w.c ns ps) rfl ?_
    refine Sim.bind hr ?_
    rintro b s ⟨w1, ns1, ps1, rfl, hp1, ht1, H1⟩
    exact Sim.pure ⟨_, rfl, hy k _ n w1 ns1 ps1 ht1⟩

theorem bad_tmpl_args {i : T} (hi : MFid E {} i x tb1) (ha : BadTargs E tb1 y e) : BadTmpl E tb (c!"?$" ++ x ++ y) e := by
  intro n w ns ps ht
  cases n with
  | zero => exact Fails.crash (c := .fuel) rfl
  | succ n =>
    show Fails (demangle_template_instantiation_name (render E) (fns (render E) n) .Template) _ _
    unfold demangle_template_instantiation_name
    simp only [List.append_assoc]
    refine Fails.step (a := ()) (s' := mk (x ++ y) w.c ns ps) expectStr_hit ?_
    refine Fails.get (Fails.step (s' := mk (x ++ y) w.c [] []) rfl ?_)
    refine Runs.fail (hi.run n) (Tab.empty w) fun h w1 ns1 ps1 hp1 ht1 H1 => ?_
    refine Fails.left ?_
    unfold demangle_template_parameter_list
    refine Fails.left ?_
    rw [Fails, run_loop]
    exact ha _ _ n w1 ns1 ps1 ht1

theorem bad_uname_tmpl (h : BadTmpl E tb (c!"?$" ++ x) e) : BadUname E tb (c!"?$" ++ x) e := by
  have hsw : ∀ u : Text, (MStr.new ('?' :: '$' :: u)).starts_with c!"?$" = true := by intro u; simp [run]
  refine ⟨by simp, fun n w ns ps ht => ?_, fun n w ns ps ht => ?_⟩
  · unfold demangle_unqualified_type_name
    refine Fails.step (firstIs_cons _ _ _ _ _ _) ?_
    rw [show isDigit '?' = false from rfl]
    refine Fails.query ?_
    rw [mk_str, show (MStr.new ('?' :: (c!"$").append x)).starts_with c!"?$" = true from hsw x]
    exact h n w ns ps ht
  · unfold demangle_name_scope_piece
    refine Fails.step (firstIs_cons _ _ _ _ _ _) ?_
    rw [show isDigit '?' = false from rfl]
    refine Fails.query ?_
    rw [mk_str, show (MStr.new ('?' :: (c!"$").append x)).starts_with c!"?$" = true from hsw x]
    exact h n w ns ps ht

/-- The instantiation is read, but its text does not fit. -/
theorem bad_tmpl_big (h : MTmpl E tb t x tb') (hp : t.isPlain = true) (hf : ¬ Fits (t.text E)) : BadTmpl E tb (x ++ y) (.Io .OutOfMemory) := by
  intro n w ns ps ht
  cases n with
  | zero => exact Fails.crash (c := .fuel) rfl
  | succ n =>
    let tail : Handle → P Handle := fun identifier => do
      let n ← resolveP .IIdentifierNode identifier
      if n.isConversionOrStructor then SM.err .InvalidTemplateInstantiationName
      else do
        memorize_identifier (render E) identifier
        pure identifier
    refine Fails.of_eq (m' := (fns (render E) (n + 1)).tmpl .Simple >>= tail) (s' := mk (x ++ y) w.c ns ps) ?_ ?_
    · show exec (demangle_template_instantiation_name (render E) (fns (render E) n) .Template) _ =
        exec (demangle_template_instantiation_name (render E) (fns (render E) n) .Simple >>= tail) _
      unfold demangle_template_instantiation_name
      simp only [run_bind_eq]
      cases exec (expectStr c!"?$" .InvalidTemplateInstantiationName) (mk (x ++ y) w.c ns ps) with
      | error e => rfl
      | ok p =>
        simp only [andThen_ok]
        cases exec SM.get p.2 with
        | error e => rfl
        | ok p1 =>
          simp only [andThen_ok]
          cases exec (SM.modify fun s => { s with names := [], function_params := [] }) p1.2 with
          | error e => rfl
          | ok p2 =>
            simp only [andThen_ok]
            cases exec (demangle_unqualified_symbol_name (fns (render E) n) .Simple) p2.2 with
            | error e => rfl
            | ok p3 =>
              simp only [andThen_ok]
              cases exec (demangle_template_parameter_list (render E) (fns (render E) n)) p3.2 with
              | error e => rfl
              | ok p4 =>
                simp only [andThen_ok]
                cases exec (modifyNode .IIdentifierNode p3.1 (Node.set_template_params p4.1)) p4.2 with
                | error e => rfl
                | ok p5 =>
                  simp only [andThen_ok]
                  cases exec (SM.modify fun s => { s with names := p1.1.names, function_params := p1.1.function_params }) p5.2 with
                  | error e => rfl
                  | ok p6 => rfl
    · refine Runs.fail (h.simple (n + 1)) ht fun a w1 ns1 ps1 hp1 ht1 H1 => ?_
      obtain ⟨w2, hc2, hp2, hv2, H2⟩ := H1.reveal hp1
      obtain ⟨nd, e, hl, hN⟩ := H1
      have hrun : Sim (resolveP .IIdentifierNode a) (mk y w1.c ns1 ps1) (fun r s => s = mk y w1.c ns1 ps1 ∧ r = nd) := by
        have := Sim.res (kd := .IIdentifierNode) (k := fun r => pure r) (R := fun r s => s = mk y w1.c ns1 ps1 ∧ r = nd) (x := y) (ns := ns1) (ps := ps1) e (Sim.pure ⟨rfl, rfl⟩)
        refine Sim.of_eq ?_ this
        rw [run_bind_eq]
        cases exec (resolveP .IIdentifierNode a) (mk y w1.c ns1 ps1) <;> rfl
      refine Fails.bind hrun ?_
      rintro r s ⟨rfl, rfl⟩
      rw [rep_plain hN hp, if_neg (by simp), ← hc2]
      refine Fails.left ?_
      unfold memorize_identifier
      refine Fails.get (Fails.left ?_)
      have hem := (render_em (E := E) H2 .IIdentifierNode).run [] (by decide)
      have ee : exec (runW (render E w2.c .IIdentifierNode a) []) (mk y w2.c ns1 ps1) = match exec (render E w2.c .IIdentifierNode a) [] with | .ok (_, t') => .ok (t', mk y w2.c ns1 ps1) | .error e => .error e := rfl
      unfold Fails
      rw [mk_cache, ee]
      revert hem
      cases exec (render E w2.c .IIdentifierNode a) [] with
      | ok p =>
        obtain ⟨⟨⟩, t⟩ := p
        rintro ⟨rfl, h⟩
        exact (hf h).elim
      | error e =>
        cases e with
        | crash c => intro _; trivial
        | err e => rintro ⟨rfl, _⟩; exact .inl rfl

/-! ### Parameters -/

theorem bad_plist_back {i : Nat} (hi : i < 10) (h : tb.params[i]? = none) (rest : Text) :
    BadPlist E tb (digit i ++ rest) .InvalidFunctionParameterList := by
  intro k acc n w ns ps ht
  cases k with
  | zero => exact Fails.crash (c := .fuel) rfl
  | succ k =>
    obtain ⟨c, hc, h1, h2, h3, h4, h5⟩ := digit_char hi
    rw [hc, List.singleton_append]
    refine Fails.round ?_
    unfold paramListBody
    have e1 : exec (firstIs fun x => x == '@' || x == 'Z') (mk (c :: rest) w.c ns ps) = .ok (false, mk (c :: rest) w.c ns ps) := by
      rw [firstIs_cons]
      have : ∀ c, isDigit c = true → (c == '@' || c == 'Z') = false := by
        intro c hc
        rw [Bool.eq_false_iff]
        intro h
        simp only [Bool.or_eq_true, beq_iff_eq] at h
        rcases h with rfl | rfl <;> cases hc
      simp [this c h1]
    refine Fails.step e1 (Fails.query ?_)
    rw [mk_str, is_empty_cons]
    refine Fails.step (a := some c) (s' := mk rest w.c ns ps) (by rw [tryIf_cons, if_pos h1]) ?_
    refine Fails.get (Fails.left ?_)
    have : ps[i]? = none := by
      rw [List.getElem?_eq_none_iff] at h ⊢
      rw [← ht.params.length]; exact h
    rw [h2, mk_params, this]
    exact Fails.err

theorem bad_plist_ty (h : BadTy E tb x e) : BadPlist E tb x e := by
  intro k acc n w ns ps ht
  cases k with
  | zero => exact Fails.crash (c := .fuel) rfl
  | succ k =>
    refine Fails.round ?_
    unfold paramListBody
    have hr := bad_type h n w ns ps ht
    obtain ⟨c, u, rfl, h1, h2, h3, _⟩ := tyHead_cons h.head
    have e1 : exec (firstIs fun x => x == '@' || x == 'Z') (mk (c :: u) w.c ns ps) = .ok (false, mk (c :: u) w.c ns ps) := by
      rw [firstIs_cons]
      simp [h1, h2]
    refine Fails.step e1 (Fails.query ?_)
    rw [mk_str, is_empty_cons]
    refine Fails.step (a := none) (s' := mk (c :: u) w.c ns ps) (by rw [tryIf_cons, if_neg (by simp [h3])]) (Fails.query ?_)
    exact Fails.left hr

/-- A good parameter, a bad rest. -/
theorem bad_param (h : MTy E tb t x tb1) (hy : BadPlist E tb' y e)
    (hpush : ∀ (w : World) ns ps p, Tab w tb1 ns ps → Rep w t (.H p) →
      ∀ s, ∃ ps', exec (whenB ((x ++ s).length - s.length != 1) (paramListBody.push_param p)) (mk s w.c ns ps) = .ok ((), mk s w.c ns ps') ∧ Tab w tb' ns ps') :
    BadPlist E tb (x ++ y) e := by
  intro k acc n w ns ps ht
  cases k with
  | zero => exact Fails.crash (c := .fuel) rfl
  | succ k =>
    refine Fails.next ?_
    unfold paramListBody
    obtain ⟨c, u, hx, h1, h2, h3, _⟩ := tyHead_cons h.head
    have hx' : x ++ y = c :: (u ++ y) := by rw [hx]; rfl
    have e1 : exec (firstIs fun x => x == '@' || x == 'Z') (mk (x ++ y) w.c ns ps) = .ok (false, mk (x ++ y) w.c ns ps) := by
      rw [hx', firstIs_cons]
      simp [h1, h2]
    refine Sim.step e1 (Sim.query ?_)
    rw [mk_str, not_empty_append (tyHead_ne h.head)]
    have e2 : exec (tryIf isDigit) (mk (x ++ y) w.c ns ps) = .ok (none, mk (x ++ y) w.c ns ps) := by
      rw [hx', tryIf_cons, if_neg (by simp [h3])]
    refine Sim.step e2 (Sim.query ?_)
    rw [mk_str, len_new]
    refine Runs.bind (mty_drop h n) ht fun p w1 ns1 ps1 hp1 ht1 H1 => ?_
    refine Sim.query ?_
    rw [mk_str, len_new]
    obtain ⟨w2, hc2, hp2, hv2, H2⟩ := H1.reveal hp1
    rw [← hc2]
    have hl : x.length ≠ 0 := by rw [hx]; simp
    have h4 : ¬ y.length > (x ++ y).length := by simp
    have h5 : ((x ++ y).length - y.length == 0) = false := by
      simp only [List.length_append, beq_eq_false_iff_ne] at *; omega
    rw [if_neg h4, h5, if_neg (by simp)]
    obtain ⟨ps3, e3, ht3⟩ := hpush w2 ns1 ps1 p (ht1.mono hv2) H2 y
    refine Sim.step e3 ?_
    exact Sim.pure ⟨_, rfl, hy k _ n w2 ns1 ps3 ht3⟩

theorem bad_plist_letter (h : MTy E tb t x tb1) (hl : x.length = 1) (hy : BadPlist E tb1 y e) : BadPlist E tb (x ++ y) e := by
  refine bad_param h hy fun w ns ps p ht _ s => ⟨ps, ?_, ht⟩
  have : ((x ++ s).length - s.length != 1) = false := by simp [hl]
  rw [this]; rfl

theorem bad_plist_type (h : MTy E tb t x tb1) (hl : x.length ≠ 1) (hy : BadPlist E (tb1.noteParam t) y e) : BadPlist E tb (x ++ y) e := by
  refine bad_param h hy fun w ns ps p ht hr s => ?_
  have : ((x ++ s).length - s.length != 1) = true := by simp [hl]
  rw [this]
  have hlen := ht.params.length
  unfold Spec.Tbl.noteParam
  by_cases h10 : ps.length < 10
  · refine ⟨ps ++ [p], ?_, ?_⟩
    · simp only [run, paramListBody.push_param, h10, if_true]; rfl
    · rw [if_pos (hlen ▸ h10)]
      exact ⟨ht.names, ht.params.snoc hr⟩
  · refine ⟨ps, ?_, ?_⟩
    · simp only [run, paramListBody.push_param, h10, if_false]
    · rw [if_neg (hlen ▸ h10)]
      exact ht

theorem bad_plist_digit {i : Nat} (hi : i < 10) (hget : tb.params[i]? = some t) (hy : BadPlist E tb y e) : BadPlist E tb (digit i ++ y) e := by
  intro k acc n w ns ps ht
  cases k with
  | zero => exact Fails.crash (c := .fuel) rfl
  | succ k =>
    obtain ⟨c, hc, h1, h2, h3, h4, h5⟩ := digit_char hi
    obtain ⟨p, hp, hR⟩ := ht.params.get hget
    rw [hc, List.singleton_append]
    refine Fails.next ?_
    unfold paramListBody
    have e1 : exec (firstIs fun x => x == '@' || x == 'Z') (mk (c :: y) w.c ns ps) = .ok (false, mk (c :: y) w.c ns ps) := by
      rw [firstIs_cons]
      have : ∀ c, isDigit c = true → (c == '@' || c == 'Z') = false := by
        intro c hc
        rw [Bool.eq_false_iff]
        intro h
        simp only [Bool.or_eq_true, beq_iff_eq] at h
        rcases h with rfl | rfl <;> cases hc
      simp [this c h1]
    refine Sim.step e1 (Sim.query ?_)
    rw [mk_str, is_empty_cons]
    refine Sim.step (a := some c) (s' := mk y w.c ns ps) (by rw [tryIf_cons, if_pos h1]) ?_
    refine Sim.get ?_
    rw [h2, mk_params, hp]
    refine Sim.step rfl ?_
    exact Sim.pure ⟨_, rfl, hy k _ n w ns ps ht⟩

theorem bad_params (hx : x.head? ≠ some 'X') (h : BadPlist E tb x e) :
    BadFor (fun n => demangle_function_parameter_list (fns (render E) n)) tb x e := by
  intro n w ns ps ht
  unfold demangle_function_parameter_list
  refine Fails.step (tryChar_head hx) (Fails.left ?_)
  rw [Fails, run_loop]
  exact h _ _ n w ns ps ht

theorem fails_ret {r : Fns} {β : Type} {K : Option Handle → P β} {s : St} (h : Fails (retM r >>= K) s e) :
    Fails (tryChar '@' >>= fun b => if b = true then pure none >>= K else r.type .Result >>= fun t => pure (some t) >>= K) s e := by
  refine Fails.of_eq ?_ h
  unfold retM
  simp only [run_bind_eq]
  cases exec (tryChar '@') s with
  | error e => rfl
  | ok p =>
    obtain ⟨b, s'⟩ := p
    cases b <;> simp [run]
    cases exec (r.type .Result) s' <;> rfl

/-- A function with a return type and without `this`, whose parameters are bad. -/
theorem bad_fty {r : T} (cc : Char) (hr : MRet E tb r x tb1) (hx : y.head? ≠ some 'X') (h : BadPlist E tb1 y e) :
    BadFor (fun n => demangle_function_type (fns (render E) n) false) tb (cc :: x ++ y) e := by
  intro n w ns ps ht
  unfold demangle_function_type
  refine Fails.step (a := (Qualifiers.Q_None, none)) (s' := mk (cc :: x ++ y) w.c ns ps) rfl ?_
  refine Fails.step (conv_run cc) ?_
  refine fails_ret ?_
  refine Runs.fail (hr n) ht fun o w1 ns1 ps1 hp1 ht1 H1 => ?_
  exact Fails.left (bad_params hx h n w1 ns1 ps1 ht1)

/-- The class of a global function. -/
theorem bad_fenc_global (h : BadFor (fun n => demangle_function_type (fns (render E) n) false) tb x e) :
    BadFor (fun n => demangle_function_encoding (fns (render E) n)) tb ('Y' :: x) e := by
  intro n w ns ps ht
  unfold demangle_function_encoding
  refine Fails.step (a := false) (s' := mk ('Y' :: x) w.c ns ps) (tryStr_miss _ _ _ _ _ rfl) (Fails.query ?_)
  rw [mk_str, is_empty_cons]
  refine Fails.step (a := FuncClass.FC_Global) (s' := mk x w.c ns ps) (by simp [demangle_function_class, run, functionClassOf]) ?_
  refine Fails.step (a := none) (s' := mk x w.c ns ps) rfl ?_
  exact Fails.left (h n w ns ps ht)

/-! ### Symbols -/

theorem bad_decl_scopes (h : MSname E tb t x tb1) (hy : BadScopes E tb1 y e) :
    BadFor (fun n => demangle_declarator (render E) (fns (render E) n)) tb (x ++ y) e := by
  intro n w ns ps ht
  unfold demangle_declarator
  refine Fails.left ?_
  unfold demangle_fully_qualified_symbol_name
  refine Runs.fail (h.run n) ht fun a w1 ns1 ps1 hp1 ht1 H1 => ?_
  exact Fails.left (bad_chain hy a n w1 ns1 ps1 ht1)

theorem bad_decl_func {q : T} (h : MFqs E tb q x tb1) {c : Char}
    (hc : (c == '0' || c == '1' || c == '2' || c == '3' || c == '4') = false)
    (hy : BadFor (fun n => demangle_function_encoding (fns (render E) n)) tb1 (c :: y) e) :
    BadFor (fun n => demangle_declarator (render E) (fns (render E) n)) tb (x ++ c :: y) e := by
  intro n w ns ps ht
  unfold demangle_declarator
  refine Runs.fail (h n) ht fun a w1 ns1 ps1 hp1 ht1 H1 => ?_
  refine Fails.left ?_
  unfold demangle_encoded_symbol
  refine Fails.query ?_
  refine Fails.step (a := c) (s' := mk (c :: y) w1.c ns1 ps1) rfl ?_
  rw [hc, if_neg (by simp)]
  exact Fails.left (hy n w1 ns1 ps1 ht1)

theorem bad_decl_var {q : T} {st : Char} {sc : StorageClass} (hst : (st, sc) ∈ storageCodes) (h : MFqs E tb q x tb1)
    (hy : BadTy E tb1 y e) :
    BadFor (fun n => demangle_declarator (render E) (fns (render E) n)) tb (x ++ st :: y) e := by
  intro n w ns ps ht
  unfold demangle_declarator
  refine Runs.fail (h n) ht fun a w1 ns1 ps1 hp1 ht1 H1 => ?_
  refine Fails.left ?_
  unfold demangle_encoded_symbol
  refine Fails.query ?_
  refine Fails.step (a := st) (s' := mk (st :: y) w1.c ns1 ps1) rfl ?_
  have hc : (st == '0' || st == '1' || st == '2' || st == '3' || st == '4') = true := by
    have : ∀ p ∈ storageCodes, (p.1 == '0' || p.1 == '1' || p.1 == '2' || p.1 == '3' || p.1 == '4') = true := by decide
    exact this _ hst
  rw [hc, if_pos rfl]
  refine Fails.step (storage_run hst).1 ?_
  unfold demangle_variable_encoding
  exact Fails.left (bad_type hy n w1 ns1 ps1 ht1)

theorem bad_sym (hh : specialOf x = none ∧ (c!"?@").isPrefixOf x = false)
    (h : BadFor (fun n => demangle_declarator (render E) (fns (render E) n)) {} x e) : Rejects E ('?' :: x) e := by
  refine rejects_of ?_
  refine Fails.of_eq (m := (fns (render E) (_ + 1)).parse) (do_parse_declarator hh.2 hh.1) ?_
  exact h _ [] [] [] (Tab.empty _)

end

end Undname
