/-
  What the text must have been when a type is read.
-/
import Verif.Proof.AccScopes

namespace Undname
open Spec (CV FnKind Sig Adjust AdjKind Access T Tbl Ext Name Fits Cat Gram cvCodes memberCvCodes refCodes ptrCodes primCode tagCode)

section
variable {E : Env} {n : Nat} {tb tb' : Tbl} {s x R : Text} {w : World} {ns ps : List Handle} {cat : Cat}

/-! ### Recursive calls -/

theorem drop_bind (hn : AccN E n) {β : Type} {k : Handle → P β} {Q : β → St → Prop} (ht : Tab w tb ns ps)
    (hk : ∀ x R t tb', s = x ++ R → Gram E .ty tb t x tb' → ∀ a (w' : World) ns' ps', w <+: w' → Tab w' tb' ns' ps' → TyHole t w w' a →
      After (k a) (mk R w'.c ns' ps') Q) : After ((fns (render E) n).type .Drop >>= k) (mk s w.c ns ps) Q :=
  Acc.bind hn.drop (fun hg => mty_drop (gram_reads hg) n) ht hk

theorem result_bind (hn : AccN E n) {β : Type} {k : Handle → P β} {Q : β → St → Prop} (ht : Tab w tb ns ps)
    (hk : ∀ x R t tb', s = x ++ R → Gram E .tyR tb t x tb' → ∀ a (w' : World) ns' ps', w <+: w' → Tab w' tb' ns' ps' → Seen t w w' a →
      After (k a) (mk R w'.c ns' ps') Q) : After ((fns (render E) n).type .Result >>= k) (mk s w.c ns ps) Q :=
  Acc.bind hn.result (fun hg => (gram_reads hg).run n) ht hk

theorem qtn_bind (hn : AccN E n) {β : Type} {k : Handle → P β} {Q : β → St → Prop} (ht : Tab w tb ns ps)
    (hk : ∀ x R t tb', s = x ++ R → Gram E .qtn tb t x tb' → ∀ a (w' : World) ns' ps', w <+: w' → Tab w' tb' ns' ps' → Seen t w w' a →
      After (k a) (mk R w'.c ns' ps') Q) : After (demangle_fully_qualified_type_name (render E) (fns (render E) n) >>= k) (mk s w.c ns ps) Q :=
  Acc.bind (qtn_inv hn) (fun hg => (gram_reads hg).1 n) ht hk

/-! ### Function types -/

theorem ret_inv (hn : AccN E n) : Acc E .ret (retM (fns (render E) n)) := by
  intro tb s w ns ps ht
  unfold retM
  refine After.tryChar (fun u e => ?_) fun _ => ?_
  · subst e
    exact After.now ⟨c!"@", u, _, _, rfl, .retNone⟩
  · refine result_bind hn ht fun x R t tb' e hg _ _ _ _ _ _ _ => ?_
    exact After.now ⟨x, R, _, _, e, .retSome hg⟩

theorem After.ret {r : Fns} {β : Type} {K : Option Handle → P β} {s : St} {R : β → St → Prop} (h : After (retM r >>= K) s R) :
    After (Undname.tryChar '@' >>= fun b => if b = true then Pure.pure none >>= K else r.type .Result >>= fun t => Pure.pure (some t) >>= K) s R := by
  refine After.of_eq ?_ h
  unfold retM
  simp only [run_bind_eq]
  cases exec (Undname.tryChar '@') s with
  | error e => rfl
  | ok p =>
    obtain ⟨b, s'⟩ := p
    cases b <;> simp [run]
    cases exec (r.type .Result) s' <;> rfl

/-- A list of parameters, and what ends it. -/
def TookList (E : Env) (tb : Tbl) (s : Text) : Prop :=
  ∃ x c R t tb', s = x ++ c :: R ∧ (c = '@' ∨ c = 'Z') ∧ Gram E .plist tb t x tb'

theorem param_leads (hn : AccN E n) {acc : List Handle} (ht : Tab w tb ns ps) :
    After (paramListBody (fns (render E) n) acc) (mk s w.c ns ps) fun r st => match r with
      | .inr _ => TookList E tb s
      | .inl _ => ∃ R, ∃ w' : World, ∃ ns' ps' tb', st = mk R w'.c ns' ps' ∧ Tab w' tb' ns' ps' ∧ (TookList E tb' R → TookList E tb s) := by
  unfold paramListBody
  refine After.firstIs (fun y u e hy => ?_) fun _ => ?_
  · subst e
    refine After.pure ?_
    exact ⟨[], y, u, _, _, rfl, by simpa using hy, .pNil⟩
  refine After.query ?_
  refine After.iteB (fun _ => After.err) fun _ => ?_
  refine After.tryIf (fun y u e hy => ?_) fun _ => ?_
  · subst e
    obtain ⟨d, hd, rfl⟩ := isDigit_of hy
    refine After.get (After.okOr fun p hp => ?_)
    have : (Char.ofNat ('0'.toNat + d)).toNat - '0'.toNat = d :=
      (by decide : ∀ d, d < 10 → (Char.ofNat ('0'.toNat + d)).toNat - '0'.toNat = d) d hd
    rw [this] at hp
    obtain ⟨t, h1, _⟩ := ht.params.get' hp
    refine After.pure ⟨u, w, ns, ps, tb, rfl, ht, ?_⟩
    rintro ⟨x, c, R, t', tb', rfl, hc, hg⟩
    exact ⟨Spec.digit d ++ x, c, R, _, _, rfl, hc, .pBack hd h1 hg⟩
  refine After.query ?_
  refine drop_bind hn ht fun x R t tb' e hg a w' ns' ps' hp ht' H => ?_
  subst e
  refine After.query ?_
  rw [mk_str, len_new, mk_str, len_new]
  refine After.ite (fun _ => After.crash) fun _ => ?_
  refine After.iteB (fun _ => After.err) fun _ => ?_
  obtain ⟨w2, hc2, hp2, hv2, H2⟩ := H.reveal hp
  rw [← hc2]
  by_cases hl : x.length = 1
  · have : ((x ++ R).length - R.length != 1) = false := by simp [hl]
    rw [this]
    refine After.step rfl (After.pure ⟨R, w2, ns', ps', tb', rfl, ht'.mono hv2, ?_⟩)
    rintro ⟨y, c, R', t', tb'', rfl, hc, hg'⟩
    exact ⟨x ++ y, c, R', _, _, by simp, hc, .pLetter hg hl hg'⟩
  · have hne : ((x ++ R).length - R.length != 1) = true := by simp [hl]
    have hlen := (ht'.mono hv2).params.length
    have key : ∃ ps3, exec (whenB ((x ++ R).length - R.length != 1) (paramListBody.push_param a)) (mk R w2.c ns' ps') = .ok ((), mk R w2.c ns' ps3) ∧
        Tab w2 (tb'.noteParam t) ns' ps3 := by
      rw [hne]
      unfold Spec.Tbl.noteParam
      by_cases h10 : ps'.length < 10
      · refine ⟨ps' ++ [a], ?_, ?_⟩
        · simp only [run, paramListBody.push_param, h10, if_true]; rfl
        · rw [if_pos (hlen ▸ h10)]
          exact ⟨(ht'.mono hv2).names, (ht'.mono hv2).params.snoc H2⟩
      · refine ⟨ps', ?_, ?_⟩
        · simp only [run, paramListBody.push_param, h10, if_false]
        · rw [if_neg (hlen ▸ h10)]
          exact ht'.mono hv2
    obtain ⟨ps3, e3, ht3⟩ := key
    refine After.step e3 (After.pure ⟨R, w2, ns', ps3, _, rfl, ht3, ?_⟩)
    rintro ⟨y, c, R', t', tb'', rfl, hc, hg'⟩
    exact ⟨x ++ y, c, R', _, _, by simp, hc, .pType hg hl hg'⟩

theorem plist_inv (hn : AccN E n) (k : Nat) : ∀ (acc : List Handle) {tb : Tbl} {s : Text} {w : World} {ns ps : List Handle}, Tab w tb ns ps →
    Wh (SM.iterate k (paramListBody (fns (render E) n)) acc) (mk s w.c ns ps) (TookList E tb s) := by
  induction k with
  | zero => intros; exact After.iter_zero
  | succ k ih =>
    intro acc tb s w ns ps ht
    refine After.round (After.mono (param_leads hn ht) ?_)
    rintro (a | a) st h
    · obtain ⟨R, w', ns', ps', tb', rfl, ht', hl⟩ := h
      exact After.mono (ih _ ht') fun _ _ h => hl h
    · exact h

/-- A parameter list with its end, variadic or not. -/
def TookParams (E : Env) (tb : Tbl) (s : Text) : Prop := ∃ v, Took E (.params v) tb s

theorem params_inv (hn : AccN E n) (ht : Tab w tb ns ps) : Wh (demangle_function_parameter_list (fns (render E) n)) (mk s w.c ns ps) (TookParams E tb s) := by
  unfold demangle_function_parameter_list
  refine After.tryChar (fun u e => ?_) fun hX => ?_
  · subst e
    exact After.now ⟨false, c!"X", u, _, _, rfl, .pVoid⟩
  refine After.know (X := TookList E tb s) (After.loop fun k => plist_inv hn k [] ht) ?_
  rintro ⟨x, c, R, t, tb', rfl, hc, hg⟩
  have hX' : x.head? ≠ some 'X' := by
    cases x with
    | nil => simp
    | cons => exact hX
  refine After.now ?_
  rcases hc with rfl | rfl
  · exact ⟨false, x ++ c!"@", R, _, _, by simp, .pFixed hg hX'⟩
  · exact ⟨true, x ++ c!"Z", R, _, _, by simp, .pVariadic hg hX'⟩

/-- A function type after the qualifiers of `this`. -/
theorem fn_tail (hn : AccN E n) (qq : Qualifiers) (rq : Option FunctionRefQualifier) (ht : Tab w tb ns ps) : Wh (do
    let call_convention ← demangle_calling_convention
    let is_structor ← tryChar '@'
    let return_type ← if is_structor then pure none else do
      let t ← (fns (render E) n).type .Result
      pure (some t)
    let (params, is_variadic) ← demangle_function_parameter_list (fns (render E) n)
    let is_noexcept ← demangle_throw_specification
    intern (.FunctionSignature
      { quals := qq, call_convention := call_convention, ref_qualifier := rq,
        return_type := return_type, is_variadic := is_variadic, params := params,
        is_noexcept := is_noexcept })) (mk s w.c ns ps)
    (∃ cc x tb1 r y tb' v p noexc R, s = cc :: x ++ y ++ Spec.throwCode noexc ++ R ∧ Gram E .ret tb r x tb1 ∧ Gram E (.params v) tb1 p y tb') := by
  cases s with
  | nil => exact After.bind_error rfl
  | cons cc s =>
    refine After.step (conv_run cc) ?_
    refine After.ret ?_
    refine Acc.bind (ret_inv hn) (fun hg => gram_reads hg n) ht fun x R r tb1 e hg a w1 ns1 ps1 hp1 ht1 H1 => ?_
    subst e
    refine After.know (params_inv hn ht1) ?_
    rintro ⟨v, y, R', p, tb', rfl, hg'⟩
    refine Runs.post (gram_reads hg' n) ht1 fun a w2 ns2 ps2 hp2 ht2 H2 => ?_
    refine After.know throw_inv ?_
    rintro ⟨b, R'', rfl⟩
    exact After.now ⟨cc, x, tb1, r, y, tb', v, p, b, R'', by simp, hg, hg'⟩

theorem fty_inv (hn : AccN E n) (b : Bool) : Acc E (.fty b) (demangle_function_type (fns (render E) n) b) := by
  intro tb s w ns ps ht
  unfold demangle_function_type
  cases b with
  | false =>
    refine After.step (a := (Qualifiers.Q_None, none)) rfl ?_
    refine After.mono (fn_tail hn _ _ ht) ?_
    rintro _ _ ⟨cc, x, tb1, r, y, tb', v, p, noexc, R, rfl, hg, hg'⟩
    exact ⟨_, R, _, _, rfl, .fn cc noexc hg hg'⟩
  | true =>
    refine After.bind (Q := fun _ st => ∃ (e : Ext) (rf : _) (ch : Char) (q : CV) (u : Text), (ch, q) ∈ cvCodes ++ memberCvCodes ∧
      s = e.code ++ Spec.refCode rf ++ ch :: u ∧ st = mk u w.c ns ps) ?_ ?_
    · unfold function_this_quals
      rw [if_pos rfl]
      refine After.ext fun e u q e1 => After.refq fun rf u' e2 => ?_
      subst e1 e2
      refine After.know quals_inv ?_
      rintro ⟨ch, q, u, rfl, hq⟩
      obtain ⟨qq, b, _, he⟩ := quals_run hq
      refine After.step he (After.pure ⟨e, rf, ch, q, u, hq, by simp, rfl⟩)
    · rintro ⟨qq, rq⟩ _ ⟨e, rf, ch, q, u, hq, rfl, rfl⟩
      refine After.mono (fn_tail hn qq rq ht) ?_
      rintro _ _ ⟨cc, x, tb1, r, y, tb', v, p, noexc, R, rfl, hg, hg'⟩
      exact ⟨_, R, _, _, by simp, .fnThis e rf cc noexc hq hg hg'⟩

/-! ### Pointers -/

theorem ptr_of_ref {code : Text} {cv : CV} (h : (code, cv, PointerAffinity.Pointer) ∈ refCodes) : (code, cv) ∈ ptrCodes := by
  simp only [refCodes, List.mem_cons, List.not_mem_nil, or_false, Prod.mk.injEq] at h
  rcases h with ⟨rfl, rfl, _⟩ | ⟨rfl, rfl, _⟩ | ⟨rfl, rfl, _⟩ | ⟨rfl, rfl, _⟩ | ⟨rfl, rfl, h⟩ | ⟨rfl, rfl, h⟩ <;> first | decide | cases h

/-- The digit of a member function pointer comes directly after the code. -/
theorem probe_eight {code : Text} {cv : CV} (hc : (code, cv) ∈ ptrCodes) (e : Ext) (u : Text) {b : Bool}
    (h : MStr.is_member_pointer (MStr.new (code ++ (e.code ++ '8' :: u))) = .ok (some b)) : e.code = [] := by
  have key : ∀ c : Char, (c == '$' || c == 'A') = false → (c == 'P' || c == 'Q' || c == 'R' || c == 'S') = true →
      MStr.is_member_pointer (MStr.new (c :: (e.code ++ '8' :: u))) = .ok (some b) → e.code = [] := by
    intro c h1 h2 h
    rw [is_member_eq] at h
    unfold MStr.member_pointer_probe at h
    simp only [run_bind_eq, any_cons, andThen_ok, h1, h2, if_true, Bool.false_eq_true, if_false] at h
    obtain ⟨e, i, f⟩ := e
    have d1 : isDigit 'E' = false := rfl
    have d2 : isDigit 'I' = false := rfl
    have d3 : isDigit 'F' = false := rfl
    revert h
    cases e <;> cases i <;> cases f <;> simp [Ext.code, char_if_cons, char_cons, run, d1, d2, d3]
  simp only [ptrCodes, List.mem_cons, List.not_mem_nil, or_false, Prod.mk.injEq] at hc
  rcases hc with ⟨rfl, rfl⟩ | ⟨rfl, rfl⟩ | ⟨rfl, rfl⟩ | ⟨rfl, rfl⟩ <;> exact key _ rfl rfl h

theorem pointer_inv (hn : AccN E n) (ht : Tab w tb ns ps) (hm : MStr.is_member_pointer (MStr.new s) = .ok (some false)) :
    Wh (demangle_pointer_type (fns (render E) n)) (mk s w.c ns ps) (Took E .ty tb s) := by
  unfold demangle_pointer_type
  refine After.know pcv_inv ?_
  rintro ⟨code, cv, a, u, rfl, hc⟩
  obtain ⟨q1, hq1, e1⟩ := pcv_run (t := u) (c := w.c) (ns := ns) (ps := ps) hc
  refine After.step e1 ?_
  dsimp only
  refine After.tryChar (fun v e => ?_) fun _ => ?_
  · subst e
    refine After.know (fty_inv hn false ht) ?_
    rintro ⟨x, R, t, tb', rfl, hg⟩
    exact After.now ⟨code ++ '6' :: x, R, _, _, by simp, .ptrFn hc hg⟩
  · refine After.ext fun e v q ev => ?_
    subst ev
    refine After.know (hn.mangle ht) ?_
    rintro ⟨ch, q, v', hq, rfl, x, R, t, tb', rfl, hg⟩
    refine After.now ?_
    rcases List.mem_append.1 hq with hq | hq
    · exact ⟨code ++ e.code ++ ch :: x, R, _, _, by simp, .ptr e hc hq hg⟩
    · by_cases ha : a = .Pointer
      · subst ha
        rw [member_true_ext (ptr_of_ref hc) hq] at hm
        cases hm
      · exact ⟨code ++ e.code ++ ch :: x, R, _, _, by simp, .ptrRefMember e hc ha hq hg⟩

theorem member_pointer_inv (hn : AccN E n) (ht : Tab w tb ns ps) (hm : MStr.is_member_pointer (MStr.new s) = .ok (some true)) :
    Wh (demangle_member_pointer_type (render E) (fns (render E) n)) (mk s w.c ns ps) (Took E .ty tb s) := by
  unfold demangle_member_pointer_type
  refine After.know pcv_inv ?_
  rintro ⟨code, cv, a, u, rfl, hc⟩
  obtain ⟨q1, hq1, e1⟩ := pcv_run (t := u) (c := w.c) (ns := ns) (ps := ps) hc
  refine After.step e1 ?_
  dsimp only
  refine After.iteB (fun _ => After.err) fun ha => ?_
  obtain rfl : a = .Pointer := by cases a <;> first | rfl | cases ha
  replace hc := ptr_of_ref hc
  refine After.ext fun e v q ev => ?_
  subst ev
  refine After.tryChar (fun v' e' => ?_) fun _ => ?_
  · subst e'
    have he := probe_eight hc e v' hm
    refine qtn_bind hn ht fun x R t tb1 e' hg a w1 ns1 ps1 hp1 ht1 H1 => ?_
    subst e'
    refine After.know (fty_inv hn true ht1) ?_
    rintro ⟨y, R', t', tb', rfl, hg'⟩
    exact After.now ⟨code ++ '8' :: x ++ y, R', _, _, by simp [he], .ptrMemberFn hc hg hg'⟩
  · refine After.know quals_inv ?_
    rintro ⟨ch, q, v', rfl, hq⟩
    rcases List.mem_append.1 hq with hq | hq
    · obtain ⟨q3, hq3, e3⟩ := quals_run_cv (t := v') (c := w.c) (ns := ns) (ps := ps) hq
      refine After.step e3 ?_
      exact After.err
    · obtain ⟨q3, hq3, e3⟩ := quals_run_member (t := v') (c := w.c) (ns := ns) (ps := ps) hq
      refine After.step e3 ?_
      refine qtn_bind hn ht fun x R t tb1 e' hg a w1 ns1 ps1 hp1 ht1 H1 => ?_
      subst e'
      refine drop_bind hn ht1 fun y R' t' tb' e' hg' _ _ _ _ _ _ _ => ?_
      subst e'
      exact After.now ⟨code ++ e.code ++ ch :: x ++ y, R', _, _, by simp, .ptrMember e hc hq hg hg'⟩

/-! ### Arrays -/

theorem dims_inv (k : Nat) : ∀ (acc : List Handle) (s : Text) (w : World),
    Wh (SM.forN k arrayDim acc) (mk s w.c ns ps) (∃ x dims R, s = x ++ R ∧ dims.length = k ∧ Spec.EncDims x dims) := by
  induction k with
  | zero => intro acc s w; exact After.now ⟨[], [], s, rfl, rfl, .nil⟩
  | succ k ih =>
    intro acc s w
    show Wh (arrayDim acc >>= SM.forN k arrayDim) _ _
    refine After.bind (Q := fun _ st => ∃ x m R, s = x ++ R ∧ Spec.EncNat x m ∧ ∃ w' : World, st = mk R w'.c ns ps) ?_ ?_
    · unfold arrayDim
      refine After.know number_inv ?_
      rintro ⟨x, m, neg, R, rfl, hx⟩
      refine After.step (encInt_run hx) ?_
      cases hx with
      | neg hx => exact After.err
      | pos hx => exact After.intern true (After.pure ⟨x, m, R, rfl, hx, _, rfl⟩)
    · rintro acc' _ ⟨x, m, R, rfl, hx, w', rfl⟩
      refine After.mono (ih acc' R w') ?_
      rintro _ _ ⟨y, dims, R', rfl, hl, hd⟩
      exact ⟨x ++ y, m :: dims, R', by simp, by simp [hl], .cons hx hd⟩

theorem array_inv (hn : AccN E n) (ht : Tab w tb ns ps) : Wh (demangle_array_type (fns (render E) n)) (mk s w.c ns ps) (Took E .ty tb s) := by
  unfold demangle_array_type
  refine After.expectChar fun s e => ?_
  subst e
  refine After.know number_inv ?_
  rintro ⟨x, m, neg, R, rfl, hx⟩
  refine After.step (encInt_run hx) ?_
  dsimp only
  refine After.iteB (fun _ => After.err) fun hne => ?_
  simp only [Bool.or_eq_false_iff, beq_eq_false_iff_ne] at hne
  obtain ⟨rfl, h0⟩ := hne
  cases hx with
  | pos hx =>
    refine After.know (dims_inv m [] R w) ?_
    rintro ⟨y, dims, R', rfl, hl, hd⟩
    have hd0 : dims ≠ [] := by rintro rfl; exact h0 hl.symm
    subst hl
    refine After.simB (sim_dims hd R' [] w ns ps) ?_
    rintro hs _ ⟨w1, rfl, hp1, _⟩
    refine After.intern true ?_
    have ht1 : Tab (w1 ++ [(.NodeArray hs, true)]) tb ns ps := ht.mono ((Vis.prefix hp1).trans (Vis.push _))
    refine After.tryStr (fun u e => ?_) fun _ => ?_
    · subst e
      refine After.know quals_inv ?_
      rintro ⟨ch, q, v, rfl, hq⟩
      rcases List.mem_append.1 hq with hq | hq
      · obtain ⟨q3, hq3, e3⟩ := quals_run_cv (t := v) (c := World.c (w1 ++ [(.NodeArray hs, true)])) (ns := ns) (ps := ps) hq
        refine After.step e3 (After.step rfl ?_)
        refine drop_bind hn ht1 fun z R'' t tb' e hg _ _ _ _ _ _ _ => ?_
        subst e
        exact After.now ⟨'Y' :: x ++ y ++ c!"$$C" ++ ch :: z, R'', _, _, by simp, .arrayQ hx hd0 hd hq hg⟩
      · obtain ⟨q3, hq3, e3⟩ := quals_run_member (t := v) (c := World.c (w1 ++ [(.NodeArray hs, true)])) (ns := ns) (ps := ps) hq
        exact After.step e3 After.errB
    · refine After.step rfl ?_
      refine drop_bind hn ht1 fun z R'' t tb' e hg _ _ _ _ _ _ _ => ?_
      subst e
      exact After.now ⟨'Y' :: x ++ y ++ z, R'', _, _, by simp, .array hx hd0 hd hg⟩

/-! ### All types -/

theorem class_type_inv (hn : AccN E n) (ht : Tab w tb ns ps) : Wh (demangle_class_type (render E) (fns (render E) n)) (mk s w.c ns ps) (Took E .ty tb s) := by
  have key : ∀ (k : TagKind) {β : Type} (K : Handle → P β) (u : Text),
      Wh (demangle_fully_qualified_type_name (render E) (fns (render E) n) >>= K) (mk u w.c ns ps) (Took E .ty tb (tagCode k ++ u)) := by
    intro k β K u
    refine qtn_bind hn ht fun x R t tb' e hg _ _ _ _ _ _ _ => ?_
    subst e
    exact After.now ⟨tagCode k ++ x, R, _, _, by simp, .tag k hg⟩
  unfold demangle_class_type
  refine After.expectAny fun y u e => ?_
  subst e
  split
  · exact After.step rfl (key .Union _ u)
  · exact After.step rfl (key .Struct _ u)
  · exact After.step rfl (key .Class _ u)
  · refine After.tryChar (fun v e => ?_) fun _ => ?_
    · subst e
      exact After.step rfl (key .Enum _ v)
    · exact After.errB
  · exact After.errB

theorem custom_inv (hn : AccN E n) (ht : Tab w tb ns ps) : Wh (demangle_custom_type (fns (render E) n)) (mk s w.c ns ps) (Took E .ty tb s) := by
  unfold demangle_custom_type
  refine After.expectChar fun s e => ?_
  subst e
  refine After.know (uname_inv hn ht) ?_
  rintro (⟨x, R, t, tb', rfl, hg⟩ | ⟨u, R, e, hu, hd⟩)
  · refine Runs.post ((gram_reads hg).run n) ht fun a w1 ns1 ps1 hp1 ht1 _ => ?_
    refine After.tryChar (fun v e => ?_) fun _ => After.err
    subst e
    exact After.now ⟨'?' :: x ++ c!"@", v, _, _, by simp, .custom hg⟩
  · have e : s = '?' :: u ++ c!"@" ++ R := by simp [e]
    subst e
    refine Runs.post (odd_name hu hd n) ht fun a w1 ns1 ps1 hp1 ht1 _ => ?_
    refine After.tryChar (fun v e => ?_) fun _ => After.err
    subst e
    exact After.now ⟨c!"??" ++ u ++ c!"@@", v, _, _, by simp, .customOdd hu hd⟩

theorem body_inv (hn : AccN E n) : Acc E .ty (demangle_type_body (render E) (fns (render E) n)) := by
  intro tb s w ns ps ht
  unfold demangle_type_body
  refine After.query ?_
  refine After.iteB (fun _ => class_type_inv hn ht) fun _ => ?_
  refine After.iteB (fun _ => ?_) fun _ => ?_
  · refine After.queryE fun k hk => ?_
    cases k with
    | none => exact After.err
    | some b =>
      cases b with
      | true => exact member_pointer_inv hn ht hk
      | false => exact pointer_inv hn ht hk
  refine After.iteB (fun _ => array_inv hn ht) fun _ => ?_
  refine After.iteB (fun _ => ?_) fun _ => ?_
  · refine After.tryStr (fun u e => ?_) fun _ => ?_
    · subst e
      refine After.iteB (fun _ => ?_) (by simp)
      refine After.mono (fty_inv hn true ht) ?_
      rintro _ _ ⟨x, R, t, tb', rfl, hg⟩
      exact ⟨c!"$$A8@@" ++ x, R, _, _, by simp, .fnTypeThis hg⟩
    · refine After.iteB (by simp) fun _ => ?_
      refine After.tryStr (fun u e => ?_) fun _ => ?_
      · subst e
        refine After.iteB (fun _ => ?_) (by simp)
        refine After.mono (fty_inv hn false ht) ?_
        rintro _ _ ⟨x, R, t, tb', rfl, hg⟩
        exact ⟨c!"$$A6" ++ x, R, _, _, by simp, .fnType hg⟩
      · exact After.iteB (by simp) fun _ => After.err
  refine After.iteB (fun _ => custom_inv hn ht) fun _ => ?_
  unfold demangle_primitive_type
  refine After.know prim_inv ?_
  rintro ⟨k, u, rfl⟩
  exact After.now ⟨primCode k, u, _, _, rfl, .prim k⟩

theorem type_drop (hn : AccN E n) : Acc E .ty (demangle_type (render E) (fns (render E) n) .Drop) := by
  intro tb s w ns ps ht
  unfold demangle_type
  refine After.step (a := Qualifiers.Q_None) rfl (After.query ?_)
  refine After.iteB (fun _ => After.err) fun _ => ?_
  exact After.know (body_inv hn ht) fun h => After.now h

theorem type_mangle (hn : AccN E n) (ht : Tab w tb ns ps) : Wh (demangle_type (render E) (fns (render E) n) .Mangle) (mk s w.c ns ps)
    (∃ ch q s', (ch, q) ∈ cvCodes ++ memberCvCodes ∧ s = ch :: s' ∧ Took E .ty tb s') := by
  unfold demangle_type
  have hq : Wh (type_quals .Mangle) (mk s w.c ns ps) (∃ ch q u, s = ch :: u ∧ (ch, q) ∈ cvCodes ++ memberCvCodes) := by
    unfold type_quals
    exact After.know quals_inv fun h => After.now h
  refine After.know hq ?_
  rintro ⟨ch, q, u, rfl, hc⟩
  obtain ⟨qq, b, _, he⟩ := quals_run hc
  refine After.step (a := qq) (s' := mk u w.c ns ps) ?_ (After.query ?_)
  · simp only [type_quals, run, he]
  refine After.iteB (fun _ => After.err) fun _ => ?_
  exact After.know (body_inv hn ht) fun h => After.now ⟨ch, q, u, hc, rfl, h⟩

theorem type_result (hn : AccN E n) : Acc E .tyR (demangle_type (render E) (fns (render E) n) .Result) := by
  intro tb s w ns ps ht
  unfold demangle_type
  by_cases hq : ∃ u, s = '?' :: u
  · obtain ⟨u, rfl⟩ := hq
    have hq : Wh (type_quals .Result) (mk ('?' :: u) w.c ns ps) (∃ ch q v, u = ch :: v ∧ (ch, q) ∈ cvCodes ++ memberCvCodes) := by
      unfold type_quals
      refine After.step (tryChar_cons _ _ _ _ _ _) ?_
      exact After.know quals_inv fun h => After.now h
    refine After.know hq ?_
    rintro ⟨ch, q, v, rfl, hc⟩
    obtain ⟨qq, b, _, he⟩ := quals_run hc
    refine After.step (a := qq) (s' := mk v w.c ns ps) ?_ (After.query ?_)
    · simp only [type_quals, run, he, beq_self_eq_true, if_true]
    refine After.iteB (fun _ => After.err) fun _ => ?_
    refine After.know (body_inv hn ht) ?_
    rintro ⟨x, R, t, tb', rfl, hg⟩
    exact After.now ⟨'?' :: ch :: x, R, _, _, rfl, .resQual hc hg⟩
  · have hh : s.head? ≠ some '?' := by
      intro h
      cases s with
      | nil => cases h
      | cons c s => cases h; exact hq ⟨s, rfl⟩
    have e := tryChar_head (c := w.c) (ns := ns) (ps := ps) hh
    refine After.step (a := Qualifiers.Q_None) (s' := mk s w.c ns ps) ?_ (After.query ?_)
    · simp only [type_quals, run, e, Bool.false_eq_true, if_false]
    refine After.iteB (fun _ => After.err) fun _ => ?_
    refine After.know (body_inv hn ht) ?_
    rintro ⟨x, R, t, tb', rfl, hg⟩
    refine After.now ⟨x, R, _, _, rfl, .resPlain hg ?_⟩
    intro h
    cases x with
    | nil => cases h
    | cons => exact hh h

end

end Undname
