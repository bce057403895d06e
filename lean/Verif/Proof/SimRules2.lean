/-
  Simulation: arrays, function types, parameters.
-/
import Verif.Proof.SimRules1

namespace Undname
open Spec (CV FnKind Sig Adjust Access T Tbl Ext cvCodes memberCvCodes ptrCodes refCodes primCode tagCode)

/-! ### Loops -/

/-- One round of a loop. -/
theorem Sim.round {β γ : Type} {k : Nat} {body : β → P (β ⊕ γ)} {b : β} {s : St} {R : γ → St → Prop}
    (h : Sim (body b) s fun r s' => (∃ b', r = .inl b' ∧ Sim (SM.iterate k body b') s' R) ∨ (∃ c, r = .inr c ∧ R c s')) :
    Sim (SM.iterate (k + 1) body b) s R := by
  unfold Sim at h ⊢
  rw [run_iterate_succ]
  revert h
  cases exec (body b) s with
  | ok p =>
    obtain ⟨r, s'⟩ := p
    rintro (⟨b', rfl, h⟩ | ⟨c, rfl, h⟩)
    · exact h
    · exact h
  | error e => cases e <;> exact id

theorem Sim.loop {β γ : Type} {body : β → P (β ⊕ γ)} {b : β} {x : Text} {c : Cache} {ns ps : List Handle} {R : γ → St → Prop}
    (h : ∀ k, Sim (SM.iterate k body b) (mk x c ns ps) R) : Sim (loopInput body b) (mk x c ns ps) R :=
  Sim.of_eq (run_loop body b x) (h _)

theorem Sim.loopB {β γ δ : Type} {body : β → P (β ⊕ γ)} {b : β} {x : Text} {c : Cache} {ns ps : List Handle} {R : γ → St → Prop}
    {k : γ → P δ} {R' : δ → St → Prop}
    (h : ∀ n, Sim (SM.iterate n body b) (mk x c ns ps) R) (hk : ∀ a s, R a s → Sim (k a) s R') :
    Sim (loopInput body b >>= k) (mk x c ns ps) R' := Sim.bind (Sim.loop h) hk

section
variable {E : Env} {tb tb' tb1 tb2 : Tbl} {t t' : T} {x y z : Text}

/-! ### Arrays -/

theorem sim_dims {dims : List Nat} (h : Spec.EncDims y dims) : ∀ (rest : Text) (acc : List Handle) (w : World) (ns ps : List Handle),
    Sim (SM.forN dims.length arrayDim acc) (mk (y ++ rest) w.c ns ps) fun hs s => ∃ w' : World, s = mk rest w'.c ns ps ∧
      w <+: w' ∧ ∃ hs', hs = acc ++ hs' ∧ Ints w' dims hs' := by
  induction h with
  | nil => intro rest acc w ns ps; exact ⟨w, rfl, List.prefix_refl _, [], by simp, trivial⟩
  | @cons x y n dims hx _ ih =>
    intro rest acc w ns ps
    show Sim (arrayDim acc >>= SM.forN dims.length arrayDim) _ _
    rw [List.append_assoc]
    refine Sim.bind (Q := fun hs s => ∃ h, hs = acc ++ [h] ∧ ∃ w' : World, s = mk (y ++ rest) w'.c ns ps ∧ w <+: w' ∧
      w'[h]? = some (.IntegerLiteral n false, true)) ?_ ?_
    · unfold arrayDim
      refine Sim.step (encNat_run hx) ?_
      refine Sim.intern true ?_
      exact ⟨_, rfl, _, rfl, prefix_push (List.prefix_refl _) _, get_push _ _⟩
    · rintro hs s ⟨h, rfl, w', rfl, hp, e⟩
      refine Sim.mono (ih rest (acc ++ [h]) w' ns ps) ?_
      rintro a s ⟨w'', rfl, hp', hs', rfl, hi⟩
      exact ⟨w'', rfl, hp.trans hp', h :: hs', by simp, get_prefix hp' e, hi⟩

theorem tyHead_noC {s : Text} (h : tyHead s = true) : (c!"$$C").isPrefixOf s = false := by
  obtain ⟨c, y, rfl, _, _, _, h5⟩ := tyHead_cons h
  by_cases hc : c = '$'
  · obtain ⟨d, z, rfl, h6 | h6 | h6⟩ := h5 hc <;> subst hc h6 <;> rfl
  · have : ('$' == c) = false := by simpa using Ne.symm hc
    simp [List.isPrefixOf, this]

theorem body_array {r : Fns} {rend : Renderer} {s : Text} {w : World} {ns ps : List Handle} :
    exec (demangle_type_body rend r) (mk ('Y' :: s) w.c ns ps) = exec (demangle_array_type r) (mk ('Y' :: s) w.c ns ps) := by
  unfold demangle_type_body
  simp only [run_bind_eq, query_mk, queryE_mk, andThen_ok, id, run_ite]
  simp [MStr.is_tag_type, MStr.is_pointer_type, MStr.is_array_type, run]

theorem sim_array {dims : List Nat} (hx : Spec.EncNat x dims.length) (hd : dims ≠ []) (hy : Spec.EncDims y dims)
    (h : MTy E tb t z tb') {u : Text} {q : CV} {qq : Qualifiers} (hq : QRel qq q)
    (hu : ∀ (rest : Text) (c : Cache) (ns ps : List Handle) {β : Type} (K : Qualifiers → P β) (R : β → St → Prop),
      Sim (K qq) (mk (z ++ rest) c ns ps) R →
      Sim (tryStr c!"$$C" >>= fun has_quals => if has_quals = true then
          (demangle_qualifiers >>= fun x => if x.2 = true then SM.err .InvalidArrayType >>= K else pure x.1 >>= K)
        else pure Qualifiers.Q_None >>= K)
        (mk (u ++ (z ++ rest)) c ns ps) R) :
    MTy E tb (.array q dims t) ('Y' :: x ++ y ++ u ++ z) tb' := by
  refine ⟨rfl, fun n rest w ns ps ht => ?_⟩
  simp only [List.append_assoc, List.cons_append]
  refine Sim.of_eq body_array ?_
  unfold demangle_array_type
  refine Sim.step (expectChar_cons _ _ _ _ _ _ _) ?_
  refine Sim.step (encNat_run hx) ?_
  have : (false || dims.length == 0) = false := by
    cases dims with
    | nil => exact (hd rfl).elim
    | cons => rfl
  simp only [this, Bool.false_eq_true, if_false]
  refine Sim.bind (sim_dims hy _ [] w ns ps) ?_
  rintro hs s ⟨w1, rfl, hp1, hs', rfl, hi⟩
  refine Sim.intern true ?_
  refine hu rest _ _ _ _ _ ?_
  have ht1 : Tab (w1 ++ [(.NodeArray hs, true)]) tb ns ps := ht.mono ((Vis.prefix hp1).trans (Vis.push _))
  refine Runs.bind (mty_drop h n) ht1 fun el w2 ns2 ps2 hp2 ht2 H2 => ?_
  obtain ⟨w3, hc3, hp3, hv3, H3⟩ := H2.reveal hp2
  rw [← hc3]
  refine sim_tyhole rfl (hp1.trans ((List.prefix_append _ _).trans hp3)) (ht2.mono hv3) ?_
  exact .array hq (get_prefix hp3 (get_push _ _)) (hi.mono ((Vis.push _).trans (Vis.prefix hp3))) H3

theorem rule_array {dims : List Nat} (hx : Spec.EncNat x dims.length) (hd : dims ≠ []) (hy : Spec.EncDims y dims)
    (h : MTy E tb t z tb') : MTy E tb (.array {} dims t) ('Y' :: x ++ y ++ z) tb' := by
  have := sim_array hx hd hy h (u := []) QRel.none (fun rest c ns ps β K R hk => by
    refine Sim.step (tryStr_miss _ _ _ _ _ (tyHead_noC (tyHead_append h.head rest))) ?_
    exact Sim.step rfl hk)
  simpa using this

theorem rule_arrayQ {dims : List Nat} {ch : Char} {q : CV} (hx : Spec.EncNat x dims.length) (hd : dims ≠ [])
    (hy : Spec.EncDims y dims) (hc : (ch, q) ∈ cvCodes) (h : MTy E tb t z tb') :
    MTy E tb (.array q dims t) ('Y' :: x ++ y ++ c!"$$C" ++ ch :: z) tb' := by
  obtain ⟨qq, hq, _⟩ := quals_run_cv (t := []) (c := []) (ns := []) (ps := []) hc
  obtain ⟨qq, b, hq, he⟩ := quals_run (cv_left hc)
  have := sim_array hx hd hy h (u := c!"$$C" ++ [ch]) hq (fun rest c ns ps β K R hk => by
    rw [List.append_assoc]
    refine Sim.step (tryStr_hit _ _ _ _ _) ?_
    obtain ⟨q', hq', e'⟩ := quals_run_cv (t := z ++ rest) (c := c) (ns := ns) (ps := ps) hc
    have e2 := he (t := z ++ rest) (c := c) (ns := ns) (ps := ps)
    rw [e'] at e2
    simp only [Except.ok.injEq, Prod.mk.injEq, and_true] at e2
    obtain ⟨rfl, rfl⟩ := e2
    exact Sim.step e' (Sim.step rfl hk))
  simpa using this

/-! ### Function types as types -/

theorem rule_fnType (h : MFty E false tb t x tb') : MTy E tb t (c!"$$A6" ++ x) tb' := by
  refine ⟨rfl, fun n rest w ns ps ht => ?_⟩
  refine Sim.of_eq (m' := demangle_function_type (fns (render E) n) false) (s' := mk (x ++ rest) w.c ns ps) ?_ ?_
  · unfold demangle_type_body
    simp [run, MStr.is_tag_type, MStr.is_pointer_type, MStr.is_array_type, MStr.is_function_type]
  · exact Sim.mono ((h n).1 rest w ns ps ht) fun a s ⟨w', ns', ps', e, h1, h2, h3⟩ => ⟨w', ns', ps', e, h1, h2, by
      rw [tyHole_of (h n).2]; exact h3⟩

theorem rule_fnTypeThis (h : MFty E true tb t x tb') : MTy E tb t (c!"$$A8@@" ++ x) tb' := by
  refine ⟨rfl, fun n rest w ns ps ht => ?_⟩
  refine Sim.of_eq (m' := demangle_function_type (fns (render E) n) true) (s' := mk (x ++ rest) w.c ns ps) ?_ ?_
  · unfold demangle_type_body
    simp [run, MStr.is_tag_type, MStr.is_pointer_type, MStr.is_array_type, MStr.is_function_type]
  · exact Sim.mono ((h n).1 rest w ns ps ht) fun a s ⟨w', ns', ps', e, h1, h2, h3⟩ => ⟨w', ns', ps', e, h1, h2, by
      rw [tyHole_of (h n).2]; exact h3⟩

theorem custom_run (h : ∀ n, Runs (demangle_unqualified_type_name (fns (render E) n) true) x tb tb' (Seen t)) : MTy E tb (.custom t) ('?' :: x ++ c!"@") tb' := by
  refine ⟨rfl, fun n rest w ns ps ht => ?_⟩
  simp only [List.append_assoc, List.cons_append, List.nil_append]
  refine Sim.of_eq (m' := demangle_custom_type (fns (render E) n)) (s' := mk ('?' :: (x ++ '@' :: rest)) w.c ns ps) ?_ ?_
  · unfold demangle_type_body
    simp [run, MStr.is_tag_type, MStr.is_pointer_type, MStr.is_array_type, MStr.is_function_type, MStr.is_custom_type]
  · unfold demangle_custom_type
    refine Sim.step (expectChar_cons _ _ _ _ _ _ _) ?_
    refine Runs.bind (h n) ht fun i w1 ns1 ps1 hp1 ht1 H1 => ?_
    refine Sim.step (tryChar_cons _ _ _ _ _ _) ?_
    exact sim_tyhole rfl hp1 ht1 (.custom H1)

theorem rule_custom (h : MUname E tb t x tb') : MTy E tb (.custom t) ('?' :: x ++ c!"@") tb' := custom_run h.run

/-! ### Return types -/

structure MTyR (E : Env) (tb : Tbl) (t : T) (x : Text) (tb' : Tbl) : Prop where
  head : x ≠ [] ∧ x.head? ≠ some '@'
  run : ∀ n, Runs ((fns (render E) n).type .Result) x tb tb' (Seen t)

theorem tyHead_ok {x : Text} (h : tyHead x = true) : x ≠ [] ∧ x.head? ≠ some '@' := by
  obtain ⟨c, y, rfl, h1, _⟩ := tyHead_cons h
  exact ⟨by simp, by simpa using h1⟩

theorem head_append {x : Text} {c : Char} (h0 : x ≠ []) (h : x.head? ≠ some c) (rest : Text) : (x ++ rest).head? ≠ some c := by
  cases x with
  | nil => exact (h0 rfl).elim
  | cons => exact h

theorem rule_resPlain (h : MTy E tb t x tb') (hx : x.head? ≠ some '?') : MTyR E tb t x tb' := by
  refine ⟨tyHead_ok h.head, fun n => ?_⟩
  refine Runs.mark (Q := TyHole t) ?_ fun w w' a hp H => H.reveal hp
  have := mty_type h (y := []) (qmm := .Result) QRel.none (fun rest c ns ps => ?_) n
  · rwa [T.addQ_none] at this
  · have e := tryChar_head (c := c) (ns := ns) (ps := ps) (head_append (tyHead_ne h.head) hx rest)
    simp only [type_quals, List.nil_append, run, e, Bool.false_eq_true, if_false]

theorem rule_resQual {ch : Char} {q : CV} (hc : (ch, q) ∈ cvCodes ++ memberCvCodes) (h : MTy E tb t x tb') :
    MTyR E tb (t.addQ q) ('?' :: ch :: x) tb' := by
  refine ⟨by simp, fun n => ?_⟩
  refine Runs.mark (Q := TyHole (t.addQ q)) ?_ fun w w' a hp H => H.reveal hp
  obtain ⟨qq, b, hq, he⟩ := quals_run hc
  refine mty_type h (y := ['?', ch]) (qmm := .Result) hq (fun rest c ns ps => ?_) n
  simp only [type_quals, List.cons_append, List.nil_append, run, he, beq_self_eq_true, if_true]

/-- The return type part of `demangle_function_type`. -/
def retM (r : Fns) : P (Option Handle) := do
  let is_structor ← tryChar '@'
  if is_structor then pure none else do
    let t ← r.type .Result
    pure (some t)

/-- An optional result. -/
def Opt (t : T) (_ w' : World) (o : Option Handle) : Prop := Rep w' t (.L o.toList)

def MRet (E : Env) (tb : Tbl) (t : T) (x : Text) (tb' : Tbl) : Prop :=
  ∀ n, Runs (retM (fns (render E) n)) x tb tb' (Opt t)

theorem rule_retNone : MRet E tb .nil c!"@" tb := by
  intro n rest w ns ps ht
  unfold retM
  refine Sim.step (tryChar_cons _ _ _ _ _ _) ?_
  exact Sim.done (List.prefix_refl _) ht .nil

theorem rule_retSome (h : MTyR E tb t x tb') : MRet E tb t.one x tb' := by
  intro n rest w ns ps ht
  unfold retM
  refine Sim.step (tryChar_head (head_append h.head.1 h.head.2 rest)) ?_
  refine Runs.bind (h.run n) ht fun i w1 ns1 ps1 hp1 ht1 H1 => ?_
  exact Sim.done hp1 ht1 (.cons H1 .nil)

/-! ### Parameters -/

/-- The results of a loop that appends to a list. -/
def More (t : T) (acc : List Handle) (_ w' : World) (hs : List Handle) : Prop :=
  ∃ hs', hs = acc ++ hs' ∧ Rep w' t (.L hs')

def MPlist (E : Env) (tb : Tbl) (t : T) (x : Text) (tb' : Tbl) : Prop :=
  ∀ n k acc rest, (rest.head? = some '@' ∨ rest.head? = some 'Z') →
    RunsAt (SM.iterate k (paramListBody (fns (render E) n)) acc) x rest tb tb' (More t acc)

theorem rule_pNil : MPlist E tb .nil [] tb := by
  intro n k acc rest hr w ns ps ht
  cases k with
  | zero => exact Sim.crash (c := .fuel) rfl
  | succ k =>
    refine Sim.round ?_
    unfold paramListBody
    have : exec (firstIs fun x => x == '@' || x == 'Z') (mk rest w.c ns ps) = .ok (true, mk rest w.c ns ps) := by
      cases rest with
      | nil => simp at hr
      | cons c rest =>
        rw [firstIs_cons]
        rcases hr with h | h <;> simp at h <;> subst h <;> rfl
    rw [List.nil_append]
    refine Sim.step this ?_
    exact .inr ⟨acc, rfl, w, ns, ps, rfl, List.prefix_refl _, ht, [], by simp, .nil⟩

theorem digit_char {i : Nat} (h : i < 10) : ∃ c, Spec.digit i = [c] ∧ isDigit c = true ∧ c.toNat - '0'.toNat = i ∧
    (c == '@' || c == 'Z') = false ∧ (c == 'X') = false ∧ (c == '@') = false := by
  have : ∀ i, i < 10 → isDigit (Char.ofNat ('0'.toNat + i)) = true ∧ (Char.ofNat ('0'.toNat + i)).toNat - '0'.toNat = i ∧
    (Char.ofNat ('0'.toNat + i) == '@' || Char.ofNat ('0'.toNat + i) == 'Z') = false ∧ (Char.ofNat ('0'.toNat + i) == 'X') = false ∧
    (Char.ofNat ('0'.toNat + i) == '@') = false := by decide
  exact ⟨_, rfl, this i h⟩

/-- Continue a loop that appends. -/
theorem more_cons {a t : T} {acc : List Handle} {h : Handle} {w w1 w2 : World} {hs : List Handle}
    (H : Rep w1 a (.H h)) (hp : w1 <+: w2) (H' : More t (acc ++ [h]) w1 w2 hs) : More (.cons a t) acc w w2 hs := by
  obtain ⟨hs', rfl, hr⟩ := H'
  exact ⟨h :: hs', by simp, .cons (H.mono (Vis.prefix hp)) hr⟩

theorem rule_pBack {i : Nat} {ts : T} (hi : i < 10) (hget : tb.params[i]? = some t) (h : MPlist E tb ts x tb') :
    MPlist E tb (.cons t ts) (Spec.digit i ++ x) tb' := by
  intro n k acc rest hr w ns ps ht
  cases k with
  | zero => exact Sim.crash (c := .fuel) rfl
  | succ k =>
    refine Sim.round ?_
    unfold paramListBody
    obtain ⟨c, hc, h1, h2, h3, _⟩ := digit_char hi
    obtain ⟨p, hp, hR⟩ := ht.params.get hget
    rw [hc, List.append_assoc, List.singleton_append]
    refine Sim.step (firstIs_cons _ _ _ _ _ _) ?_
    rw [h3]
    have h4 : exec (tryIf isDigit) (mk (c :: (x ++ rest)) w.c ns ps) = .ok (some c, mk (x ++ rest) w.c ns ps) := by
      rw [tryIf_cons, if_pos h1]
    refine Sim.query (Sim.step h4 ?_)
    refine Sim.get ?_
    simp only [run, h2, hp]
    refine Sim.step rfl ?_
    refine .inl ⟨_, rfl, ?_⟩
    refine Sim.mono (h n k (acc ++ [p]) rest hr w ns ps ht) ?_
    rintro a s ⟨w', ns', ps', e, hp', ht', hq⟩
    exact ⟨w', ns', ps', e, hp', ht', more_cons hR hp' hq⟩

end

end Undname
