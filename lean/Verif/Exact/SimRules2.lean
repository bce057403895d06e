/-
  Simulation: arrays, function types, parameters.
-/
import Verif.Exact.SimRules1

namespace Undname.Ex
open Spec (CV FnKind Sig Adjust Access T Tbl Ext cvCodes memberCvCodes ptrCodes refCodes primCode tagCode)

/-! ### Loops -/

/-- One round of a loop. -/
theorem Sim.round {N : Nat} {β γ : Type} {k : Nat} {body : β → P (β ⊕ γ)} {b : β} {s : St} {R : γ → St → Prop}
    (h : Sim N (body b) s fun r s' => (∃ b', r = .inl b' ∧ Sim N (SM.iterate k body b') s' R) ∨ (∃ c, r = .inr c ∧ R c s')) :
    Sim N (SM.iterate (k + 1) body b) s R := by
  unfold Sim at h ⊢
  rw [run_iterate_succ]
  revert h
  cases exec (body b) s with
  | ok p =>
    obtain ⟨r, s'⟩ := p
    rintro (⟨b', rfl, h⟩ | ⟨c, rfl, h⟩)
    · exact h
    · exact h
  | error e => cases e <;> exact id

theorem Sim.loop {N : Nat} {β γ : Type} {body : β → P (β ⊕ γ)} {b : β} {x : Text} {c : Cache} {ns ps : List Handle} {R : γ → St → Prop}
    (h : ∀ k, Sim N (SM.iterate k body b) (mk x c ns ps) R) : Sim N (loopInput body b) (mk x c ns ps) R :=
  Sim.of_eq (run_loop body b x) (h _)

theorem Sim.loopB {N : Nat} {β γ δ : Type} {body : β → P (β ⊕ γ)} {b : β} {x : Text} {c : Cache} {ns ps : List Handle} {R : γ → St → Prop}
    {k : γ → P δ} {R' : δ → St → Prop}
    (h : ∀ n, Sim N (SM.iterate n body b) (mk x c ns ps) R) (hk : ∀ a s, R a s → Sim N (k a) s R') :
    Sim N (loopInput body b >>= k) (mk x c ns ps) R' := Sim.bind (Sim.loop h) hk

section
variable {E : Env} {tb tb' tb1 tb2 : Tbl} {t t' : T} {x y z : Text} {k1 k2 k3 k4 : Nat} {N : Nat}

/-! ### Arrays -/

theorem sim_dims {dims : List Nat} (h : Spec.EncDims y dims) : ∀ (rest : Text) (acc : List Handle) (w : World) (ns ps : List Handle) (N : Nat),
    w.length + dims.length ≤ N →
    Sim N (SM.forN dims.length arrayDim acc) (mk (y ++ rest) w.c ns ps) fun hs s => ∃ w' : World, s = mk rest w'.c ns ps ∧
      w'.length = w.length + dims.length ∧ w <+: w' ∧ ∃ hs', hs = acc ++ hs' ∧ Ints w' dims hs' := by
  induction h with
  | nil => intro rest acc w ns ps N _; exact ⟨w, rfl, by nodes, List.prefix_refl _, [], by simp, trivial⟩
  | @cons x y n dims hx _ ih =>
    intro rest acc w ns ps N hN
    show Sim _ (arrayDim acc >>= SM.forN dims.length arrayDim) _ _
    rw [List.append_assoc]
    refine Sim.bind (Q := fun hs s => ∃ h, hs = acc ++ [h] ∧ ∃ w' : World, s = mk (y ++ rest) w'.c ns ps ∧
      w'.length = w.length + 1 ∧ w <+: w' ∧ w'[h]? = some (.IntegerLiteral n false, true)) ?_ ?_
    · unfold arrayDim
      refine Sim.step (encNat_run hx) ?_
      refine Sim.intern true ?_
      exact ⟨_, rfl, _, rfl, by nodes, prefix_push (List.prefix_refl _) _, get_push _ _⟩
    · rintro hs s ⟨h, rfl, w', rfl, hl, hp, e⟩
      refine Sim.mono (ih rest (acc ++ [h]) w' ns ps N (by nodes)) ?_
      rintro a s ⟨w'', rfl, hl', hp', hs', rfl, hi⟩
      exact ⟨w'', rfl, by nodes, hp.trans hp', h :: hs', by simp, get_prefix hp' e, hi⟩

theorem sim_array {dims : List Nat} (hx : Spec.EncNat x dims.length) (hd : dims ≠ []) (hy : Spec.EncDims y dims)
    (h : MTy E tb t z tb' k1) {u : Text} {q : CV} {qq : Qualifiers} (hq : QRel qq q)
    (hu : ∀ (N : Nat) (rest : Text) (c : Cache) (ns ps : List Handle) {β : Type} (K : Qualifiers → P β) (R : β → St → Prop),
      Sim N (K qq) (mk (z ++ rest) c ns ps) R →
      Sim N (tryStr c!"$$C" >>= fun has_quals => if has_quals = true then
          (demangle_qualifiers >>= fun x => if x.2 = true then SM.err .InvalidArrayType >>= K else pure x.1 >>= K)
        else pure Qualifiers.Q_None >>= K)
        (mk (u ++ (z ++ rest)) c ns ps) R) :
    MTy E tb (.array q dims t) ('Y' :: x ++ y ++ u ++ z) tb' (k1 + dims.length + 2) := by
  refine ⟨rfl, fun n rest w ns ps ht => ?_⟩
  simp only [List.append_assoc, List.cons_append]
  refine Sim.of_eq body_array ?_
  unfold demangle_array_type
  refine Sim.step (expectChar_cons _ _ _ _ _ _ _) ?_
  refine Sim.step (encNat_run hx) ?_
  have : (false || dims.length == 0) = false := by
    cases dims with
    | nil => exact (hd rfl).elim
    | cons => rfl
  simp only [this, Bool.false_eq_true, if_false]
  refine Sim.bind (sim_dims hy _ [] w ns ps _ (by nodes)) ?_
  rintro hs s ⟨w1, rfl, hl1, hp1, hs', rfl, hi⟩
  refine Sim.intern true ?_
  refine hu _ rest _ _ _ _ _ ?_
  have ht1 : Tab (w1 ++ [(.NodeArray hs, true)]) tb ns ps := ht.mono ((Vis.prefix hp1).trans (Vis.push _))
  refine Runs.bind (mty_drop h n) ht1 fun el w2 ns2 ps2 hp2 ht2 H2 => ?_
  obtain ⟨w3, hc3, hp3, hv3, H3⟩ := H2.reveal hp2
  rw [← hc3]
  refine sim_tyhole rfl (hp1.trans ((List.prefix_append _ _).trans hp3)) (ht2.mono hv3) ?_
  exact .array hq (get_prefix hp3 (get_push _ _)) (hi.mono ((Vis.push _).trans (Vis.prefix hp3))) H3

theorem rule_array {dims : List Nat} (hx : Spec.EncNat x dims.length) (hd : dims ≠ []) (hy : Spec.EncDims y dims)
    (h : MTy E tb t z tb' k1) : MTy E tb (.array {} dims t) ('Y' :: x ++ y ++ z) tb' (k1 + dims.length + 2) := by
  have := sim_array hx hd hy h (u := []) QRel.none (fun N rest c ns ps β K R hk => by
    refine Sim.step (tryStr_miss _ _ _ _ _ (tyHead_noC (tyHead_append h.head rest))) ?_
    exact Sim.step rfl hk)
  simpa using this

theorem rule_arrayQ {dims : List Nat} {ch : Char} {q : CV} (hx : Spec.EncNat x dims.length) (hd : dims ≠ [])
    (hy : Spec.EncDims y dims) (hc : (ch, q) ∈ cvCodes) (h : MTy E tb t z tb' k1) :
    MTy E tb (.array q dims t) ('Y' :: x ++ y ++ c!"$$C" ++ ch :: z) tb' (k1 + dims.length + 2) := by
  obtain ⟨qq, hq, _⟩ := quals_run_cv (t := []) (c := []) (ns := []) (ps := []) hc
  obtain ⟨qq, b, hq, he⟩ := quals_run (cv_left hc)
  have := sim_array hx hd hy h (u := c!"$$C" ++ [ch]) hq (fun N rest c ns ps β K R hk => by
    rw [List.append_assoc]
    refine Sim.step (tryStr_hit _ _ _ _ _) ?_
    obtain ⟨q', hq', e'⟩ := quals_run_cv (t := z ++ rest) (c := c) (ns := ns) (ps := ps) hc
    have e2 := he (t := z ++ rest) (c := c) (ns := ns) (ps := ps)
    rw [e'] at e2
    simp only [Except.ok.injEq, Prod.mk.injEq, and_true] at e2
    obtain ⟨rfl, rfl⟩ := e2
    exact Sim.step e' (Sim.step rfl hk))
  simpa using this

/-! ### Function types as types -/

theorem rule_fnType (h : MFty E false tb t x tb' k1) : MTy E tb t (c!"$$A6" ++ x) tb' k1 := by
  refine ⟨rfl, fun n rest w ns ps ht => ?_⟩
  refine Sim.of_eq (m' := demangle_function_type (fns (render E) n) false) (s' := mk (x ++ rest) w.c ns ps) ?_ ?_
  · unfold demangle_type_body
    simp [run, MStr.is_tag_type, MStr.is_pointer_type, MStr.is_array_type, MStr.is_function_type]
  · exact Sim.mono ((h n).1 rest w ns ps ht) fun a s ⟨w', ns', ps', e, hl, h1, h2, h3⟩ => ⟨w', ns', ps', e, hl, h1, h2, by
      rw [tyHole_of (h n).2]; exact h3⟩

theorem rule_fnTypeThis (h : MFty E true tb t x tb' k1) : MTy E tb t (c!"$$A8@@" ++ x) tb' k1 := by
  refine ⟨rfl, fun n rest w ns ps ht => ?_⟩
  refine Sim.of_eq (m' := demangle_function_type (fns (render E) n) true) (s' := mk (x ++ rest) w.c ns ps) ?_ ?_
  · unfold demangle_type_body
    simp [run, MStr.is_tag_type, MStr.is_pointer_type, MStr.is_array_type, MStr.is_function_type]
  · exact Sim.mono ((h n).1 rest w ns ps ht) fun a s ⟨w', ns', ps', e, hl, h1, h2, h3⟩ => ⟨w', ns', ps', e, hl, h1, h2, by
      rw [tyHole_of (h n).2]; exact h3⟩

theorem custom_run (h : ∀ n, Runs (demangle_unqualified_type_name (fns (render E) n) true) x tb tb' (Seen t) k1) : MTy E tb (.custom t) ('?' :: x ++ c!"@") tb' (k1 + 1) := by
  refine ⟨rfl, fun n rest w ns ps ht => ?_⟩
  simp only [List.append_assoc, List.cons_append, List.nil_append]
  refine Sim.of_eq (m' := demangle_custom_type (fns (render E) n)) (s' := mk ('?' :: (x ++ '@' :: rest)) w.c ns ps) ?_ ?_
  · unfold demangle_type_body
    simp [run, MStr.is_tag_type, MStr.is_pointer_type, MStr.is_array_type, MStr.is_function_type, MStr.is_custom_type]
  · unfold demangle_custom_type
    refine Sim.step (expectChar_cons _ _ _ _ _ _ _) ?_
    refine Runs.bind (h n) ht fun i w1 ns1 ps1 hp1 ht1 H1 => ?_
    refine Sim.step (tryChar_cons _ _ _ _ _ _) ?_
    exact sim_tyhole rfl hp1 ht1 (.custom H1)

theorem rule_custom (h : MUname E tb t x tb' k1) : MTy E tb (.custom t) ('?' :: x ++ c!"@") tb' (k1 + 1) := custom_run h.run

/-! ### Return types -/

structure MTyR (E : Env) (tb : Tbl) (t : T) (x : Text) (tb' : Tbl) (cnt : Nat) : Prop where
  head : x ≠ [] ∧ x.head? ≠ some '@'
  run : ∀ n, Runs ((fns (render E) n).type .Result) x tb tb' (Seen t) cnt

theorem rule_resPlain (h : MTy E tb t x tb' k1) (hx : x.head? ≠ some '?') : MTyR E tb t x tb' k1 := by
  refine ⟨tyHead_ok h.head, fun n => ?_⟩
  refine Runs.mark (Q := TyHole t) ?_ fun w w' a hp H => H.reveal hp
  have := mty_type h (y := []) (qmm := .Result) QRel.none (fun rest c ns ps => ?_) n
  · rwa [T.addQ_none] at this
  · have e := tryChar_head (c := c) (ns := ns) (ps := ps) (head_append (tyHead_ne h.head) hx rest)
    simp only [type_quals, List.nil_append, run, e, Bool.false_eq_true, if_false]

theorem rule_resQual {ch : Char} {q : CV} (hc : (ch, q) ∈ cvCodes ++ memberCvCodes) (h : MTy E tb t x tb' k1) :
    MTyR E tb (t.addQ q) ('?' :: ch :: x) tb' k1 := by
  refine ⟨by simp, fun n => ?_⟩
  refine Runs.mark (Q := TyHole (t.addQ q)) ?_ fun w w' a hp H => H.reveal hp
  obtain ⟨qq, b, hq, he⟩ := quals_run hc
  refine mty_type h (y := ['?', ch]) (qmm := .Result) hq (fun rest c ns ps => ?_) n
  simp only [type_quals, List.cons_append, List.nil_append, run, he, beq_self_eq_true, if_true]

def MRet (E : Env) (tb : Tbl) (t : T) (x : Text) (tb' : Tbl) (cnt : Nat) : Prop :=
  ∀ n, Runs (retM (fns (render E) n)) x tb tb' (Opt t) cnt

theorem rule_retNone : MRet E tb .nil c!"@" tb 0 := by
  intro n rest w ns ps ht
  unfold retM
  refine Sim.step (tryChar_cons _ _ _ _ _ _) ?_
  exact Sim.done (List.prefix_refl _) ht .nil

theorem rule_retSome (h : MTyR E tb t x tb' k1) : MRet E tb t.one x tb' k1 := by
  intro n rest w ns ps ht
  unfold retM
  refine Sim.step (tryChar_head (head_append h.head.1 h.head.2 rest)) ?_
  refine Runs.bind (h.run n) ht fun i w1 ns1 ps1 hp1 ht1 H1 => ?_
  exact Sim.done hp1 ht1 (.cons H1 .nil)

/-! ### Parameters -/

def MPlist (E : Env) (tb : Tbl) (t : T) (x : Text) (tb' : Tbl) (cnt : Nat) : Prop :=
  ∀ n j acc rest, (rest.head? = some '@' ∨ rest.head? = some 'Z') →
    RunsAt (SM.iterate j (paramListBody (fns (render E) n)) acc) x rest tb tb' (More t acc) cnt

theorem rule_pNil : MPlist E tb .nil [] tb 0 := by
  intro n k acc rest hr w ns ps ht
  cases k with
  | zero => exact Sim.crash (c := .fuel) rfl
  | succ k =>
    refine Sim.round ?_
    unfold paramListBody
    have : exec (firstIs fun x => x == '@' || x == 'Z') (mk rest w.c ns ps) = .ok (true, mk rest w.c ns ps) := by
      cases rest with
      | nil => simp at hr
      | cons c rest =>
        rw [firstIs_cons]
        rcases hr with h | h <;> simp at h <;> subst h <;> rfl
    rw [List.nil_append]
    refine Sim.step this ?_
    exact .inr ⟨acc, rfl, w, ns, ps, rfl, by nodes, List.prefix_refl _, ht, [], by simp, .nil⟩

theorem rule_pBack {i : Nat} {ts : T} (hi : i < 10) (hget : tb.params[i]? = some t) (h : MPlist E tb ts x tb' k1) :
    MPlist E tb (.cons t ts) (Spec.digit i ++ x) tb' k1 := by
  intro n k acc rest hr w ns ps ht
  cases k with
  | zero => exact Sim.crash (c := .fuel) rfl
  | succ k =>
    refine Sim.round ?_
    unfold paramListBody
    obtain ⟨c, hc, h1, h2, h3, _⟩ := digit_char hi
    obtain ⟨p, hp, hR⟩ := ht.params.get hget
    rw [hc, List.append_assoc, List.singleton_append]
    refine Sim.step (firstIs_cons _ _ _ _ _ _) ?_
    rw [h3]
    have h4 : exec (tryIf isDigit) (mk (c :: (x ++ rest)) w.c ns ps) = .ok (some c, mk (x ++ rest) w.c ns ps) := by
      rw [tryIf_cons, if_pos h1]
    refine Sim.query (Sim.step h4 ?_)
    refine Sim.get ?_
    simp only [run, h2, hp]
    refine Sim.step rfl ?_
    refine .inl ⟨_, rfl, ?_⟩
    refine Sim.mono (h n k (acc ++ [p]) rest hr w ns ps ht) ?_
    rintro a s ⟨w', ns', ps', e, hl, hp', ht', hq⟩
    exact ⟨w', ns', ps', e, hl, hp', ht', more_cons hR hp' hq⟩

end

end Undname.Ex
