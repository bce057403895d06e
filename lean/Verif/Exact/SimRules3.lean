/-
  Simulation: parameters and function types.
-/
import Verif.Exact.SimRules2

namespace Undname.Ex
open Spec (CV FnKind Sig Adjust Access T Tbl Ext cvCodes memberCvCodes ptrCodes refCodes primCode tagCode)

section
variable {E : Env} {tb tb' tb1 tb2 : Tbl} {t t' : T} {x y z : Text} {k1 k2 k3 k4 : Nat} {N : Nat}

/-- One parameter that is a type. -/
theorem sim_param {ts : T} (h : MTy E tb t x tb1 k1) (hts : MPlist E tb2 ts y tb' k2)
    (hpush : ∀ (w : World) ns ps p, Tab w tb1 ns ps → Rep w t (.H p) →
      ∀ s, ∃ ps', exec (whenB ((x ++ s).length - s.length != 1) (paramListBody.push_param p)) (mk s w.c ns ps) = .ok ((), mk s w.c ns ps') ∧ Tab w tb2 ns ps') :
    MPlist E tb (.cons t ts) (x ++ y) tb' (k1 + k2) := by
  intro n k acc rest hr w ns ps ht
  cases k with
  | zero => exact Sim.crash (c := .fuel) rfl
  | succ k =>
    refine Sim.round ?_
    unfold paramListBody
    rw [List.append_assoc]
    obtain ⟨c, u, hx, h1, h2, h3, _⟩ := tyHead_cons h.head
    have hx' : x ++ (y ++ rest) = c :: (u ++ (y ++ rest)) := by rw [hx]; rfl
    have e1 : exec (firstIs fun x => x == '@' || x == 'Z') (mk (x ++ (y ++ rest)) w.c ns ps) = .ok (false, mk (x ++ (y ++ rest)) w.c ns ps) := by
      rw [hx', firstIs_cons]
      simp [h1, h2]
    refine Sim.step e1 (Sim.query ?_)
    rw [mk_str, not_empty_append (tyHead_ne h.head)]
    have e2 : exec (tryIf isDigit) (mk (x ++ (y ++ rest)) w.c ns ps) = .ok (none, mk (x ++ (y ++ rest)) w.c ns ps) := by
      rw [hx', tryIf_cons, if_neg (by simp [h3])]
    refine Sim.step e2 (Sim.query ?_)
    rw [mk_str, len_new]
    refine Runs.bind (mty_drop h n) ht fun p w1 ns1 ps1 hp1 ht1 H1 => ?_
    refine Sim.query ?_
    rw [mk_str, len_new]
    obtain ⟨w2, hc2, hp2, hv2, H2⟩ := H1.reveal hp1
    rw [← hc2]
    have hl : x.length ≠ 0 := by rw [hx]; simp
    have h4 : ¬ (y ++ rest).length > (x ++ (y ++ rest)).length := by simp
    have h5 : ((x ++ (y ++ rest)).length - (y ++ rest).length == 0) = false := by
      simp only [List.length_append, beq_eq_false_iff_ne] at *; omega
    rw [if_neg h4, h5, if_neg (by simp)]
    obtain ⟨ps3, e3, ht3⟩ := hpush w2 ns1 ps1 p (ht1.mono hv2) H2 (y ++ rest)
    refine Sim.step e3 ?_
    refine Sim.pure (.inl ⟨_, rfl, ?_⟩)
    refine Sim.mono ((hts n k (acc ++ [p]) rest hr w2 ns1 ps3 ht3).le (by nodes)) ?_
    rintro a s ⟨w', ns', ps', e, hl, hp', ht', hq⟩
    exact ⟨w', ns', ps', e, by nodes, hp2.trans hp', ht', more_cons H2 hp' hq⟩

theorem rule_pLetter {ts : T} (h : MTy E tb t x tb1 k1) (hl : x.length = 1) (hts : MPlist E tb1 ts y tb' k2) :
    MPlist E tb (.cons t ts) (x ++ y) tb' (k1 + k2) := by
  refine sim_param h hts fun w ns ps p ht _ s => ⟨ps, ?_, ht⟩
  have : ((x ++ s).length - s.length != 1) = false := by simp [hl]
  rw [this]; rfl

theorem rule_pType {ts : T} (h : MTy E tb t x tb1 k1) (hl : x.length ≠ 1) (hts : MPlist E (tb1.noteParam t) ts y tb' k2) :
    MPlist E tb (.cons t ts) (x ++ y) tb' (k1 + k2) := by
  refine sim_param h hts fun w ns ps p ht hr s => ?_
  have : ((x ++ s).length - s.length != 1) = true := by simp [hl]
  rw [this]
  have hlen := ht.params.length
  unfold Spec.Tbl.noteParam
  by_cases h10 : ps.length < 10
  · refine ⟨ps ++ [p], ?_, ?_⟩
    · simp only [run, paramListBody.push_param, h10, if_true]; rfl
    · rw [if_pos (hlen ▸ h10)]
      exact ⟨ht.names, ht.params.snoc hr⟩
  · refine ⟨ps, ?_, ?_⟩
    · simp only [run, paramListBody.push_param, h10, if_false]
    · rw [if_neg (hlen ▸ h10)]
      exact ht

def MParams (E : Env) (v : Bool) (tb : Tbl) (t : T) (x : Text) (tb' : Tbl) (cnt : Nat) : Prop :=
  ∀ n, Runs (demangle_function_parameter_list (fns (render E) n)) x tb tb' (fun _ w' p => Rep w' t (.L p.1.toList) ∧ p.2 = v) cnt

theorem rule_pVoid : MParams E false tb .nil c!"X" tb 0 := by
  intro n rest w ns ps ht
  unfold demangle_function_parameter_list
  refine Sim.step (tryChar_cons _ _ _ _ _ _) ?_
  exact Sim.done (List.prefix_refl _) ht ⟨.nil, rfl⟩

theorem sim_params {v : Bool} {c : Char} (hc : (c = '@' ∧ v = false) ∨ (c = 'Z' ∧ v = true))
    (h : MPlist E tb t x tb' k1) (hx : x.head? ≠ some 'X') : MParams E v tb (T.one (.arr t)) (x ++ [c]) tb' (k1 + 1) := by
  intro n rest w ns ps ht
  unfold demangle_function_parameter_list
  rw [List.append_assoc, List.singleton_append]
  have hX : (x ++ c :: rest).head? ≠ some 'X' := by
    cases x with
    | nil => rcases hc with ⟨rfl, _⟩ | ⟨rfl, _⟩ <;> simp
    | cons => exact hx
  refine Sim.step (tryChar_head hX) ?_
  refine Sim.loopB (fun k => (h n k [] (c :: rest) (by rcases hc with ⟨rfl, _⟩ | ⟨rfl, _⟩ <;> simp) w ns ps ht).le (by nodes)) ?_
  rintro hs s ⟨w1, ns1, ps1, rfl, hl, hp1, ht1, hs', rfl, hr⟩
  refine Sim.intern true ?_
  have H : Rep (w1 ++ [(.NodeArray hs, true)]) (T.one (.arr t)) (.L [w1.length]) :=
    .cons (.handle (get_push _ _) (.arr (hr.mono (Vis.push _)))) .nil
  rcases hc with ⟨rfl, rfl⟩ | ⟨rfl, rfl⟩
  · refine Sim.step (tryChar_cons _ _ _ _ _ _) ?_
    exact Sim.done (prefix_push hp1 _) (ht1.mono (Vis.push _)) ⟨H, rfl⟩
  · refine Sim.step (tryChar_cons _ _ _ _ _ _) ?_
    refine Sim.step (tryChar_cons _ _ _ _ _ _) ?_
    exact Sim.done (prefix_push hp1 _) (ht1.mono (Vis.push _)) ⟨H, rfl⟩

theorem rule_pFixed (h : MPlist E tb t x tb' k1) (hx : x.head? ≠ some 'X') : MParams E false tb (T.one (.arr t)) (x ++ c!"@") tb' (k1 + 1) :=
  sim_params (.inl ⟨rfl, rfl⟩) h hx

theorem rule_pVariadic (h : MPlist E tb t x tb' k1) (hx : x.head? ≠ some 'X') : MParams E true tb (T.one (.arr t)) (x ++ c!"Z") tb' (k1 + 1) :=
  sim_params (.inr ⟨rfl, rfl⟩) h hx

/-! ### Function types -/

theorem sim_ret {r : Fns} {β : Type} {K : Option Handle → P β} {s : St} {R : β → St → Prop} (h : Sim N (retM r >>= K) s R) :
    Sim N (tryChar '@' >>= fun b => if b = true then pure none >>= K else r.type .Result >>= fun t => pure (some t) >>= K) s R := by
  refine Sim.of_eq ?_ h
  unfold retM
  simp only [run_bind_eq]
  cases exec (tryChar '@') s with
  | error e => rfl
  | ok p =>
    obtain ⟨b, s'⟩ := p
    cases b <;> simp [run]
    cases exec (r.type .Result) s' <;> rfl

theorem sim_fn {b : Bool} {v : Bool} {r ps' : T} {u : Text} {q : CV} {rf : Option FunctionRefQualifier} {qq : Qualifiers} (hq : QRel qq q)
    (hu : ∀ s c ns ps, exec (function_this_quals b) (mk (u ++ s) c ns ps) = .ok ((qq, rf), mk s c ns ps))
    (cc : Char) (noexc : Bool) (hr : MRet E tb r x tb1 k1) (hps : MParams E v tb1 ps' y tb' k2) :
    MFty E b tb (.sig { cv := q, conv := Spec.convOf cc, ref := rf, variadic := v, isNoexcept := noexc } r ps')
      (u ++ cc :: x ++ y ++ Spec.throwCode noexc) tb' (k1 + k2 + 1) := by
  refine fun n => ⟨fun rest w ns ps ht => ?_, rfl⟩
  simp only [List.append_assoc, List.cons_append]
  unfold demangle_function_type
  refine Sim.step (hu _ _ _ _) ?_
  refine Sim.step (conv_run cc) ?_
  refine sim_ret ?_
  refine Runs.bind (hr n) ht fun o w1 ns1 ps1 hp1 ht1 H1 => ?_
  refine Runs.bind (hps n) ht1 fun p w2 ns2 ps2 hp2 ht2 H2 => ?_
  refine Sim.step (throw_run noexc) ?_
  refine sim_hole (hp1.trans hp2) ht2 (.sig ⟨?_, hq, rfl, rfl, H2.2, rfl⟩ (H1.mono (Vis.prefix hp2)) H2.1)
  exact KRel.none

theorem rule_fn {v : Bool} {r ps' : T} (cc : Char) (noexc : Bool) (hr : MRet E tb r x tb1 k1) (hps : MParams E v tb1 ps' y tb' k2) :
    MFty E false tb (.sig { conv := Spec.convOf cc, variadic := v, isNoexcept := noexc } r ps')
      (cc :: x ++ y ++ Spec.throwCode noexc) tb' (k1 + k2 + 1) :=
  sim_fn (u := []) QRel.none (fun _ _ _ _ => rfl) cc noexc hr hps

theorem rule_fnThis {v : Bool} {r ps' : T} {ch : Char} {q : CV} (e : Ext) (rf : Option FunctionRefQualifier) (cc : Char) (noexc : Bool)
    (hc : (ch, q) ∈ cvCodes ++ memberCvCodes) (hr : MRet E tb r x tb1 k1) (hps : MParams E v tb1 ps' y tb' k2) :
    MFty E true tb (.sig { cv := e.cv.or q, conv := Spec.convOf cc, ref := rf, variadic := v, isNoexcept := noexc } r ps')
      (e.code ++ Spec.refCode rf ++ ch :: cc :: x ++ y ++ Spec.throwCode noexc) tb' (k1 + k2 + 1) := by
  obtain ⟨q2, b, hq2, he2⟩ := quals_run hc
  have hne : ∀ s : Text, NoExt (Spec.refCode rf ++ ch :: s) := by
    intro s
    rcases rf with _ | ⟨_ | _⟩
    · exact noExt_of hc s
    · simp [NoExt, Spec.refCode]
    · simp [NoExt, Spec.refCode]
  obtain ⟨q1, hq1, he1⟩ := ext_run (t := Spec.refCode rf ++ [ch]) (c := []) (ns := []) (ps := []) e (hne [])
  have hext : ∃ qq, QRel qq e.cv ∧ ∀ s c ns ps, exec demangle_pointer_ext_qualifiers (mk (e.code ++ (Spec.refCode rf ++ ch :: s)) c ns ps) =
      .ok (qq, mk (Spec.refCode rf ++ ch :: s) c ns ps) := by
    refine ⟨(if e.e then Qualifiers.Q_Pointer64 else Qualifiers.Q_None) ||| (if e.i then Qualifiers.Q_Restrict else Qualifiers.Q_None) |||
      (if e.f then Qualifiers.Q_Unaligned else Qualifiers.Q_None), ?_, ?_⟩
    · obtain ⟨e, i, f⟩ := e
      cases e <;> cases i <;> cases f <;> constructor <;> decide
    · intro s c ns ps
      obtain ⟨h1, h2, h3⟩ := hne s
      have hE := tryChar_head (c := c) (ns := ns) (ps := ps) h1
      have hI := tryChar_head (c := c) (ns := ns) (ps := ps) h2
      have hF := tryChar_head (c := c) (ns := ns) (ps := ps) h3
      obtain ⟨e, i, f⟩ := e
      cases e <;> cases i <;> cases f <;> simp [demangle_pointer_ext_qualifiers, Ext.code, run, hE, hI, hF]
  obtain ⟨q1, hq1, he1⟩ := hext
  have hG : ∀ s : Text, (ch :: s).head? ≠ some 'G' ∧ (ch :: s).head? ≠ some 'H' := by
    intro s
    simp only [cvCodes, memberCvCodes, List.cons_append, List.nil_append, List.mem_cons, List.not_mem_nil, or_false, Prod.mk.injEq] at hc
    rcases hc with ⟨rfl, _⟩ | ⟨rfl, _⟩ | ⟨rfl, _⟩ | ⟨rfl, _⟩ | ⟨rfl, _⟩ | ⟨rfl, _⟩ | ⟨rfl, _⟩ | ⟨rfl, _⟩ <;> simp
  have := sim_fn (b := true) (u := e.code ++ Spec.refCode rf ++ [ch]) (hq1.or hq2) (fun s c ns ps => by
    unfold function_this_quals
    simp only [List.append_assoc, List.singleton_append, if_true]
    refine run_bind (he1 s c ns ps) ?_
    refine run_bind (ref_run rf (hG s).1 (hG s).2) ?_
    exact run_bind he2 rfl) cc noexc hr hps
  simpa using this

end

end Undname.Ex
