/-
  Simulation: the class and type of a function.
-/
import Verif.Exact.SimArgs

namespace Undname.Ex
open Spec (CV FnKind Sig Adjust AdjKind Access T Tbl Ext Name Fits cvCodes memberCvCodes ptrCodes refCodes primCode tagCode)

section
variable {E : Env} {tb tb' tb1 tb2 : Tbl} {t t' : T} {x y z : Text} {k1 k2 k3 k4 : Nat} {N : Nat}

structure MFenc (E : Env) (tb : Tbl) (t : T) (x : Text) (tb' : Tbl) (cnt : Nat) : Prop where
  sig : T.isSig t = true
  head : ∃ c u, x = c :: u ∧ (c == '0' || c == '1' || c == '2' || c == '3' || c == '4') = false
  run : ∀ n, Runs (demangle_function_encoding (fns (render E) n)) x tb tb' (FencPost t) cnt

theorem sim_fencEnd {w0 w : World} {sg : Handle} {nd : Node} {f : FuncClass} {rest : Text} {ns ps : List Handle}
    (hp : w0 <+: w) (hl : w0.length ≤ sg) (ht : Tab w tb ns ps) (e : w[sg]? = some (nd, false)) (hr : Rep w t (.N (nd.set_function_class f)))
    (hl1 : w.length + 1 = w0.length + k1 := by nodes) (hN : w0.length + k1 ≤ N := by nodes) :
    Sim N (modifyNode .ISignatureNode sg (Node.set_function_class f) >>= fun _ => intern (.FunctionSymbol none sg)) (mk rest w.c ns ps)
      (Reach w0 tb rest k1 (FencPost t w0)) := by
  refine Sim.modify true e ?_
  have hv := Vis.set e (nd.set_function_class f, true)
  have hp' := prefix_set hp hl (nd.set_function_class f, true)
  refine Sim.intern_end false ⟨_, ns, ps, rfl, by nodes, prefix_push hp' _, (ht.mono hv).mono (Vis.push _), sg, get_push _ _, hp'.length_le, ?_⟩
  refine Rep.mono (Vis.push _) (.handle (get_set e _) (hr.mono hv))

theorem rule_fenc {f : Sig} {r ps' : T} {code : Text} {k : FnKind} {ak : AdjKind} {adj : Adjust} (extC : Bool)
    (hc : (code, k, ak) ∈ Spec.classCodes) (ha : Spec.EncAdjust ak x adj) (h : MFty E k.hasThis tb (.sig f r ps') y tb' k1) :
    MFenc E tb
      (if ak = .none then .sig { f with kind := { k with externC := extC } } r ps'
       else .thunk { f with kind := { k with externC := extC } } adj r ps')
      ((if extC then c!"$$J0" else []) ++ code ++ x ++ y) tb' (k1 + if ak = .none then 1 else 2) := by
  obtain ⟨f0, hk, hnp, hth, hadj, hrun⟩ := class_run hc extC
  have hcons : ∀ s : Text, ∃ c u, code ++ s = c :: u ∧ (c == '0' || c == '1' || c == '2' || c == '3' || c == '4') = false ∧ (c!"$$").isPrefixOf (c :: u) = false := by
    intro s
    rcases class_shape _ hc with ⟨c, e, h1, h2⟩ | ⟨d, e, h1, h2⟩ | ⟨d, e⟩ <;> simp only at e <;> subst e
    · refine ⟨c, s, rfl, ?_, ?_⟩
      · rw [Bool.eq_false_iff]; intro h3
        simp only [Bool.or_eq_true, beq_iff_eq] at h3
        rcases h3 with (((rfl | rfl) | rfl) | rfl) | rfl <;> cases h2
      · simp [List.isPrefixOf, Ne.symm h1]
    · exact ⟨_, _, rfl, by decide, by simp [List.isPrefixOf, Ne.symm h2]⟩
    · exact ⟨_, _, rfl, by decide, by simp [List.isPrefixOf]⟩
  refine ⟨by split <;> rfl, ?_, fun n rest w ns ps ht => ?_⟩
  · obtain ⟨c, u, e, h1, h2⟩ := hcons (x ++ y)
    cases extC
    · exact ⟨c, u, by simpa using e, h1⟩
    · exact ⟨_, _, rfl, rfl⟩
  · unfold demangle_function_encoding
    simp only [List.append_assoc]
    obtain ⟨c, u, e, h1, h2⟩ := hcons (x ++ (y ++ rest))
    refine Sim.step (ext_step (b := extC) (by rw [e]; exact h2)) (Sim.query ?_)
    have : (MStr.new (code ++ (x ++ (y ++ rest)))).is_empty = false := by rw [e]; rfl
    rw [mk_str, this]
    refine Sim.step (hrun _ _ _ _) ?_
    show Sim _ (thunk_adjust (f0 ||| extFlag extC) >>= _) _ _
    obtain ⟨o, e2, ho⟩ := adjust_run ha hadj (y ++ rest) w.c ns ps
    refine Sim.step e2 ?_
    have hnp' : (f0 ||| (if extC = true then FuncClass.FC_ExternC else FuncClass.FC_None)).no_parameter_list = false := hnp
    rw [hnp', if_neg (show ¬ (false = true) by simp)]
    have hth' : (!(f0 ||| (if extC = true then FuncClass.FC_ExternC else FuncClass.FC_None)).intersects (FuncClass.FC_Global ||| FuncClass.FC_Static)) = k.hasThis := hth
    rw [hth']
    refine Runs.bind (h n).1 ht fun fsn w1 ns1 ps1 hp1 ht1 H1 => ?_
    obtain ⟨nd, e3, hl3, hN⟩ := H1
    cases hN with
    | @sig sn _ _ _ hs hr hps =>
      by_cases hak : ak = .none
      · have hk1 : (if ak = .none then 1 else 2) = 1 := if_pos hak
        rw [hk1]
        rw [if_pos hak] at ho ⊢
        subst ho
        refine Sim.step (s' := mk rest w1.c ns1 ps1) rfl ?_
        refine sim_fencEnd hp1 hl3 ht1 e3 ?_
        exact .sig ⟨hk, hs.cv, hs.conv, hs.ref, hs.variadic, hs.noexc⟩ hr hps
      · have hk1 : (if ak = .none then 1 else 2) = 2 := if_neg hak
        rw [hk1]
        rw [if_neg hak] at ho ⊢
        obtain ⟨a, rfl, hat⟩ := ho
        dsimp only
        refine Sim.res e3 ?_
        refine Sim.intern false ?_
        refine sim_fencEnd (prefix_push hp1 _) hp1.length_le (ht1.mono (Vis.push _)) (get_push _ _) ?_
        exact .thunk ⟨hk, hs.cv, hs.conv, hs.ref, hs.variadic, hs.noexc⟩ hat (hr.mono (Vis.push _)) (hps.mono (Vis.push _))

theorem rule_fencBare (extC : Bool) :
    MFenc E tb (.sig { kind := { externC := true, bare := true } } .nil .nil) ((if extC then c!"$$J0" else []) ++ c!"9") tb 2 := by
  refine ⟨rfl, ?_, fun n rest w ns ps ht => ?_⟩
  · cases extC <;> exact ⟨_, _, rfl, rfl⟩
  · unfold demangle_function_encoding
    simp only [List.append_assoc]
    refine Sim.step (ext_step (b := extC) rfl) (Sim.query ?_)
    rw [mk_str, show (MStr.new (c!"9" ++ rest)).is_empty = false from rfl]
    refine Sim.step (a := FuncClass.FC_ExternC ||| FuncClass.FC_NoParameterList) (s' := mk rest w.c ns ps) (by simp [demangle_function_class, run, functionClassOf]) ?_
    have e1 : ∀ b, exec (thunk_adjust (FuncClass.FC_ExternC ||| FuncClass.FC_NoParameterList ||| if b = true then FuncClass.FC_ExternC else FuncClass.FC_None)) (mk rest w.c ns ps) = .ok (none, mk rest w.c ns ps) := by
      intro b; cases b <;> rfl
    have e2 : ∀ b, (FuncClass.FC_ExternC ||| FuncClass.FC_NoParameterList ||| if b = true then FuncClass.FC_ExternC else FuncClass.FC_None).no_parameter_list = true := by
      intro b; cases b <;> rfl
    refine Sim.step (e1 _) ?_
    rw [e2, if_pos rfl]
    refine Sim.intern false ?_
    refine Sim.step (s' := mk rest (World.c (w ++ [(Node.FunctionSignature {}, false)])) ns ps) rfl ?_
    refine sim_fencEnd (List.prefix_append _ _) (Nat.le_refl _) (ht.mono (Vis.push _)) (get_push _ _) ?_
    refine .sig ⟨?_, QRel.none, rfl, rfl, rfl, rfl⟩ .nil .nil
    cases extC <;> decide

end

end Undname.Ex
