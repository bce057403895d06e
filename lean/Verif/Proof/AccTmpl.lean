/-
  What the text must have been when a template instantiation is read.
-/
import Verif.Proof.AccArgs

namespace Undname
open Spec (T Tbl Name Fits Cat Gram)

section
variable {E : Env} {n : Nat} {tb tb' tb1 : Tbl} {s x R : Text} {w : World} {ns ps : List Handle}

theorem rep_notplain {t : T} {nd : Node} (H : Rep w t (.N nd)) (hi : T.isIdent t = true) (h : t.isPlain = false) : nd.isConversionOrStructor = true := by
  cases H <;> first | rfl | (cases h; done) | (cases hi; done)

/-- The name before the arguments. -/
theorem sname_empty {i : T} (h : Gram E .sname {} i x tb1) : T.isIdent i = true ∧ (∀ n, Runs (demangle_unqualified_symbol_name (fns (render E) n) .Simple) x {} tb1 (Hole i)) ∧
    ∀ {as y tb2}, Gram E .targs tb1 as y tb2 → ∀ {tb}, Gram E .tmpl tb (i.withArgs as) (c!"?$" ++ x ++ y) tb := by
  cases h with
  | sBack hi h => cases h
  | sFull h =>
    have hm : MFid E {} i x tb1 := gram_reads h
    exact ⟨hm.ident, hm.run, fun ha => .tmpl h ha⟩
  | sTmpl h =>
    have hm : MTmpl E {} i x tb1 := gram_reads h
    exact ⟨hm.ident, usn_tmpl hm, fun ha => .tmplTmpl h ha⟩

theorem tmpl_inv (hn : AccN E n) (ht : Tab w tb ns ps) {nbb : NBB} :
    Wh (demangle_template_instantiation_name (render E) (fns (render E) n) nbb) (mk s w.c ns ps)
      (∃ x R t, s = x ++ R ∧ Gram E .tmpl tb t x tb ∧ (nbb.is_template = true → t.isPlain = true ∧ Fits (t.text E))) := by
  unfold demangle_template_instantiation_name
  refine After.expectStr fun s e => ?_
  subst e
  refine After.get (After.step (s' := mk s w.c [] []) rfl ?_)
  refine After.know (sname_inv hn (Tab.empty w)) ?_
  rintro ⟨x, R, i, tb1, rfl, hg⟩
  obtain ⟨hid, hrun, hrule⟩ := sname_empty hg
  refine Runs.post (hrun n) (Tab.empty w) fun h w1 ns1 ps1 hp1 ht1 H1 => ?_
  refine After.know (X := Took E .targs tb1 R) ?_ ?_
  · unfold demangle_template_parameter_list
    refine After.know (X := Took E .targs tb1 R) (After.loop fun k => targs_inv hn k [] ht1) fun h => After.now h
  rintro ⟨y, R, as, tb2, rfl, ha⟩
  have hm : MTargs E tb1 as y tb2 := gram_reads ha
  unfold demangle_template_parameter_list
  refine After.simB (Q := fun tp s => ∃ w2 : World, ∃ ns2 ps2, s = mk R w2.c ns2 ps2 ∧ w1 <+: w2 ∧ Rep w2 (.arr as) (.H tp)) ?_ ?_
  · refine Sim.loopB (fun k => hm n k [] R w1 ns1 ps1 ht1) ?_
    rintro hs s ⟨w2, ns2, ps2, rfl, hp2, ht2, hs', rfl, hr⟩
    refine Sim.intern_end true ⟨_, _, _, rfl, prefix_push hp2 _, ?_⟩
    exact .handle (get_push _ _) (.arr (hr.mono (Vis.push _)))
  rintro tp s ⟨w2, ns2, ps2, rfl, hp2, hr⟩
  obtain ⟨nd, e, hl, hN⟩ := H1.forth hp2
  refine After.modify false e ?_
  refine After.step (s' := mk R (World.c (w2.set h (nd.set_template_params tp, false))) ns ps) rfl ?_
  have hgt : Gram E .tmpl tb (i.withArgs as) (c!"?$" ++ x ++ y) tb := hrule ha
  refine After.iteB (fun hb => ?_) fun hb => After.now ⟨_, R, _, by simp, hgt, fun h => by rw [h] at hb; cases hb⟩
  have H : Hole (i.withArgs as) w (w2.set h (nd.set_template_params tp, false)) h := Hole.set e hl (hN.withArgs hid hr)
  have ht' : Tab (w2.set h (nd.set_template_params tp, false)) tb ns ps := ht.mono ((Vis.prefix (hp1.trans hp2)).trans (Vis.set e _))
  obtain ⟨w3, hc3, hp3, hv3, H3⟩ := H.reveal (prefix_set (hp1.trans hp2) hl _)
  obtain ⟨nd', e', hl', hN'⟩ := H
  refine After.res e' ?_
  refine After.iteB (fun _ => After.err) fun hcs => ?_
  have hpl : (i.withArgs as).isPlain = true := by
    rw [← Bool.not_eq_false]
    intro hf
    rw [rep_notplain hN' (by cases i <;> first | rfl | cases hid) hf] at hcs
    cases hcs
  rw [← hc3]
  refine After.memoId (ht'.mono hv3) H3 fun hf w4 ns4 hp4 ht4 => ?_
  exact After.now ⟨_, R, _, by simp, hgt, fun _ => ⟨hpl, hf⟩⟩

theorem tmpl_simple (hn : AccN E n) : Acc E .tmpl (demangle_template_instantiation_name (render E) (fns (render E) n) .Simple) := by
  intro tb s w ns ps ht
  refine After.mono (tmpl_inv hn ht) ?_
  rintro _ _ ⟨x, R, t, e, hg, _⟩
  exact ⟨x, R, t, tb, e, hg⟩

theorem tmpl_template (hn : AccN E n) : Acc E .uname (demangle_template_instantiation_name (render E) (fns (render E) n) .Template) := by
  intro tb s w ns ps ht
  refine After.mono (tmpl_inv hn ht) ?_
  rintro _ _ ⟨x, R, t, e, hg, h⟩
  exact ⟨x, R, t, _, e, .uTmpl hg (h rfl).1 (h rfl).2⟩

end

end Undname
