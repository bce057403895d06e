/-
  Simulation: one lemma for every rule of the grammar of types.
-/
import Verif.Exact.SimTypes

namespace Undname.Ex
open Spec (CV FnKind Sig Adjust Access T Tbl Ext cvCodes memberCvCodes ptrCodes refCodes primCode tagCode)

section
variable {w w0 : World} {tb : Tbl} {rest : Text} {ns ps : List Handle} {t : T} {nd : Node} {k1 k2 k3 k4 : Nat} {N : Nat}

theorem sim_hole (hp : w0 <+: w) (ht : Tab w tb ns ps) (hr : Rep w t (.N nd))
    (hl : w.length + 1 = w0.length + k1 := by nodes) (hN : w0.length + k1 ≤ N := by nodes) :
    Sim N (intern nd) (mk rest w.c ns ps) (Reach w0 tb rest k1 (Hole t w0)) := by
  refine Sim.intern_end false ⟨_, ns, ps, rfl, by nodes, prefix_push hp _, ht.mono (Vis.push _), nd, get_push _ _, hp.length_le, ?_⟩
  exact hr.mono (Vis.push _)

theorem sim_seen (hp : w0 <+: w) (ht : Tab w tb ns ps) (hr : Rep w t (.N nd))
    (hl : w.length + 1 = w0.length + k1 := by nodes) (hN : w0.length + k1 ≤ N := by nodes) :
    Sim N (intern nd) (mk rest w.c ns ps) (Reach w0 tb rest k1 (Seen t w0)) := by
  refine Sim.intern_end true ⟨_, ns, ps, rfl, by nodes, prefix_push hp _, ht.mono (Vis.push _), ?_⟩
  exact .handle (get_push _ _) (hr.mono (Vis.push _))

theorem sim_tyhole (hn : t.isPtr = false) (hp : w0 <+: w) (ht : Tab w tb ns ps) (hr : Rep w t (.N nd))
    (hl : w.length + 1 = w0.length + k1 := by nodes) (hN : w0.length + k1 ≤ N := by nodes) :
    Sim N (intern nd) (mk rest w.c ns ps) (Reach w0 tb rest k1 (TyHole t w0)) :=
  Sim.mono (sim_hole hp ht hr hl hN) (by
    rintro a s ⟨w', ns', ps', e, hl, h1, h2, h3⟩
    exact ⟨w', ns', ps', e, hl, h1, h2, by rw [tyHole_of hn]; exact h3⟩)

end

/-- Reading a phrase whose result is not changed any more. -/
structure MUname (E : Env) (tb : Tbl) (t : T) (x : Text) (tb' : Tbl) (cnt : Nat) : Prop where
  head : x ≠ [] ∧ x.head? ≠ some '@'
  run : ∀ n, Runs (demangle_unqualified_type_name (fns (render E) n) true) x tb tb' (Seen t) cnt
  piece : ∀ n, Runs (demangle_name_scope_piece (render E) (fns (render E) n)) x tb tb' (Seen t) cnt

def MQtn (E : Env) (tb : Tbl) (t : T) (x : Text) (tb' : Tbl) (cnt : Nat) : Prop :=
  ∀ n, Runs (demangle_fully_qualified_type_name (render E) (fns (render E) n)) x tb tb' (Seen t) cnt

def MFty (E : Env) (b : Bool) (tb : Tbl) (t : T) (x : Text) (tb' : Tbl) (cnt : Nat) : Prop :=
  ∀ n, Runs (demangle_function_type (fns (render E) n) b) x tb tb' (Hole t) cnt ∧ t.isPtr = false

section
variable {E : Env} {tb tb' tb1 tb2 : Tbl} {t t' : T} {x y z : Text} {k1 k2 k3 k4 : Nat} {N : Nat}

theorem rule_prim (k : PrimitiveKind) : MTy E tb (.prim {} k) (primCode k) tb 1 := by
  refine ⟨by cases k <;> rfl, fun n rest w ns ps ht => ?_⟩
  refine Sim.of_eq (m' := intern (.PrimitiveType Qualifiers.Q_None k)) (s' := mk rest w.c ns ps) ?_
    (sim_tyhole rfl (List.prefix_refl _) ht (.prim QRel.none))
  unfold demangle_type_body demangle_primitive_type primitive_kind
  cases k <;> simp [run, primCode, MStr.is_tag_type, MStr.is_pointer_type, MStr.is_array_type, MStr.is_function_type,
    MStr.is_custom_type, primitiveUnderOf, primitiveOf]

theorem rule_tag (k : TagKind) (h : MQtn E tb t x tb' k1) : MTy E tb (.tag {} k t) (tagCode k ++ x) tb' (k1 + 1) := by
  refine ⟨by cases k <;> rfl, fun n rest w ns ps ht => ?_⟩
  refine Sim.of_eq (s' := mk (x ++ rest) w.c ns ps) (m' := do
    let name ← demangle_fully_qualified_type_name (render E) (fns (render E) n)
    intern (.TagType Qualifiers.Q_None name k)) ?_ ?_
  · unfold demangle_type_body demangle_class_type
    cases k <;> simp [run, tagCode, MStr.is_tag_type]
  · refine (h n).bind ht fun a w' ns' ps' hp ht' hq => ?_
    exact sim_tyhole rfl hp ht' (.tag QRel.none hq)

theorem sim_ptr {w w0 : World} {rest : Text} {ns ps : List Handle} {cls to : T} {q' : Qualifiers} {q : CV}
    {a : PointerAffinity} {co : Option Handle} {p : Handle} (hp : w0 <+: w) (ht : Tab w tb ns ps) (hq : QRel q' q)
    (hc : Rep w cls (.L (Option.toList co))) (H : Hole to w0 w p)
    (hl : w.length + 1 = w0.length + k1 := by nodes) (hN : w0.length + k1 ≤ N := by nodes) :
    Sim N (intern (.PointerType q' (some a) co p)) (mk rest w.c ns ps) (Reach w0 tb rest k1 (TyHole (.ptr q a cls to) w0)) := by
  refine Sim.intern_end false ⟨_, ns, ps, rfl, by nodes, prefix_push hp _, ht.mono (Vis.push _), ?_⟩
  refine ⟨q', co, p, get_push _ _, hp.length_le, hq, hc.mono (Vis.push _), ?_, H.forth (List.prefix_append _ _)⟩
  obtain ⟨nd, e, _⟩ := H
  exact Nat.ne_of_lt (lt_of_get e)

theorem rule_ptr {code : Text} {cv : CV} {a : PointerAffinity} {ch : Char} {q : CV} (e : Ext) (hc : (code, cv, a) ∈ refCodes)
    (hq : (ch, q) ∈ cvCodes) (h : MTy E tb t x tb' k1) :
    MTy E tb (.ptr (cv.or e.cv) a .nil (t.addQ q)) (code ++ e.code ++ ch :: x) tb' (k1 + 1) := by
  refine ⟨by rw [List.append_assoc]; exact head_ref hc _, fun n rest w ns ps ht => ?_⟩
  simp only [List.append_assoc, List.cons_append]
  refine Sim.of_eq (body_pointer hc (member_false_ext hc hq e _)) ?_
  unfold demangle_pointer_type
  obtain ⟨q1, hq1, e1⟩ := pcv_run (t := e.code ++ ch :: (x ++ rest)) (c := w.c) (ns := ns) (ps := ps) hc
  obtain ⟨q2, hq2, e2⟩ := ext_run (c := w.c) (ns := ns) (ps := ps) e (noExt_of (cv_left hq) (x ++ rest))
  refine Sim.step e1 (Sim.step (tryChar_head (ext_head_ne (cv_ne (cv_left hq)).1 (by decide) (by decide) (by decide))) ?_)
  refine Sim.step e2 ?_
  refine Runs.bind (x := ch :: x) (mty_mangle h (cv_left hq) n) ht fun p w' ns' ps' hp ht' H => ?_
  obtain ⟨w'', hc', hp', hv, H'⟩ := H.hole hp
  rw [← hc']
  exact sim_ptr hp' (ht'.mono hv) (hq1.or hq2) .nil H'

theorem rule_ptrFn {code : Text} {cv : CV} {a : PointerAffinity} (hc : (code, cv, a) ∈ refCodes)
    (h : MFty E false tb t x tb' k1) : MTy E tb (.ptr cv a .nil t) (code ++ '6' :: x) tb' (k1 + 1) := by
  refine ⟨head_ref hc _, fun n rest w ns ps ht => ?_⟩
  simp only [List.append_assoc, List.cons_append]
  refine Sim.of_eq (body_pointer hc (member_false_fn hc _)) ?_
  unfold demangle_pointer_type
  obtain ⟨q1, hq1, e1⟩ := pcv_run (t := '6' :: (x ++ rest)) (c := w.c) (ns := ns) (ps := ps) hc
  refine Sim.step e1 (Sim.step (tryChar_cons _ _ _ _ _ _) ?_)
  refine Runs.bind (h n).1 ht fun p w' ns' ps' hp ht' H => ?_
  exact sim_ptr hp ht' hq1 .nil H

theorem rule_ptrMember {n0 : T} {code : Text} {cv : CV} {ch : Char} {q : CV} (e : Ext) (hc : (code, cv) ∈ ptrCodes)
    (hq : (ch, q) ∈ memberCvCodes) (h : MQtn E tb n0 x tb1 k1) (h' : MTy E tb1 t y tb' k2) :
    MTy E tb (.ptr (cv.or e.cv) .Pointer n0.one (t.setQ q)) (code ++ e.code ++ ch :: x ++ y) tb' (k1 + k2 + 1) := by
  refine ⟨by rw [List.append_assoc, List.append_assoc]; exact head_ref (ptr_ref hc) _, fun n rest w ns ps ht => ?_⟩
  simp only [List.append_assoc, List.cons_append]
  refine Sim.of_eq (body_member_pointer hc (member_true_ext hc hq e _)) ?_
  unfold demangle_member_pointer_type
  obtain ⟨q1, hq1, e1⟩ := pcv_run (t := e.code ++ ch :: (x ++ (y ++ rest))) (c := w.c) (ns := ns) (ps := ps) (ptr_ref hc)
  obtain ⟨q2, hq2, e2⟩ := ext_run (c := w.c) (ns := ns) (ps := ps) e (noExt_of (cv_right hq) (x ++ (y ++ rest)))
  obtain ⟨q3, hq3, e3⟩ := quals_run_member (t := x ++ (y ++ rest)) (c := w.c) (ns := ns) (ps := ps) hq
  refine Sim.step e1 (Sim.step e2 ?_)
  refine Sim.step (tryChar_head (by simpa using (cv_ne (cv_right hq)).2.1)) (Sim.step e3 ?_)
  refine Runs.bind (h n) ht fun cls w1 ns1 ps1 hp1 ht1 H1 => ?_
  refine Runs.bind (mty_drop h' n) ht1 fun p w2 ns2 ps2 hp2 ht2 H2 => ?_
  obtain ⟨w3, hc3, hp3, hv3, H3⟩ := H2.hole hp2
  obtain ⟨nd, e4, hl4, H4⟩ := H3.setQ hq3
  rw [← hc3]
  refine Sim.modify false e4 ?_
  refine sim_ptr (hp1.trans (prefix_set hp3 hl4 _)) ((ht2.mono hv3).mono (Vis.set e4 _)) (hq1.or hq2) ?_ (H4.back hp1)
  exact .cons (Rep.mono ((Vis.prefix hp2).trans (hv3.trans (Vis.set e4 _))) H1) .nil

theorem rule_ptrMemberFn {n0 : T} {code : Text} {cv : CV} (hc : (code, cv) ∈ ptrCodes)
    (h : MQtn E tb n0 x tb1 k1) (h' : MFty E true tb1 t y tb' k2) :
    MTy E tb (.ptr cv .Pointer n0.one t) (code ++ '8' :: x ++ y) tb' (k1 + k2 + 1) := by
  refine ⟨by rw [List.append_assoc]; exact head_ref (ptr_ref hc) _, fun n rest w ns ps ht => ?_⟩
  simp only [List.append_assoc, List.cons_append]
  refine Sim.of_eq (body_member_pointer hc (member_true_fn hc _)) ?_
  unfold demangle_member_pointer_type
  obtain ⟨q1, hq1, e1⟩ := pcv_run (t := '8' :: (x ++ (y ++ rest))) (c := w.c) (ns := ns) (ps := ps) (ptr_ref hc)
  obtain ⟨q2, hq2, e2⟩ := ext_run (c := w.c) (ns := ns) (ps := ps) {} (t := '8' :: (x ++ (y ++ rest))) (by simp [NoExt])
  refine Sim.step e1 (Sim.step e2 (Sim.step (tryChar_cons _ _ _ _ _ _) ?_))
  refine Runs.bind (h n) ht fun cls w1 ns1 ps1 hp1 ht1 H1 => ?_
  refine Runs.bind (h' n).1 ht1 fun p w2 ns2 ps2 hp2 ht2 H2 => ?_
  refine sim_ptr (hp1.trans hp2) ht2 ?_ (.cons (Rep.mono (Vis.prefix hp2) H1) .nil) (H2.back hp1)
  have := hq1.or hq2
  rwa [show Ext.cv {} = {} from rfl, CV.or_none] at this

end

end Undname.Ex
