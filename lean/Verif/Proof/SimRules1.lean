/-
  Simulation: one lemma for every rule of the grammar of types.
-/
import Verif.Proof.SimTypes

namespace Undname
open Spec (CV FnKind Sig Adjust Access T Tbl Ext cvCodes memberCvCodes ptrCodes refCodes primCode tagCode)

section
variable {w w0 : World} {tb : Tbl} {rest : Text} {ns ps : List Handle} {t : T} {nd : Node}

theorem sim_hole (hp : w0 <+: w) (ht : Tab w tb ns ps) (hr : Rep w t (.N nd)) :
    Sim (intern nd) (mk rest w.c ns ps) (Reach w0 tb rest (Hole t w0)) := by
  refine Sim.intern_end false ⟨_, ns, ps, rfl, prefix_push hp _, ht.mono (Vis.push _), nd, get_push _ _, hp.length_le, ?_⟩
  exact hr.mono (Vis.push _)

theorem sim_seen (hp : w0 <+: w) (ht : Tab w tb ns ps) (hr : Rep w t (.N nd)) :
    Sim (intern nd) (mk rest w.c ns ps) (Reach w0 tb rest (Seen t w0)) := by
  refine Sim.intern_end true ⟨_, ns, ps, rfl, prefix_push hp _, ht.mono (Vis.push _), ?_⟩
  exact .handle (get_push _ _) (hr.mono (Vis.push _))

theorem sim_tyhole (hn : t.isPtr = false) (hp : w0 <+: w) (ht : Tab w tb ns ps) (hr : Rep w t (.N nd)) :
    Sim (intern nd) (mk rest w.c ns ps) (Reach w0 tb rest (TyHole t w0)) :=
  Sim.mono (sim_hole hp ht hr) (by
    rintro a s ⟨w', ns', ps', e, h1, h2, h3⟩
    exact ⟨w', ns', ps', e, h1, h2, by rw [tyHole_of hn]; exact h3⟩)

end

/-- Reading a phrase whose result is not changed any more. -/
structure MUname (E : Env) (tb : Tbl) (t : T) (x : Text) (tb' : Tbl) : Prop where
  head : x ≠ [] ∧ x.head? ≠ some '@'
  run : ∀ n, Runs (demangle_unqualified_type_name (fns (render E) n) true) x tb tb' (Seen t)
  piece : ∀ n, Runs (demangle_name_scope_piece (render E) (fns (render E) n)) x tb tb' (Seen t)

def MQtn (E : Env) (tb : Tbl) (t : T) (x : Text) (tb' : Tbl) : Prop :=
  ∀ n, Runs (demangle_fully_qualified_type_name (render E) (fns (render E) n)) x tb tb' (Seen t)

def MFty (E : Env) (b : Bool) (tb : Tbl) (t : T) (x : Text) (tb' : Tbl) : Prop :=
  ∀ n, Runs (demangle_function_type (fns (render E) n) b) x tb tb' (Hole t) ∧ t.isPtr = false

section
variable {E : Env} {tb tb' tb1 tb2 : Tbl} {t t' : T} {x y z : Text}

theorem rule_prim (k : PrimitiveKind) : MTy E tb (.prim {} k) (primCode k) tb := by
  refine ⟨by cases k <;> rfl, fun n rest w ns ps ht => ?_⟩
  refine Sim.of_eq (m' := intern (.PrimitiveType Qualifiers.Q_None k)) (s' := mk rest w.c ns ps) ?_
    (sim_tyhole rfl (List.prefix_refl _) ht (.prim QRel.none))
  unfold demangle_type_body demangle_primitive_type primitive_kind
  cases k <;> simp [run, primCode, MStr.is_tag_type, MStr.is_pointer_type, MStr.is_array_type, MStr.is_function_type,
    MStr.is_custom_type, primitiveUnderOf, primitiveOf]

theorem rule_tag (k : TagKind) (h : MQtn E tb t x tb') : MTy E tb (.tag {} k t) (tagCode k ++ x) tb' := by
  refine ⟨by cases k <;> rfl, fun n rest w ns ps ht => ?_⟩
  refine Sim.of_eq (s' := mk (x ++ rest) w.c ns ps) (m' := do
    let name ← demangle_fully_qualified_type_name (render E) (fns (render E) n)
    intern (.TagType Qualifiers.Q_None name k)) ?_ ?_
  · unfold demangle_type_body demangle_class_type
    cases k <;> simp [run, tagCode, MStr.is_tag_type]
  · refine (h n).bind ht fun a w' ns' ps' hp ht' hq => ?_
    exact sim_tyhole rfl hp ht' (.tag QRel.none hq)

theorem body_pointer {r : Fns} {rend : Renderer} {code : Text} {cv : CV} {a : PointerAffinity} {s : Text} {w : World}
    {ns ps : List Handle} (hc : (code, cv, a) ∈ refCodes)
    (hm : MStr.is_member_pointer (MStr.new (code ++ s)) = .ok (some false)) :
    exec (demangle_type_body rend r) (mk (code ++ s) w.c ns ps) = exec (demangle_pointer_type r) (mk (code ++ s) w.c ns ps) := by
  unfold demangle_type_body
  simp only [run_bind_eq, query_mk, queryE_mk, andThen_ok, id, run_ite, hm]
  simp only [refCodes, List.mem_cons, List.not_mem_nil, or_false, Prod.mk.injEq] at hc
  rcases hc with ⟨rfl, rfl, rfl⟩ | ⟨rfl, rfl, rfl⟩ | ⟨rfl, rfl, rfl⟩ | ⟨rfl, rfl, rfl⟩ | ⟨rfl, rfl, rfl⟩ | ⟨rfl, rfl, rfl⟩ <;>
    simp [MStr.is_tag_type, MStr.is_pointer_type, run]

theorem body_member_pointer {r : Fns} {rend : Renderer} {code : Text} {cv : CV} {s : Text} {w : World}
    {ns ps : List Handle} (hc : (code, cv) ∈ ptrCodes)
    (hm : MStr.is_member_pointer (MStr.new (code ++ s)) = .ok (some true)) :
    exec (demangle_type_body rend r) (mk (code ++ s) w.c ns ps) = exec (demangle_member_pointer_type rend r) (mk (code ++ s) w.c ns ps) := by
  unfold demangle_type_body
  simp only [run_bind_eq, query_mk, queryE_mk, andThen_ok, id, run_ite, hm]
  simp only [ptrCodes, List.mem_cons, List.not_mem_nil, or_false, Prod.mk.injEq] at hc
  rcases hc with ⟨rfl, rfl⟩ | ⟨rfl, rfl⟩ | ⟨rfl, rfl⟩ | ⟨rfl, rfl⟩ <;>
    simp [MStr.is_tag_type, MStr.is_pointer_type, run]

theorem is_member_eq (t : Text) : MStr.is_member_pointer (MStr.new t) =
    andThen (exec MStr.member_pointer_probe (MStr.new t)) fun x => .ok x.1 := by
  unfold MStr.is_member_pointer exec andThen
  cases MStr.member_pointer_probe (MStr.new t) <;> rfl

theorem any_cons (x : Char) (t : Text) : exec MStr.try_consume (MStr.new (x :: t)) = .ok (some x, MStr.new t) := by
  have : MStr.try_consume = MStr.try_consume_char_if fun _ => true := rfl
  rw [this, char_if_cons]; rfl

theorem char_cons (x y : Char) (t : Text) : exec (MStr.try_consume_char y) (MStr.new (x :: t)) =
    if x == y then .ok (some x, MStr.new t) else .ok (none, MStr.new (x :: t)) := by
  have : MStr.try_consume_char y = MStr.try_consume_char_if fun c => c == y := rfl
  rw [this, char_if_cons]

theorem probe_ext {c ch : Char} (e : Ext) (s : Text) (h1 : (c == '$' || c == 'A') = false)
    (h2 : (c == 'P' || c == 'Q' || c == 'R' || c == 'S') = true) (h3 : isDigit ch = false) (h4 : (ch == 'E') = false)
    (h5 : (ch == 'I') = false) (h6 : (ch == 'F') = false) :
    MStr.is_member_pointer (MStr.new (c :: (e.code ++ ch :: s))) =
      .ok (if ch == 'A' || ch == 'B' || ch == 'C' || ch == 'D' then some false
        else if ch == 'Q' || ch == 'R' || ch == 'S' || ch == 'T' then some true else none) := by
  rw [is_member_eq]
  unfold MStr.member_pointer_probe
  simp only [run_bind_eq, any_cons, andThen_ok, h1, h2, if_true, Bool.false_eq_true, if_false]
  obtain ⟨e, i, f⟩ := e
  have d1 : isDigit 'E' = false := rfl
  have d2 : isDigit 'I' = false := rfl
  have d3 : isDigit 'F' = false := rfl
  cases e <;> cases i <;> cases f <;>
    (simp [Ext.code, char_if_cons, char_cons, run, h3, h4, h5, h6, d1, d2, d3]
     split
     · rfl
     · split <;> rfl)

theorem probe_digit {c d : Char} (s : Text) (h1 : (c == '$' || c == 'A') = false)
    (h2 : (c == 'P' || c == 'Q' || c == 'R' || c == 'S') = true) (h3 : isDigit d = true) :
    MStr.is_member_pointer (MStr.new (c :: d :: s)) =
      .ok (if d == '6' then some false else if d == '8' then some true else none) := by
  rw [is_member_eq]
  unfold MStr.member_pointer_probe
  simp only [run_bind_eq, any_cons, andThen_ok, h1, h2, if_true, Bool.false_eq_true, if_false]
  simp [char_if_cons, run, h3]
  split
  · rfl
  · split <;> rfl

theorem probe_ref {c : Char} (s : Text) (h1 : (c == '$' || c == 'A') = true) :
    MStr.is_member_pointer (MStr.new (c :: s)) = .ok (some false) := by
  rw [is_member_eq]
  unfold MStr.member_pointer_probe
  simp only [run_bind_eq, any_cons, andThen_ok, h1, if_true]
  rfl

theorem member_false_ext {code : Text} {cv : CV} {a : PointerAffinity} (hc : (code, cv, a) ∈ refCodes) {ch : Char} {q : CV}
    (hq : (ch, q) ∈ cvCodes) (e : Ext) (s : Text) :
    MStr.is_member_pointer (MStr.new (code ++ (e.code ++ ch :: s))) = .ok (some false) := by
  simp only [refCodes, List.mem_cons, List.not_mem_nil, or_false, Prod.mk.injEq] at hc
  simp only [cvCodes, List.mem_cons, List.not_mem_nil, or_false, Prod.mk.injEq] at hq
  rcases hc with ⟨rfl, rfl, rfl⟩ | ⟨rfl, rfl, rfl⟩ | ⟨rfl, rfl, rfl⟩ | ⟨rfl, rfl, rfl⟩ | ⟨rfl, rfl, rfl⟩ | ⟨rfl, rfl, rfl⟩
  case inr.inr.inr.inr.inl => exact probe_ref _ rfl
  case inr.inr.inr.inr.inr => exact probe_ref _ rfl
  all_goals
    rcases hq with ⟨rfl, rfl⟩ | ⟨rfl, rfl⟩ | ⟨rfl, rfl⟩ | ⟨rfl, rfl⟩ <;> exact probe_ext e s rfl rfl rfl rfl rfl rfl

theorem member_true_ext {code : Text} {cv : CV} (hc : (code, cv) ∈ ptrCodes) {ch : Char} {q : CV}
    (hq : (ch, q) ∈ memberCvCodes) (e : Ext) (s : Text) :
    MStr.is_member_pointer (MStr.new (code ++ (e.code ++ ch :: s))) = .ok (some true) := by
  simp only [ptrCodes, List.mem_cons, List.not_mem_nil, or_false, Prod.mk.injEq] at hc
  simp only [memberCvCodes, List.mem_cons, List.not_mem_nil, or_false, Prod.mk.injEq] at hq
  rcases hc with ⟨rfl, rfl⟩ | ⟨rfl, rfl⟩ | ⟨rfl, rfl⟩ | ⟨rfl, rfl⟩ <;>
    rcases hq with ⟨rfl, rfl⟩ | ⟨rfl, rfl⟩ | ⟨rfl, rfl⟩ | ⟨rfl, rfl⟩ <;> exact probe_ext e s rfl rfl rfl rfl rfl rfl

theorem member_false_fn {code : Text} {cv : CV} {a : PointerAffinity} (hc : (code, cv, a) ∈ refCodes) (s : Text) :
    MStr.is_member_pointer (MStr.new (code ++ '6' :: s)) = .ok (some false) := by
  simp only [refCodes, List.mem_cons, List.not_mem_nil, or_false, Prod.mk.injEq] at hc
  rcases hc with ⟨rfl, rfl, rfl⟩ | ⟨rfl, rfl, rfl⟩ | ⟨rfl, rfl, rfl⟩ | ⟨rfl, rfl, rfl⟩ | ⟨rfl, rfl, rfl⟩ | ⟨rfl, rfl, rfl⟩
  case inr.inr.inr.inr.inl => exact probe_ref _ rfl
  case inr.inr.inr.inr.inr => exact probe_ref _ rfl
  all_goals exact probe_digit s rfl rfl rfl

theorem member_true_fn {code : Text} {cv : CV} (hc : (code, cv) ∈ ptrCodes) (s : Text) :
    MStr.is_member_pointer (MStr.new (code ++ '8' :: s)) = .ok (some true) := by
  simp only [ptrCodes, List.mem_cons, List.not_mem_nil, or_false, Prod.mk.injEq] at hc
  rcases hc with ⟨rfl, rfl⟩ | ⟨rfl, rfl⟩ | ⟨rfl, rfl⟩ | ⟨rfl, rfl⟩ <;> exact probe_digit s rfl rfl rfl

theorem head_ref {code : Text} {cv : CV} {a : PointerAffinity} (hc : (code, cv, a) ∈ refCodes) (s : Text) :
    tyHead (code ++ s) = true := by
  simp only [refCodes, List.mem_cons, List.not_mem_nil, or_false, Prod.mk.injEq] at hc
  rcases hc with ⟨rfl, rfl, rfl⟩ | ⟨rfl, rfl, rfl⟩ | ⟨rfl, rfl, rfl⟩ | ⟨rfl, rfl, rfl⟩ | ⟨rfl, rfl, rfl⟩ | ⟨rfl, rfl, rfl⟩ <;> rfl

theorem sim_ptr {w w0 : World} {rest : Text} {ns ps : List Handle} {cls to : T} {q' : Qualifiers} {q : CV}
    {a : PointerAffinity} {co : Option Handle} {p : Handle} (hp : w0 <+: w) (ht : Tab w tb ns ps) (hq : QRel q' q)
    (hc : Rep w cls (.L (Option.toList co))) (H : Hole to w0 w p) :
    Sim (intern (.PointerType q' (some a) co p)) (mk rest w.c ns ps) (Reach w0 tb rest (TyHole (.ptr q a cls to) w0)) := by
  refine Sim.intern_end false ⟨_, ns, ps, rfl, prefix_push hp _, ht.mono (Vis.push _), ?_⟩
  refine ⟨q', co, p, get_push _ _, hp.length_le, hq, hc.mono (Vis.push _), ?_, H.forth (List.prefix_append _ _)⟩
  obtain ⟨nd, e, _⟩ := H
  exact Nat.ne_of_lt (lt_of_get e)

theorem ext_head_ne {e : Ext} {ch d : Char} {s : Text} (h : ch ≠ d) (h1 : 'E' ≠ d) (h2 : 'I' ≠ d) (h3 : 'F' ≠ d) :
    (e.code ++ ch :: s).head? ≠ some d := by
  obtain ⟨e, i, f⟩ := e
  cases e <;> cases i <;> cases f <;> simp [Ext.code, h, h1, h2, h3]

theorem cv_ne {ch : Char} {q : CV} (h : (ch, q) ∈ cvCodes ++ memberCvCodes) : ch ≠ '6' ∧ ch ≠ '8' ∧ ch ≠ 'G' ∧ ch ≠ 'H' ∧ ch ≠ '@' := by
  simp only [cvCodes, memberCvCodes, List.cons_append, List.nil_append, List.mem_cons, List.not_mem_nil, or_false, Prod.mk.injEq] at h
  rcases h with ⟨rfl, _⟩ | ⟨rfl, _⟩ | ⟨rfl, _⟩ | ⟨rfl, _⟩ | ⟨rfl, _⟩ | ⟨rfl, _⟩ | ⟨rfl, _⟩ | ⟨rfl, _⟩ <;> decide

theorem cv_left {ch : Char} {q : CV} (h : (ch, q) ∈ cvCodes) : (ch, q) ∈ cvCodes ++ memberCvCodes := List.mem_append_left _ h
theorem cv_right {ch : Char} {q : CV} (h : (ch, q) ∈ memberCvCodes) : (ch, q) ∈ cvCodes ++ memberCvCodes := List.mem_append_right _ h

theorem rule_ptr {code : Text} {cv : CV} {a : PointerAffinity} {ch : Char} {q : CV} (e : Ext) (hc : (code, cv, a) ∈ refCodes)
    (hq : (ch, q) ∈ cvCodes) (h : MTy E tb t x tb') :
    MTy E tb (.ptr (cv.or e.cv) a .nil (t.addQ q)) (code ++ e.code ++ ch :: x) tb' := by
  refine ⟨by rw [List.append_assoc]; exact head_ref hc _, fun n rest w ns ps ht => ?_⟩
  simp only [List.append_assoc, List.cons_append]
  refine Sim.of_eq (body_pointer hc (member_false_ext hc hq e _)) ?_
  unfold demangle_pointer_type
  obtain ⟨q1, hq1, e1⟩ := pcv_run (t := e.code ++ ch :: (x ++ rest)) (c := w.c) (ns := ns) (ps := ps) hc
  obtain ⟨q2, hq2, e2⟩ := ext_run (c := w.c) (ns := ns) (ps := ps) e (noExt_of (cv_left hq) (x ++ rest))
  refine Sim.step e1 (Sim.step (tryChar_head (ext_head_ne (cv_ne (cv_left hq)).1 (by decide) (by decide) (by decide))) ?_)
  refine Sim.step e2 ?_
  refine Runs.bind (x := ch :: x) (mty_mangle h (cv_left hq) n) ht fun p w' ns' ps' hp ht' H => ?_
  obtain ⟨w'', hc', hp', hv, H'⟩ := H.hole hp
  rw [← hc']
  exact sim_ptr hp' (ht'.mono hv) (hq1.or hq2) .nil H'

theorem rule_ptrFn {code : Text} {cv : CV} {a : PointerAffinity} (hc : (code, cv, a) ∈ refCodes)
    (h : MFty E false tb t x tb') : MTy E tb (.ptr cv a .nil t) (code ++ '6' :: x) tb' := by
  refine ⟨head_ref hc _, fun n rest w ns ps ht => ?_⟩
  simp only [List.append_assoc, List.cons_append]
  refine Sim.of_eq (body_pointer hc (member_false_fn hc _)) ?_
  unfold demangle_pointer_type
  obtain ⟨q1, hq1, e1⟩ := pcv_run (t := '6' :: (x ++ rest)) (c := w.c) (ns := ns) (ps := ps) hc
  refine Sim.step e1 (Sim.step (tryChar_cons _ _ _ _ _ _) ?_)
  refine Runs.bind (h n).1 ht fun p w' ns' ps' hp ht' H => ?_
  exact sim_ptr hp ht' hq1 .nil H

theorem rule_ptrMember {n0 : T} {code : Text} {cv : CV} {ch : Char} {q : CV} (e : Ext) (hc : (code, cv) ∈ ptrCodes)
    (hq : (ch, q) ∈ memberCvCodes) (h : MQtn E tb n0 x tb1) (h' : MTy E tb1 t y tb') :
    MTy E tb (.ptr (cv.or e.cv) .Pointer n0.one (t.setQ q)) (code ++ e.code ++ ch :: x ++ y) tb' := by
  refine ⟨by rw [List.append_assoc, List.append_assoc]; exact head_ref (ptr_ref hc) _, fun n rest w ns ps ht => ?_⟩
  simp only [List.append_assoc, List.cons_append]
  refine Sim.of_eq (body_member_pointer hc (member_true_ext hc hq e _)) ?_
  unfold demangle_member_pointer_type
  obtain ⟨q1, hq1, e1⟩ := pcv_run (t := e.code ++ ch :: (x ++ (y ++ rest))) (c := w.c) (ns := ns) (ps := ps) (ptr_ref hc)
  obtain ⟨q2, hq2, e2⟩ := ext_run (c := w.c) (ns := ns) (ps := ps) e (noExt_of (cv_right hq) (x ++ (y ++ rest)))
  obtain ⟨q3, hq3, e3⟩ := quals_run_member (t := x ++ (y ++ rest)) (c := w.c) (ns := ns) (ps := ps) hq
  refine Sim.step e1 (Sim.step e2 ?_)
  refine Sim.step (tryChar_head (by simpa using (cv_ne (cv_right hq)).2.1)) (Sim.step e3 ?_)
  refine Runs.bind (h n) ht fun cls w1 ns1 ps1 hp1 ht1 H1 => ?_
  refine Runs.bind (mty_drop h' n) ht1 fun p w2 ns2 ps2 hp2 ht2 H2 => ?_
  obtain ⟨w3, hc3, hp3, hv3, H3⟩ := H2.hole hp2
  obtain ⟨nd, e4, hl4, H4⟩ := H3.setQ hq3
  rw [← hc3]
  refine Sim.modify false e4 ?_
  refine sim_ptr (hp1.trans (prefix_set hp3 hl4 _)) ((ht2.mono hv3).mono (Vis.set e4 _)) (hq1.or hq2) ?_ (H4.back hp1)
  exact .cons (Rep.mono ((Vis.prefix hp2).trans (hv3.trans (Vis.set e4 _))) H1) .nil

theorem rule_ptrMemberFn {n0 : T} {code : Text} {cv : CV} (hc : (code, cv) ∈ ptrCodes)
    (h : MQtn E tb n0 x tb1) (h' : MFty E true tb1 t y tb') :
    MTy E tb (.ptr cv .Pointer n0.one t) (code ++ '8' :: x ++ y) tb' := by
  refine ⟨by rw [List.append_assoc]; exact head_ref (ptr_ref hc) _, fun n rest w ns ps ht => ?_⟩
  simp only [List.append_assoc, List.cons_append]
  refine Sim.of_eq (body_member_pointer hc (member_true_fn hc _)) ?_
  unfold demangle_member_pointer_type
  obtain ⟨q1, hq1, e1⟩ := pcv_run (t := '8' :: (x ++ (y ++ rest))) (c := w.c) (ns := ns) (ps := ps) (ptr_ref hc)
  obtain ⟨q2, hq2, e2⟩ := ext_run (c := w.c) (ns := ns) (ps := ps) {} (t := '8' :: (x ++ (y ++ rest))) (by simp [NoExt])
  refine Sim.step e1 (Sim.step e2 (Sim.step (tryChar_cons _ _ _ _ _ _) ?_))
  refine Runs.bind (h n) ht fun cls w1 ns1 ps1 hp1 ht1 H1 => ?_
  refine Runs.bind (h' n).1 ht1 fun p w2 ns2 ps2 hp2 ht2 H2 => ?_
  refine sim_ptr (hp1.trans hp2) ht2 ?_ (.cons (Rep.mono (Vis.prefix hp2) H1) .nil) (H2.back hp1)
  have := hq1.or hq2
  rwa [show Ext.cv {} = {} from rfl, CV.or_none] at this

end

end Undname
