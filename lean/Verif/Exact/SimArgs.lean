/-
  Simulation: template arguments.
-/
import Verif.Exact.SimScopes

namespace Undname.Ex
open Spec (CV FnKind Sig Adjust Access T Tbl Ext Name Fits cvCodes memberCvCodes ptrCodes refCodes primCode tagCode)

section
variable {E : Env} {tb tb' tb1 tb2 : Tbl} {t t' : T} {x y z : Text} {k1 k2 k3 k4 : Nat} {N : Nat}

structure MTarg (E : Env) (auto : Bool) (tb : Tbl) (t : T) (x : Text) (tb' : Tbl) (cnt : Nat) : Prop where
  head : auto = false → ArgHead x
  run : ∀ n, Runs (template_argument (render E) (fns (render E) n) auto) x tb tb' (Seen t) cnt

theorem rule_taNil : MTargs E tb .nil c!"@" tb 0 := by
  intro n k acc rest w ns ps ht
  cases k with
  | zero => exact Sim.crash (c := .fuel) rfl
  | succ k =>
    refine Sim.round ?_
    unfold templateListBody
    refine Sim.step (tryChar_cons _ _ _ _ _ _) ?_
    exact Sim.pure (.inr ⟨_, rfl, w, ns, ps, rfl, by nodes, List.prefix_refl _, ht, [], by simp, .nil⟩)

theorem rule_taPack {p : Text} (hp : p ∈ [c!"$S", c!"$$V", c!"$$$V", c!"$$Z"]) (h : MTargs E tb t x tb' k1) :
    MTargs E tb t (p ++ x) tb' k1 := by
  intro n k acc rest w ns ps ht
  cases k with
  | zero => exact Sim.crash (c := .fuel) rfl
  | succ k =>
    refine Sim.round ?_
    unfold templateListBody
    rw [List.append_assoc]
    have e1 : (p ++ (x ++ rest)).head? ≠ some '@' := by
      simp only [List.mem_cons, List.not_mem_nil, or_false] at hp
      rcases hp with rfl | rfl | rfl | rfl <;> simp
    have e2 : exec (tryTable [(c!"$S", ()), (c!"$$V", ()), (c!"$$$V", ()), (c!"$$Z", ())]) (mk (p ++ (x ++ rest)) w.c ns ps) =
        .ok (some (), mk (x ++ rest) w.c ns ps) := by
      simp only [List.mem_cons, List.not_mem_nil, or_false] at hp
      rw [tryTable_eq]
      rcases hp with rfl | rfl | rfl | rfl <;> simp [List.find?, List.isPrefixOf]
    refine Sim.step (tryChar_head e1) (Sim.step e2 ?_)
    refine Sim.pure (.inl ⟨_, rfl, ?_⟩)
    exact h n k acc rest w ns ps ht

theorem targs_cons {a as : T} (hh : ArgHead x)
    (h : ∀ n rest, RunsAt (template_argument (render E) (fns (render E) n) false) x (y ++ rest) tb tb1 (Seen a) k1) (hs : MTargs E tb1 as y tb' k2) : MTargs E tb (.cons a as) (x ++ y) tb' (k1 + k2) := by
  intro n k acc rest w ns ps ht
  cases k with
  | zero => exact Sim.crash (c := .fuel) rfl
  | succ k =>
    refine Sim.round ?_
    unfold templateListBody
    rw [List.append_assoc]
    obtain ⟨c, u, e, h0, h1, h2, h3, h4, h5⟩ := hh (y ++ rest)
    have hr := h n rest w ns ps ht
    rw [e] at hr ⊢
    refine Sim.step (tryChar_head (by simpa using h0)) ?_
    refine Sim.step (pack_miss h1 h2 h3 h4) ?_
    refine Sim.query ?_
    rw [mk_str, is_empty_cons]
    refine Sim.step (tryStr_miss _ _ _ _ _ h5) ?_
    refine Sim.step (a := ()) (s' := mk (c :: u) w.c ns ps) rfl ?_
    refine Sim.bind (hr.le (by nodes)) ?_
    rintro b s ⟨w1, ns1, ps1, rfl, hl, hp1, ht1, H1⟩
    refine Sim.pure (.inl ⟨_, rfl, ?_⟩)
    refine Sim.mono ((hs n k (acc ++ [b]) rest w1 ns1 ps1 ht1).le (by nodes)) ?_
    rintro b s ⟨w2, ns2, ps2, rfl, hl, hp2, ht2, hq⟩
    exact ⟨w2, ns2, ps2, rfl, by nodes, hp1.trans hp2, ht2, more_cons H1 hp2 hq⟩

theorem rule_taCons {a as : T} (h : MTarg E false tb a x tb1 k1) (hs : MTargs E tb1 as y tb' k2) : MTargs E tb (.cons a as) (x ++ y) tb' (k1 + k2) :=
  targs_cons (h.head rfl) (fun n rest => h.run n _) hs

theorem targs_auto {a as : T} (ht0 : MTy E tb t x tb1 k1)
    (h : ∀ n rest, RunsAt (template_argument (render E) (fns (render E) n) true) y (z ++ rest) tb1 tb2 (Seen a) k2) (hs : MTargs E tb2 as z tb' k3) :
    MTargs E tb (.cons a as) (c!"$M" ++ x ++ y ++ z) tb' (k1 + k2 + k3) := by
  intro n k acc rest w ns ps ht
  cases k with
  | zero => exact Sim.crash (c := .fuel) rfl
  | succ k =>
    refine Sim.round ?_
    unfold templateListBody
    simp only [List.append_assoc, List.cons_append, List.nil_append]
    refine Sim.step (tryChar_head (by simp)) ?_
    refine Sim.step (pack_miss (by simp [List.isPrefixOf]) (by simp [List.isPrefixOf]) (by simp [List.isPrefixOf]) (by simp [List.isPrefixOf])) ?_
    refine Sim.query ?_
    rw [mk_str, is_empty_cons]
    refine Sim.step (tryStr_hit _ c!"$M" _ _ _) ?_
    refine Sim.bind (Q := fun _ s => ∃ (w1 : World) (ns1 ps1 : List Handle), s = mk (y ++ (z ++ rest)) w1.c ns1 ps1 ∧ w1.length = w.length + k1 ∧ w <+: w1 ∧ Tab w1 tb1 ns1 ps1) ?_ ?_
    · show Sim _ ((fns (render E) n).type .Drop >>= fun _ => pure ()) _ _
      refine Runs.bind (mty_drop ht0 n) ht fun p w1 ns1 ps1 hp1 ht1 H1 => ?_
      exact ⟨w1, ns1, ps1, rfl, by assumption, hp1, ht1⟩
    · rintro ⟨⟩ s ⟨w1, ns1, ps1, rfl, hl, hp1, ht1⟩
      refine RunsAt.bind (h n rest) ht1 fun b w2 ns2 ps2 hp2 ht2 H2 => ?_
      refine Sim.pure (.inl ⟨_, rfl, ?_⟩)
      refine Sim.mono ((hs n k (acc ++ [b]) rest w2 ns2 ps2 ht2).le (by nodes)) ?_
      rintro b s ⟨w3, ns3, ps3, rfl, hl, hp3, ht3, hq⟩
      exact ⟨w3, ns3, ps3, rfl, by nodes, (hp1.trans hp2).trans hp3, ht3, more_cons H2 hp3 hq⟩

theorem rule_taAuto {a as : T} (ht0 : MTy E tb t x tb1 k1) (h : MTarg E true tb1 a y tb2 k2) (hs : MTargs E tb2 as z tb' k3) :
    MTargs E tb (.cons a as) (c!"$M" ++ x ++ y ++ z) tb' (k1 + k2 + k3) := targs_auto ht0 (fun n rest => h.run n _) hs

/-! ### Arguments -/

theorem rule_aType (h : MTy E tb t x tb' k1) : MTarg E false tb t x tb' k1 := by
  refine ⟨fun _ => argHead_ty h.head, fun n => ?_⟩
  refine Runs.mark (Q := TyHole t) ?_ fun w w' a hp H => H.reveal hp
  intro rest w ns ps ht
  refine Sim.of_eq ?_ (mty_drop h n rest w ns ps ht)
  obtain ⟨c, y, rfl, h1, _, _, h5⟩ := tyHead_cons h.head
  unfold template_argument
  by_cases hc : c = '$'
  · obtain ⟨d, z, rfl, h6⟩ := h5 hc
    subst hc
    rcases h6 with rfl | rfl | rfl <;> simp [run, trySpecifier, tryTable]
  · have : ('$' == c) = false := by simpa using Ne.symm hc
    simp [run, trySpecifier, tryTable, this]

theorem rule_aTypeB {m : Bool} (h : MTy E tb t x tb' k1) : MTarg E m tb t (c!"$$B" ++ x) tb' k1 := by
  refine ⟨fun _ => argHead_dd rfl, fun n => ?_⟩
  refine Runs.mark (Q := TyHole t) ?_ fun w w' a hp H => H.reveal hp
  intro rest w ns ps ht
  refine Sim.of_eq ?_ (mty_drop h n rest w ns ps ht)
  unfold template_argument
  simp [run]

theorem rule_aTypeC {m : Bool} {ch : Char} {q : CV} (hc : (ch, q) ∈ cvCodes ++ memberCvCodes) (h : MTy E tb t x tb' k1) :
    MTarg E m tb (t.addQ q) (c!"$$C" ++ ch :: x) tb' k1 := by
  refine ⟨fun _ => argHead_dd rfl, fun n => ?_⟩
  refine Runs.mark (Q := TyHole (t.addQ q)) ?_ fun w w' a hp H => H.reveal hp
  intro rest w ns ps ht
  refine Sim.of_eq ?_ (mty_mangle h hc n rest w ns ps ht)
  unfold template_argument
  simp [run]

theorem rule_aName {m : Bool} (h : MQtn E tb t x tb' k1) : MTarg E m tb t (c!"$$Y" ++ x) tb' k1 := by
  refine ⟨fun _ => argHead_dd rfl, fun n rest w ns ps ht => ?_⟩
  refine Sim.of_eq ?_ (h n rest w ns ps ht)
  unfold template_argument
  simp [run]

theorem rule_aInt {m : Bool} {v : Nat} {neg : Bool} (h : Spec.EncInt x v neg) :
    MTarg E m tb (.int v neg) ((if m then [] else c!"$") ++ '0' :: x) tb 1 := by
  refine ⟨?_, fun n rest w ns ps ht => ?_⟩
  · rintro rfl; exact argHead_code rfl
  · refine Sim.of_eq (m' := intern (.IntegerLiteral v neg)) (s' := mk rest w.c ns ps) ?_ (sim_seen (List.prefix_refl _) ht .int)
    have := encInt_run (rest := rest) (c := w.c) (ns := ns) (ps := ps) h
    unfold template_argument
    cases m <;> simp [run, trySpecifier, tryTable, this]

/-! ### Symbols as arguments -/

theorem sim_symId {β : Type} {w : World} {ns ps : List Handle} {k : Handle → P β} {R : β → St → Prop} {symbol : Handle} {s i : T} {rest : Text}
    (H : Rep w s (.H symbol)) (hs : s.ident = some i) (hi : T.isIdNode i = true)
    (hk : ∀ h, Rep w i (.H h) → Sim N (k h) (mk rest w.c ns ps) R) : Sim N (symbol_identifier symbol >>= k) (mk rest w.c ns ps) R := by
  cases H with
  | @handle _ _ nd e H =>
    have key : ∃ qn items, nd.get_name = some qn ∧ Rep w (.qname items) (.H qn) ∧ items.last = some i := by
      unfold T.ident at hs
      cases H <;> simp only [T.nameOf] at hs <;> first | cases hs; done | skip
      all_goals
        split at hs
        · next e =>
          simp only [Option.some.injEq] at e
          subst e
          exact ⟨_, _, rfl, by assumption, hs⟩
        · cases hs
    obtain ⟨qn, items, e1, hq, hl⟩ := key
    obtain ⟨h, e2, hr⟩ := guid_run hq hl hi
    refine Sim.bind (Q := fun a s => s = mk rest w.c ns ps ∧ a = h) ?_ ?_
    · unfold symbol_identifier
      refine Sim.res e ?_
      rw [e1]
      refine Sim.get ?_
      rw [mk_cache, e2]
      exact ⟨rfl, rfl⟩
    · rintro a s ⟨rfl, rfl⟩
      exact hk a hr

theorem sim_mpSome {n : Nat} {ch : Char} {offs : List Int} {s i : T} (hc : (ch, offs.length) ∈ [('1', 0), ('H', 1), ('I', 2), ('J', 3)])
    {rest : Text} (hu : ∃ u, x = '?' :: u) (hid : T.isIdNode i = true) (hs : RunsAt (fns (render E) n).parse x (y ++ rest) tb tb' (Seen s) k1)
    (hi : s.ident = some i) (hf : Fits (i.text E)) (ho : Spec.EncInts y offs) :
    RunsAt (template_member_pointer (render E) (fns (render E) n) ch) (x ++ y) rest tb (tb'.note (i.text E)) (Seen (.addr true s.one offs)) (k1 + tb'.noteCost (i.text E) + 1) := by
  intro w ns ps ht
  obtain ⟨u, hu⟩ := hu
  unfold template_member_pointer
  rw [List.append_assoc]
  refine Sim.query ?_
  have : (MStr.new (x ++ (y ++ rest))).starts_with c!"?" = true := by rw [hu]; simp [run]
  simp only [mk_str, this, if_true]
  refine RunsAt.bind hs ht fun h w1 ns1 ps1 hp1 ht1 H1 => ?_
  refine sim_symId H1 hi hid fun h' H2 => ?_
  refine sim_memoId ht1 H2 hf fun w2 ns2 hp2 ht2 => ?_
  refine Sim.step (s' := mk (y ++ rest) w2.c ns2 ps1) rfl ?_
  refine Sim.of_eq (memberptr_offsets hc ho _) ?_
  exact sim_seen (hp1.trans hp2) ht2 (.addr (o := some h) (aff := some .Pointer) (.cons (Rep.mono (Vis.prefix hp2) H1) .nil))

theorem sim_mpNone {n : Nat} {ch : Char} {offs : List Int} (hc : (ch, offs.length) ∈ [('1', 0), ('H', 1), ('I', 2), ('J', 3)])
    (ho : Spec.EncInts y offs) (h0 : y ≠ []) (hq : y.head? ≠ some '?') :
    Runs (template_member_pointer (render E) (fns (render E) n) ch) y tb tb (Seen (.addr true .nil offs)) 1 := by
  intro rest w ns ps ht
  unfold template_member_pointer
  refine Sim.query ?_
  have : (MStr.new (y ++ rest)).starts_with c!"?" = false := by
    cases y with
    | nil => exact (h0 rfl).elim
    | cons c y =>
      have : ('?' == c) = false := by
        rw [beq_eq_false_iff_ne]; rintro rfl; exact hq rfl
      simp [run, this]
  simp only [mk_str, this, Bool.false_eq_true, if_false]
  refine Sim.step (s' := mk (y ++ rest) w.c ns ps) rfl ?_
  refine Sim.of_eq (memberptr_offsets hc ho _) ?_
  exact sim_seen (List.prefix_refl _) ht (.addr (o := none) (aff := some .Pointer) .nil)

theorem rule_aNull {m : Bool} {ch : Char} {offs : List Int} (hc : (ch, offs.length) ∈ [('H', 1), ('I', 2), ('J', 3)])
    (ho : Spec.EncInts x offs) (hq : x.head? ≠ some '?') :
    MTarg E m tb (.addr true .nil offs) ((if m then [] else c!"$") ++ ch :: x) tb 1 := by
  have h1 : ch ∈ ['1', 'H', 'I', 'J', 'F', 'G'] ∧ ch ∈ ['1', 'H', 'I', 'J'] ∧ offs ≠ [] := by
    simp only [List.mem_cons, List.not_mem_nil, or_false, Prod.mk.injEq] at hc
    rcases hc with ⟨rfl, e⟩ | ⟨rfl, e⟩ | ⟨rfl, e⟩ <;> exact ⟨by simp, by simp, by rintro rfl; simp at e⟩
  refine ⟨fun hm => mp_head h1.1 hm, fun n rest w ns ps ht => ?_⟩
  rw [List.append_assoc, List.cons_append]
  refine Sim.of_eq (mp_dispatch h1.2.1) ?_
  exact sim_mpNone (List.mem_cons_of_mem _ hc) ho (encInts_ne ho h1.2.2) hq rest w ns ps ht

theorem rule_aSym {m : Bool} {ch : Char} {offs : List Int} {s i : T} (hc : (ch, offs.length) ∈ [('1', 0), ('H', 1), ('I', 2), ('J', 3)])
    (hs : MSym E tb s x tb' k1) (hi : s.ident = some i) (hf : Fits (i.text E)) (ho : Spec.EncInts y offs) :
    MTarg E m tb (.addr true s.one offs) ((if m then [] else c!"$") ++ ch :: x ++ y) (tb'.note (i.text E)) (k1 + tb'.noteCost (i.text E) + 1) := by
  have h1 : ch ∈ ['1', 'H', 'I', 'J', 'F', 'G'] ∧ ch ∈ ['1', 'H', 'I', 'J'] := by
    simp only [List.mem_cons, List.not_mem_nil, or_false, Prod.mk.injEq] at hc
    rcases hc with ⟨rfl, e⟩ | ⟨rfl, e⟩ | ⟨rfl, e⟩ | ⟨rfl, e⟩ <;> simp
  refine ⟨fun hm => ?_, fun n rest w ns ps ht => ?_⟩
  · rw [List.append_assoc]; exact mp_head h1.1 hm
  · simp only [List.append_assoc, List.cons_append]
    refine Sim.of_eq (mp_dispatch h1.2) ?_
    have := sim_mpSome (n := n) hc hs.head (hs.ident i hi) (hs.run n (y ++ rest)) hi hf ho w ns ps ht
    rwa [List.append_assoc] at this

theorem aRef_run {m : Bool} {s : T} {n : Nat} {rest : Text} (hu : ∃ u, x = '?' :: u) (hs : RunsAt (fns (render E) n).parse x rest tb tb' (Seen s) k1) :
    RunsAt (template_argument (render E) (fns (render E) n) m) (c!"$E" ++ x) rest tb tb' (Seen (.addr false s.one [])) (k1 + 1) := by
  intro w ns ps ht
  refine Sim.of_eq (s' := mk (x ++ rest) w.c ns ps) (m' := do
    let symbol ← (fns (render E) n).parse
    intern (.TemplateParameterReference (some symbol) [] (some .Reference) false)) ?_ ?_
  · obtain ⟨u, rfl⟩ := hu
    unfold template_argument
    cases m <;> simp [run, trySpecifier, tryTable]
  · refine RunsAt.bind hs ht fun h w1 ns1 ps1 hp1 ht1 H1 => ?_
    exact sim_seen hp1 ht1 (.addr (o := some h) (aff := some .Reference) (.cons H1 .nil))

theorem rule_aRef {m : Bool} {s : T} (hs : MSym E tb s x tb' k1) : MTarg E m tb (.addr false s.one []) (c!"$E" ++ x) tb' (k1 + 1) :=
  ⟨fun _ => argHead_code rfl, fun n rest => aRef_run hs.head (hs.run n rest)⟩

theorem rule_aData {m : Bool} {ch : Char} {offs : List Int} (hc : (ch, offs.length) ∈ [('F', 2), ('G', 3)])
    (ho : Spec.EncInts x offs) : MTarg E m tb (.addr false .nil offs) ((if m then [] else c!"$") ++ ch :: x) tb 1 := by
  simp only [List.mem_cons, List.not_mem_nil, or_false, Prod.mk.injEq] at hc
  have h1 : ch ∈ ['1', 'H', 'I', 'J', 'F', 'G'] := by rcases hc with ⟨rfl, e⟩ | ⟨rfl, e⟩ <;> simp
  refine ⟨fun hm => mp_head h1 hm, fun n rest w ns ps ht => ?_⟩
  rw [List.append_assoc, List.cons_append]
  refine Sim.of_eq (m' := intern (.TemplateParameterReference none offs none true)) (s' := mk rest w.c ns ps) ?_
    (sim_seen (List.prefix_refl _) ht (.addr (o := none) (aff := none) .nil))
  have := offsets_run ho [] rest w.c ns ps (by rcases hc with ⟨_, h⟩ | ⟨_, h⟩ <;> simp [h])
  have hd : exec (template_argument (render E) (fns (render E) n) m) (mk ((if m then [] else c!"$") ++ ch :: (x ++ rest)) w.c ns ps) =
      exec (template_data_member_pointer ch) (mk (x ++ rest) w.c ns ps) := by
    unfold template_argument
    cases m <;> rcases hc with ⟨rfl, _⟩ | ⟨rfl, _⟩ <;> simp [run, trySpecifier, tryTable]
  rw [hd]
  unfold template_data_member_pointer offsets
  rcases hc with ⟨rfl, e⟩ | ⟨rfl, e⟩ <;> (rw [e] at this; simp only [run_bind_eq, this]; rfl)

end

end Undname.Ex
