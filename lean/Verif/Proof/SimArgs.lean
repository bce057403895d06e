/-
  Simulation: template arguments.
-/
import Verif.Proof.SimScopes

namespace Undname
open Spec (CV FnKind Sig Adjust Access T Tbl Ext Name Fits cvCodes memberCvCodes ptrCodes refCodes primCode tagCode)

/-- What may not come next when a template argument is expected. -/
def ArgHead (x : Text) : Prop := ∀ rest, ∃ c u, x ++ rest = c :: u ∧ c ≠ '@' ∧ (c!"$S").isPrefixOf (c :: u) = false ∧
  (c!"$$V").isPrefixOf (c :: u) = false ∧ (c!"$$$V").isPrefixOf (c :: u) = false ∧ (c!"$$Z").isPrefixOf (c :: u) = false ∧
  (c!"$M").isPrefixOf (c :: u) = false

section
variable {E : Env} {tb tb' tb1 tb2 : Tbl} {t t' : T} {x y z : Text}

structure MTarg (E : Env) (auto : Bool) (tb : Tbl) (t : T) (x : Text) (tb' : Tbl) : Prop where
  head : auto = false → ArgHead x
  run : ∀ n, Runs (template_argument (render E) (fns (render E) n) auto) x tb tb' (Seen t)

theorem rule_taNil : MTargs E tb .nil c!"@" tb := by
  intro n k acc rest w ns ps ht
  cases k with
  | zero => exact Sim.crash (c := .fuel) rfl
  | succ k =>
    refine Sim.round ?_
    unfold templateListBody
    refine Sim.step (tryChar_cons _ _ _ _ _ _) ?_
    exact Sim.pure (.inr ⟨_, rfl, w, ns, ps, rfl, List.prefix_refl _, ht, [], by simp, .nil⟩)

theorem rule_taPack {p : Text} (hp : p ∈ [c!"$S", c!"$$V", c!"$$$V", c!"$$Z"]) (h : MTargs E tb t x tb') :
    MTargs E tb t (p ++ x) tb' := by
  intro n k acc rest w ns ps ht
  cases k with
  | zero => exact Sim.crash (c := .fuel) rfl
  | succ k =>
    refine Sim.round ?_
    unfold templateListBody
    rw [List.append_assoc]
    have e1 : (p ++ (x ++ rest)).head? ≠ some '@' := by
      simp only [List.mem_cons, List.not_mem_nil, or_false] at hp
      rcases hp with rfl | rfl | rfl | rfl <;> simp
    have e2 : exec (tryTable [(c!"$S", ()), (c!"$$V", ()), (c!"$$$V", ()), (c!"$$Z", ())]) (mk (p ++ (x ++ rest)) w.c ns ps) =
        .ok (some (), mk (x ++ rest) w.c ns ps) := by
      simp only [List.mem_cons, List.not_mem_nil, or_false] at hp
      rw [tryTable_eq]
      rcases hp with rfl | rfl | rfl | rfl <;> simp [List.find?, List.isPrefixOf]
    refine Sim.step (tryChar_head e1) (Sim.step e2 ?_)
    refine Sim.pure (.inl ⟨_, rfl, ?_⟩)
    exact h n k acc rest w ns ps ht

theorem pack_miss {c : Char} {u : Text} {ca : Cache} {ns ps : List Handle} (h1 : (c!"$S").isPrefixOf (c :: u) = false)
    (h2 : (c!"$$V").isPrefixOf (c :: u) = false) (h3 : (c!"$$$V").isPrefixOf (c :: u) = false) (h4 : (c!"$$Z").isPrefixOf (c :: u) = false) :
    exec (tryTable [(c!"$S", ()), (c!"$$V", ()), (c!"$$$V", ()), (c!"$$Z", ())]) (mk (c :: u) ca ns ps) = .ok (none, mk (c :: u) ca ns ps) := by
  rw [tryTable_eq]
  simp only [List.find?, h1, h2, h3, h4]

theorem targs_cons {a as : T} (hh : ArgHead x)
    (h : ∀ n rest, RunsAt (template_argument (render E) (fns (render E) n) false) x (y ++ rest) tb tb1 (Seen a)) (hs : MTargs E tb1 as y tb') : MTargs E tb (.cons a as) (x ++ y) tb' := by
  intro n k acc rest w ns ps ht
  cases k with
  | zero => exact Sim.crash (c := .fuel) rfl
  | succ k =>
    refine Sim.round ?_
    unfold templateListBody
    rw [List.append_assoc]
    obtain ⟨c, u, e, h0, h1, h2, h3, h4, h5⟩ := hh (y ++ rest)
    have hr := h n rest w ns ps ht
    rw [e] at hr ⊢
    refine Sim.step (tryChar_head (by simpa using h0)) ?_
    refine Sim.step (pack_miss h1 h2 h3 h4) ?_
    refine Sim.query ?_
    rw [mk_str, is_empty_cons]
    refine Sim.step (tryStr_miss _ _ _ _ _ h5) ?_
    refine Sim.step (a := ()) (s' := mk (c :: u) w.c ns ps) rfl ?_
    refine Sim.bind hr ?_
    rintro b s ⟨w1, ns1, ps1, rfl, hp1, ht1, H1⟩
    refine Sim.pure (.inl ⟨_, rfl, ?_⟩)
    refine Sim.mono (hs n k (acc ++ [b]) rest w1 ns1 ps1 ht1) ?_
    rintro b s ⟨w2, ns2, ps2, rfl, hp2, ht2, hq⟩
    exact ⟨w2, ns2, ps2, rfl, hp1.trans hp2, ht2, more_cons H1 hp2 hq⟩

theorem rule_taCons {a as : T} (h : MTarg E false tb a x tb1) (hs : MTargs E tb1 as y tb') : MTargs E tb (.cons a as) (x ++ y) tb' :=
  targs_cons (h.head rfl) (fun n rest => h.run n _) hs

theorem targs_auto {a as : T} (ht0 : MTy E tb t x tb1)
    (h : ∀ n rest, RunsAt (template_argument (render E) (fns (render E) n) true) y (z ++ rest) tb1 tb2 (Seen a)) (hs : MTargs E tb2 as z tb') :
    MTargs E tb (.cons a as) (c!"$M" ++ x ++ y ++ z) tb' := by
  intro n k acc rest w ns ps ht
  cases k with
  | zero => exact Sim.crash (c := .fuel) rfl
  | succ k =>
    refine Sim.round ?_
    unfold templateListBody
    simp only [List.append_assoc, List.cons_append, List.nil_append]
    refine Sim.step (tryChar_head (by simp)) ?_
    refine Sim.step (pack_miss (by simp [List.isPrefixOf]) (by simp [List.isPrefixOf]) (by simp [List.isPrefixOf]) (by simp [List.isPrefixOf])) ?_
    refine Sim.query ?_
    rw [mk_str, is_empty_cons]
    refine Sim.step (tryStr_hit _ c!"$M" _ _ _) ?_
    refine Sim.bind (Q := fun _ s => ∃ (w1 : World) (ns1 ps1 : List Handle), s = mk (y ++ (z ++ rest)) w1.c ns1 ps1 ∧ w <+: w1 ∧ Tab w1 tb1 ns1 ps1) ?_ ?_
    · show Sim ((fns (render E) n).type .Drop >>= fun _ => pure ()) _ _
      refine Runs.bind (mty_drop ht0 n) ht fun p w1 ns1 ps1 hp1 ht1 H1 => ?_
      exact ⟨w1, ns1, ps1, rfl, hp1, ht1⟩
    · rintro ⟨⟩ s ⟨w1, ns1, ps1, rfl, hp1, ht1⟩
      refine RunsAt.bind (h n rest) ht1 fun b w2 ns2 ps2 hp2 ht2 H2 => ?_
      refine Sim.pure (.inl ⟨_, rfl, ?_⟩)
      refine Sim.mono (hs n k (acc ++ [b]) rest w2 ns2 ps2 ht2) ?_
      rintro b s ⟨w3, ns3, ps3, rfl, hp3, ht3, hq⟩
      exact ⟨w3, ns3, ps3, rfl, (hp1.trans hp2).trans hp3, ht3, more_cons H2 hp3 hq⟩

theorem rule_taAuto {a as : T} (ht0 : MTy E tb t x tb1) (h : MTarg E true tb1 a y tb2) (hs : MTargs E tb2 as z tb') :
    MTargs E tb (.cons a as) (c!"$M" ++ x ++ y ++ z) tb' := targs_auto ht0 (fun n rest => h.run n _) hs

/-! ### Arguments -/

theorem argHead_code {c d : Char} {u : Text} (h : ((c == '$' && (d == '1' || d == 'H' || d == 'I' || d == 'J' || d == 'E' || d == 'F' || d == 'G' || d == '0')) : Bool) = true) :
    ArgHead (c :: d :: u) := by
  intro rest
  refine ⟨c, d :: (u ++ rest), rfl, ?_⟩
  simp only [Bool.and_eq_true, Bool.or_eq_true, beq_iff_eq] at h
  obtain ⟨rfl, h⟩ := h
  refine ⟨by decide, ?_⟩
  rcases h with ((((((rfl | rfl) | rfl) | rfl) | rfl) | rfl) | rfl) | rfl <;> simp [List.isPrefixOf]

theorem argHead_dd {d : Char} {u : Text} (h : (d == 'B' || d == 'C' || d == 'Y' || d == 'A' || d == 'Q' || d == 'T') = true) :
    ArgHead ('$' :: '$' :: d :: u) := by
  intro rest
  refine ⟨'$', '$' :: d :: (u ++ rest), rfl, by decide, ?_⟩
  simp only [Bool.or_eq_true, beq_iff_eq] at h
  rcases h with ((((rfl | rfl) | rfl) | rfl) | rfl) | rfl <;> simp [List.isPrefixOf]

theorem argHead_ty {x : Text} (h : tyHead x = true) : ArgHead x := by
  obtain ⟨c, y, rfl, h1, _, _, h5⟩ := tyHead_cons h
  by_cases hc : c = '$'
  · obtain ⟨d, z, rfl, h6⟩ := h5 hc
    subst hc
    exact argHead_dd (by rcases h6 with rfl | rfl | rfl <;> rfl)
  · intro rest
    have : ('$' == c) = false := by simpa using Ne.symm hc
    exact ⟨c, y ++ rest, rfl, h1, by simp [List.isPrefixOf, this]⟩

theorem rule_aType (h : MTy E tb t x tb') : MTarg E false tb t x tb' := by
  refine ⟨fun _ => argHead_ty h.head, fun n => ?_⟩
  refine Runs.mark (Q := TyHole t) ?_ fun w w' a hp H => H.reveal hp
  intro rest w ns ps ht
  refine Sim.of_eq ?_ (mty_drop h n rest w ns ps ht)
  obtain ⟨c, y, rfl, h1, _, _, h5⟩ := tyHead_cons h.head
  unfold template_argument
  by_cases hc : c = '$'
  · obtain ⟨d, z, rfl, h6⟩ := h5 hc
    subst hc
    rcases h6 with rfl | rfl | rfl <;> simp [run, trySpecifier, tryTable]
  · have : ('$' == c) = false := by simpa using Ne.symm hc
    simp [run, trySpecifier, tryTable, this]

theorem rule_aTypeB {m : Bool} (h : MTy E tb t x tb') : MTarg E m tb t (c!"$$B" ++ x) tb' := by
  refine ⟨fun _ => argHead_dd rfl, fun n => ?_⟩
  refine Runs.mark (Q := TyHole t) ?_ fun w w' a hp H => H.reveal hp
  intro rest w ns ps ht
  refine Sim.of_eq ?_ (mty_drop h n rest w ns ps ht)
  unfold template_argument
  simp [run]

theorem rule_aTypeC {m : Bool} {ch : Char} {q : CV} (hc : (ch, q) ∈ cvCodes ++ memberCvCodes) (h : MTy E tb t x tb') :
    MTarg E m tb (t.addQ q) (c!"$$C" ++ ch :: x) tb' := by
  refine ⟨fun _ => argHead_dd rfl, fun n => ?_⟩
  refine Runs.mark (Q := TyHole (t.addQ q)) ?_ fun w w' a hp H => H.reveal hp
  intro rest w ns ps ht
  refine Sim.of_eq ?_ (mty_mangle h hc n rest w ns ps ht)
  unfold template_argument
  simp [run]

theorem rule_aName {m : Bool} (h : MQtn E tb t x tb') : MTarg E m tb t (c!"$$Y" ++ x) tb' := by
  refine ⟨fun _ => argHead_dd rfl, fun n rest w ns ps ht => ?_⟩
  refine Sim.of_eq ?_ (h n rest w ns ps ht)
  unfold template_argument
  simp [run]

theorem rule_aInt {m : Bool} {v : Nat} {neg : Bool} (h : Spec.EncInt x v neg) :
    MTarg E m tb (.int v neg) ((if m then [] else c!"$") ++ '0' :: x) tb := by
  refine ⟨?_, fun n rest w ns ps ht => ?_⟩
  · rintro rfl; exact argHead_code rfl
  · refine Sim.of_eq (m' := intern (.IntegerLiteral v neg)) (s' := mk rest w.c ns ps) ?_ (sim_seen (List.prefix_refl _) ht .int)
    have := encInt_run (rest := rest) (c := w.c) (ns := ns) (ps := ps) h
    unfold template_argument
    cases m <;> simp [run, trySpecifier, tryTable, this]

theorem offsets_run {offs : List Int} (h : Spec.EncInts x offs) : ∀ (acc : List Int) (rest : Text) (c : Cache) (ns ps : List Handle),
    acc.length + offs.length ≤ 3 →
    exec (SM.forN offs.length (fun l => do
      let o ← demangle_signed
      if l.length < 3 then pure (l ++ [o]) else SM.err .InvalidTemplateParameterList) acc) (mk (x ++ rest) c ns ps) =
      .ok (acc ++ offs, mk rest c ns ps) := by
  induction h with
  | nil => intro acc rest c ns ps _; simp [SM.forN, run]
  | @cons x y i is hx _ ih =>
    intro acc rest c ns ps hl
    rw [List.length_cons, run_forN_succ, List.append_assoc]
    simp only [List.length_cons] at hl
    rw [run_bind_eq, signed_run hx, andThen_ok]
    dsimp only
    rw [if_pos (by omega), run_pure, andThen_ok, ih _ _ _ _ _ (by simp; omega)]
    simp

theorem memberptr_offsets {ch : Char} {offs : List Int} (hc : (ch, offs.length) ∈ [('1', 0), ('H', 1), ('I', 2), ('J', 3)]) (h : Spec.EncInts x offs)
    {rest : Text} {c : Cache} {ns ps : List Handle} {β : Type} (K : List Int → P β) :
    exec (match (motive := Char → P β) ch with
    | '1' => offsets 0 >>= K
    | 'H' => offsets 1 >>= K
    | 'I' => offsets 2 >>= K
    | 'J' => offsets 3 >>= K
    | _ => SM.err .InvalidTemplateParameterList >>= K) (mk (x ++ rest) c ns ps) = exec (K offs) (mk rest c ns ps) := by
  simp only [List.mem_cons, List.not_mem_nil, or_false, Prod.mk.injEq] at hc
  have key : ∀ (acc : List Int), acc.length + offs.length ≤ 3 → _ := fun acc => offsets_run h acc rest c ns ps
  have := key [] (by rcases hc with ⟨_, h⟩ | ⟨_, h⟩ | ⟨_, h⟩ | ⟨_, h⟩ <;> simp [h])
  rcases hc with ⟨rfl, e⟩ | ⟨rfl, e⟩ | ⟨rfl, e⟩ | ⟨rfl, e⟩ <;>
    (rw [e] at this; simp only [run_bind_eq]; unfold offsets; rw [this]; rfl)


/-! ### Symbols as arguments -/

theorem rep_last {w : World} {i : T} {hs : List Handle} (H : Rep w t (.L hs)) (hl : t.last = some i) :
    ∃ h, hs.getLast? = some h ∧ Rep w i (.H h) := by
  induction hs generalizing t with
  | nil => cases H; simp [T.last] at hl
  | cons a hs ih =>
    cases H with
    | @cons t1 ts _ _ h1 h2 =>
      cases hs with
      | nil =>
        cases h2
        simp only [T.last, Option.some.injEq] at hl
        subst hl
        exact ⟨a, rfl, h1⟩
      | cons b hs =>
        cases h2 with
        | @cons t2 ts2 _ _ h3 h4 =>
          have : (T.cons t1 (T.cons t2 ts2)).last = (T.cons t2 ts2).last := rfl
          rw [this] at hl
          obtain ⟨h, e, hr⟩ := ih (.cons h3 h4) hl
          exact ⟨h, by rw [List.getLast?_cons_cons]; exact e, hr⟩

theorem rep_idNode {w : World} {nd : Node} (H : Rep w t (.N nd)) (h : T.isIdNode t = true) : nd.is .IIdentifierNode = true := by
  cases H <;> first | rfl | cases h

/-- The last component of a qualified name. -/
theorem guid_run {w : World} {qn : Handle} {items i : T} (H : Rep w (.qname items) (.H qn)) (hl : items.last = some i) (hi : T.isIdNode i = true) :
    ∃ h, get_unqualified_identifier w.c qn = .ok (some h) ∧ Rep w i (.H h) := by
  cases H with
  | handle e H =>
    cases H with
    | qname e1 H1 =>
      obtain ⟨h, e2, hr⟩ := rep_last H1 hl
      refine ⟨h, ?_, hr⟩
      cases hr with
      | @handle _ _ nd e3 h3 =>
        unfold get_unqualified_identifier
        rw [resolve_get (World.c_get e) rfl]
        dsimp only
        rw [resolve_get (World.c_get e1) rfl]
        dsimp only
        rw [e2]
        dsimp only
        unfold downcast
        have hid := rep_idNode h3 hi
        have : nd.is .INode = true := by
          revert hid; cases nd <;> first | (intro _; rfl) | (intro h; cases h)
        rw [resolve_get (World.c_get e3) this]
        simp [hid]

theorem sim_symId {β : Type} {w : World} {ns ps : List Handle} {k : Handle → P β} {R : β → St → Prop} {symbol : Handle} {s i : T} {rest : Text}
    (H : Rep w s (.H symbol)) (hs : s.ident = some i) (hi : T.isIdNode i = true)
    (hk : ∀ h, Rep w i (.H h) → Sim (k h) (mk rest w.c ns ps) R) : Sim (symbol_identifier symbol >>= k) (mk rest w.c ns ps) R := by
  cases H with
  | @handle _ _ nd e H =>
    have key : ∃ qn items, nd.get_name = some qn ∧ Rep w (.qname items) (.H qn) ∧ items.last = some i := by
      unfold T.ident at hs
      cases H <;> simp only [T.nameOf] at hs <;> first | cases hs; done | skip
      all_goals
        split at hs
        · next e =>
          simp only [Option.some.injEq] at e
          subst e
          exact ⟨_, _, rfl, by assumption, hs⟩
        · cases hs
    obtain ⟨qn, items, e1, hq, hl⟩ := key
    obtain ⟨h, e2, hr⟩ := guid_run hq hl hi
    refine Sim.bind (Q := fun a s => s = mk rest w.c ns ps ∧ a = h) ?_ ?_
    · unfold symbol_identifier
      refine Sim.res e ?_
      rw [e1]
      refine Sim.get ?_
      rw [mk_cache, e2]
      exact ⟨rfl, rfl⟩
    · rintro a s ⟨rfl, rfl⟩
      exact hk a hr

theorem sim_mpSome {n : Nat} {ch : Char} {offs : List Int} {s i : T} (hc : (ch, offs.length) ∈ [('1', 0), ('H', 1), ('I', 2), ('J', 3)])
    {rest : Text} (hu : ∃ u, x = '?' :: u) (hid : T.isIdNode i = true) (hs : RunsAt (fns (render E) n).parse x (y ++ rest) tb tb' (Seen s))
    (hi : s.ident = some i) (hf : Fits (i.text E)) (ho : Spec.EncInts y offs) :
    RunsAt (template_member_pointer (render E) (fns (render E) n) ch) (x ++ y) rest tb (tb'.note (i.text E)) (Seen (.addr true s.one offs)) := by
  intro w ns ps ht
  obtain ⟨u, hu⟩ := hu
  unfold template_member_pointer
  rw [List.append_assoc]
  refine Sim.query ?_
  have : (MStr.new (x ++ (y ++ rest))).starts_with c!"?" = true := by rw [hu]; simp [run]
  simp only [mk_str, this, if_true]
  refine RunsAt.bind hs ht fun h w1 ns1 ps1 hp1 ht1 H1 => ?_
  refine sim_symId H1 hi hid fun h' H2 => ?_
  refine sim_memoId ht1 H2 hf fun w2 ns2 hp2 ht2 => ?_
  refine Sim.step (s' := mk (y ++ rest) w2.c ns2 ps1) rfl ?_
  refine Sim.of_eq (memberptr_offsets hc ho _) ?_
  exact sim_seen (hp1.trans hp2) ht2 (.addr (o := some h) (aff := some .Pointer) (.cons (Rep.mono (Vis.prefix hp2) H1) .nil))

theorem sim_mpNone {n : Nat} {ch : Char} {offs : List Int} (hc : (ch, offs.length) ∈ [('1', 0), ('H', 1), ('I', 2), ('J', 3)])
    (ho : Spec.EncInts y offs) (h0 : y ≠ []) (hq : y.head? ≠ some '?') :
    Runs (template_member_pointer (render E) (fns (render E) n) ch) y tb tb (Seen (.addr true .nil offs)) := by
  intro rest w ns ps ht
  unfold template_member_pointer
  refine Sim.query ?_
  have : (MStr.new (y ++ rest)).starts_with c!"?" = false := by
    cases y with
    | nil => exact (h0 rfl).elim
    | cons c y =>
      have : ('?' == c) = false := by
        rw [beq_eq_false_iff_ne]; rintro rfl; exact hq rfl
      simp [run, this]
  simp only [mk_str, this, Bool.false_eq_true, if_false]
  refine Sim.step (s' := mk (y ++ rest) w.c ns ps) rfl ?_
  refine Sim.of_eq (memberptr_offsets hc ho _) ?_
  exact sim_seen (List.prefix_refl _) ht (.addr (o := none) (aff := some .Pointer) .nil)

theorem mp_dispatch {m : Bool} {r : Fns} {ch : Char} {u : Text} {c : Cache} {ns ps : List Handle} (hc : ch ∈ ['1', 'H', 'I', 'J']) :
    exec (template_argument (render E) r m) (mk ((if m then [] else c!"$") ++ ch :: u) c ns ps) =
      exec (template_member_pointer (render E) r ch) (mk u c ns ps) := by
  unfold template_argument
  simp only [List.mem_cons, List.not_mem_nil, or_false] at hc
  cases m <;> rcases hc with rfl | rfl | rfl | rfl <;> simp [run, trySpecifier, tryTable]

theorem mp_head {m : Bool} {ch : Char} {u : Text} (hc : ch ∈ ['1', 'H', 'I', 'J', 'F', 'G']) (hm : m = false) : ArgHead ((if m then [] else c!"$") ++ ch :: u) := by
  subst hm
  refine argHead_code ?_
  simp only [List.mem_cons, List.not_mem_nil, or_false] at hc
  rcases hc with rfl | rfl | rfl | rfl | rfl | rfl <;> rfl

theorem encNat_ne {n : Nat} (h : Spec.EncNat x n) : x ≠ [] := by
  cases h with
  | digit => simp
  | hex => simp

theorem encInts_ne {offs : List Int} (h : Spec.EncInts x offs) (h0 : offs ≠ []) : x ≠ [] := by
  cases h with
  | nil => exact (h0 rfl).elim
  | @cons x y i is hx _ =>
    intro e
    have : x = [] := (List.append_eq_nil_iff.1 e).1
    subst this
    cases hx with
    | mk h hn => cases h with
      | pos h => exact encNat_ne h rfl

theorem rule_aNull {m : Bool} {ch : Char} {offs : List Int} (hc : (ch, offs.length) ∈ [('H', 1), ('I', 2), ('J', 3)])
    (ho : Spec.EncInts x offs) (hq : x.head? ≠ some '?') :
    MTarg E m tb (.addr true .nil offs) ((if m then [] else c!"$") ++ ch :: x) tb := by
  have h1 : ch ∈ ['1', 'H', 'I', 'J', 'F', 'G'] ∧ ch ∈ ['1', 'H', 'I', 'J'] ∧ offs ≠ [] := by
    simp only [List.mem_cons, List.not_mem_nil, or_false, Prod.mk.injEq] at hc
    rcases hc with ⟨rfl, e⟩ | ⟨rfl, e⟩ | ⟨rfl, e⟩ <;> exact ⟨by simp, by simp, by rintro rfl; simp at e⟩
  refine ⟨fun hm => mp_head h1.1 hm, fun n rest w ns ps ht => ?_⟩
  rw [List.append_assoc, List.cons_append]
  refine Sim.of_eq (mp_dispatch h1.2.1) ?_
  exact sim_mpNone (List.mem_cons_of_mem _ hc) ho (encInts_ne ho h1.2.2) hq rest w ns ps ht

theorem rule_aSym {m : Bool} {ch : Char} {offs : List Int} {s i : T} (hc : (ch, offs.length) ∈ [('1', 0), ('H', 1), ('I', 2), ('J', 3)])
    (hs : MSym E tb s x tb') (hi : s.ident = some i) (hf : Fits (i.text E)) (ho : Spec.EncInts y offs) :
    MTarg E m tb (.addr true s.one offs) ((if m then [] else c!"$") ++ ch :: x ++ y) (tb'.note (i.text E)) := by
  have h1 : ch ∈ ['1', 'H', 'I', 'J', 'F', 'G'] ∧ ch ∈ ['1', 'H', 'I', 'J'] := by
    simp only [List.mem_cons, List.not_mem_nil, or_false, Prod.mk.injEq] at hc
    rcases hc with ⟨rfl, e⟩ | ⟨rfl, e⟩ | ⟨rfl, e⟩ | ⟨rfl, e⟩ <;> simp
  refine ⟨fun hm => ?_, fun n rest w ns ps ht => ?_⟩
  · rw [List.append_assoc]; exact mp_head h1.1 hm
  · simp only [List.append_assoc, List.cons_append]
    refine Sim.of_eq (mp_dispatch h1.2) ?_
    have := sim_mpSome (n := n) hc hs.head (hs.ident i hi) (hs.run n (y ++ rest)) hi hf ho w ns ps ht
    rwa [List.append_assoc] at this

theorem aRef_run {m : Bool} {s : T} {n : Nat} {rest : Text} (hu : ∃ u, x = '?' :: u) (hs : RunsAt (fns (render E) n).parse x rest tb tb' (Seen s)) :
    RunsAt (template_argument (render E) (fns (render E) n) m) (c!"$E" ++ x) rest tb tb' (Seen (.addr false s.one [])) := by
  intro w ns ps ht
  refine Sim.of_eq (s' := mk (x ++ rest) w.c ns ps) (m' := do
    let symbol ← (fns (render E) n).parse
    intern (.TemplateParameterReference (some symbol) [] (some .Reference) false)) ?_ ?_
  · obtain ⟨u, rfl⟩ := hu
    unfold template_argument
    cases m <;> simp [run, trySpecifier, tryTable]
  · refine RunsAt.bind hs ht fun h w1 ns1 ps1 hp1 ht1 H1 => ?_
    exact sim_seen hp1 ht1 (.addr (o := some h) (aff := some .Reference) (.cons H1 .nil))

theorem rule_aRef {m : Bool} {s : T} (hs : MSym E tb s x tb') : MTarg E m tb (.addr false s.one []) (c!"$E" ++ x) tb' :=
  ⟨fun _ => argHead_code rfl, fun n rest => aRef_run hs.head (hs.run n rest)⟩

theorem rule_aData {m : Bool} {ch : Char} {offs : List Int} (hc : (ch, offs.length) ∈ [('F', 2), ('G', 3)])
    (ho : Spec.EncInts x offs) : MTarg E m tb (.addr false .nil offs) ((if m then [] else c!"$") ++ ch :: x) tb := by
  simp only [List.mem_cons, List.not_mem_nil, or_false, Prod.mk.injEq] at hc
  have h1 : ch ∈ ['1', 'H', 'I', 'J', 'F', 'G'] := by rcases hc with ⟨rfl, e⟩ | ⟨rfl, e⟩ <;> simp
  refine ⟨fun hm => mp_head h1 hm, fun n rest w ns ps ht => ?_⟩
  rw [List.append_assoc, List.cons_append]
  refine Sim.of_eq (m' := intern (.TemplateParameterReference none offs none true)) (s' := mk rest w.c ns ps) ?_
    (sim_seen (List.prefix_refl _) ht (.addr (o := none) (aff := none) .nil))
  have := offsets_run ho [] rest w.c ns ps (by rcases hc with ⟨_, h⟩ | ⟨_, h⟩ <;> simp [h])
  have hd : exec (template_argument (render E) (fns (render E) n) m) (mk ((if m then [] else c!"$") ++ ch :: (x ++ rest)) w.c ns ps) =
      exec (template_data_member_pointer ch) (mk (x ++ rest) w.c ns ps) := by
    unfold template_argument
    cases m <;> rcases hc with ⟨rfl, _⟩ | ⟨rfl, _⟩ <;> simp [run, trySpecifier, tryTable]
  rw [hd]
  unfold template_data_member_pointer offsets
  rcases hc with ⟨rfl, e⟩ | ⟨rfl, e⟩ <;> (rw [e] at this; simp only [run_bind_eq, this]; rfl)

end

end Undname
