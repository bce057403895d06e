/-
  What the text must have been when template arguments are read.
-/
import Verif.Proof.AccTypes

namespace Undname
open Spec (CV FnKind Sig Adjust AdjKind Access T Tbl Ext Name Fits Cat Gram Follow cvCodes memberCvCodes hashed locator hashT)

section
variable {α β : Type} {w : World} {c : Cache} {s : Text} {ns ps : List Handle} {R : β → St → Prop}

theorem After.table {l : List (Text × α)} {k : Option α → P β}
    (h1 : ∀ t a u, (t, a) ∈ l → s = t ++ u → After (k (some a)) (mk u c ns ps) R)
    (h0 : (∀ p ∈ l, ¬ p.1 <+: s) → After (k none) (mk s c ns ps) R) : After (tryTable l >>= k) (mk s c ns ps) R := by
  induction l with
  | nil => exact After.step rfl (h0 (by intro p hp; cases hp))
  | cons p l ih =>
    obtain ⟨t, a⟩ := p
    by_cases h : t <+: s
    · obtain ⟨u, rfl⟩ := h
      refine After.step (a := some a) (s' := mk u c ns ps) ?_ (h1 t a u (List.mem_cons_self ..) rfl)
      show exec (Undname.tryStr t >>= _) _ = _
      rw [run_bind_eq, tryStr_hit]; rfl
    · refine After.of_eq (m' := tryTable l >>= k) (s' := mk s c ns ps) ?_
        (ih (fun t' a' u h => h1 t' a' u (List.mem_cons_of_mem _ h)) fun hm => h0 ?_)
      · show exec ((Undname.tryStr t >>= _) >>= k) _ = _
        simp only [run_bind_eq]
        rw [tryStr_miss _ _ _ _ _ (by rw [Bool.eq_false_iff, Ne, List.isPrefixOf_iff_prefix]; exact h)]; rfl
      · intro p hp
        rcases List.mem_cons.1 hp with rfl | hp
        · exact h
        · exact hm p hp

theorem After.spec {auto : Bool} {specs : List Char} {k : Option Char → P β}
    (h1 : ∀ ch u, ch ∈ specs → s = (if auto then [] else c!"$") ++ ch :: u → After (k (some ch)) (mk u c ns ps) R)
    (h0 : (∀ ch ∈ specs, ∀ u, s ≠ (if auto then [] else c!"$") ++ ch :: u) → After (k none) (mk s c ns ps) R) :
    After (trySpecifier auto specs >>= k) (mk s c ns ps) R := by
  unfold trySpecifier
  refine After.table (fun t a u hm e => ?_) fun hm => ?_
  · obtain ⟨ch, hc, e'⟩ := List.mem_map.1 hm
    simp only [Prod.mk.injEq] at e'
    obtain ⟨rfl, rfl⟩ := e'
    refine h1 ch u hc ?_
    rw [e]; cases auto <;> rfl
  · refine h0 fun ch hc u e => ?_
    refine hm _ (List.mem_map_of_mem hc) ⟨u, ?_⟩
    rw [e]; cases auto <;> rfl

theorem offsets_inv : ∀ (m : Nat) (acc : List Int) (s : Text), acc.length + m ≤ 3 →
    Wh (SM.forN m (fun l => do
      let o ← demangle_signed
      if l.length < 3 then pure (l ++ [o]) else SM.err .InvalidTemplateParameterList) acc) (mk s c ns ps)
      (∃ x offs u, s = x ++ u ∧ Spec.EncInts x offs ∧ offs.length = m)
  | 0, acc, s, _ => After.now ⟨[], [], s, rfl, .nil, rfl⟩
  | m + 1, acc, s, hm => by
    refine After.of_eq (m' := _ >>= SM.forN m _) (s' := mk s c ns ps) ((run_forN_succ _ _ _ _).trans (run_bind_eq _ _ _).symm) ?_
    refine After.know (X := ∃ x i u, s = x ++ u ∧ Spec.EncSigned x i) (After.know signed_inv fun h => After.now h) ?_
    rintro ⟨x, i, u, rfl, hx⟩
    refine After.step (a := acc ++ [i]) (s' := mk u c ns ps) ?_ ?_
    · rw [run_bind_eq, signed_run hx, andThen_ok]
      dsimp only
      rw [if_pos (by omega)]; rfl
    · refine After.mono (offsets_inv m _ u (by simp; omega)) ?_
      rintro _ _ ⟨y, offs, v, rfl, hy, hl⟩
      exact ⟨x ++ y, i :: offs, v, by simp, .cons hx hy, by simp [hl]⟩

theorem After.offsets {m : Nat} (hm : m ≤ 3) {k : List Int → P β}
    (h : ∀ x offs u, s = x ++ u → Spec.EncInts x offs → offs.length = m → After (k offs) (mk u c ns ps) R) :
    After (Undname.offsets m >>= k) (mk s c ns ps) R := by
  unfold Undname.offsets
  refine After.know (offsets_inv m [] s (by simpa using hm)) ?_
  rintro ⟨x, offs, u, rfl, hx, rfl⟩
  exact After.step (offsets_run hx [] u c ns ps (by simpa using hm)) (h x offs u rfl hx rfl)

/-! ### The identifier of a symbol -/

theorem rep_last' {t : T} {hs : List Handle} {h : Handle} (H : Rep w t (.L hs)) (hl : hs.getLast? = some h) :
    ∃ i, t.last = some i ∧ Rep w i (.H h) := by
  induction hs generalizing t with
  | nil => cases hl
  | cons a hs ih =>
    cases H with
    | @cons t1 ts _ _ h1 h2 =>
      cases hs with
      | nil =>
        cases h2
        cases hl
        exact ⟨t1, rfl, h1⟩
      | cons b hs =>
        rw [List.getLast?_cons_cons] at hl
        obtain ⟨i, e, hr⟩ := ih h2 hl
        cases h2 with
        | cons h3 h4 => exact ⟨i, e, hr⟩

theorem downcast_some {src dst : Kind} {c : Cache} {i h : Handle} (e : downcast src dst c i = .ok (some h)) : h = i := by
  unfold downcast at e
  cases hr : resolve src c i with
  | error f => rw [hr] at e; cases e
  | ok n =>
    rw [hr] at e
    cases hn : n.is dst <;> simp [hn] at e
    exact e.symm

theorem guid_inv {t : T} {qn h : Handle} (H : Rep w t (.H qn)) (e : get_unqualified_identifier w.c qn = .ok (some h)) :
    ∃ items i, t = .qname items ∧ items.last = some i ∧ Rep w i (.H h) := by
  cases H with
  | @handle _ _ nd e1 H =>
    unfold get_unqualified_identifier resolve at e
    rw [World.c_get e1] at e
    cases H <;> try (simp [Node.is] at e; done)
    next items h' hs e2 H2 =>
    simp only [Node.is, if_true] at e
    rw [World.c_get e2] at e
    simp only [if_true] at e
    cases hl : hs.getLast? with
    | none => rw [hl] at e; cases e
    | some l =>
      rw [hl] at e
      obtain rfl := downcast_some e
      obtain ⟨i, h1, h2⟩ := rep_last' H2 hl
      exact ⟨items, i, rfl, h1, h2⟩

theorem After.symId {t : T} {symbol : Handle} {k : Handle → P β} (H : Rep w t (.H symbol))
    (hk : ∀ i h, t.ident = some i → Rep w i (.H h) → After (k h) (mk s w.c ns ps) R) :
    After (symbol_identifier symbol >>= k) (mk s w.c ns ps) R := by
  refine After.bind (Q := fun h st => st = mk s w.c ns ps ∧ ∃ i, t.ident = some i ∧ Rep w i (.H h)) ?_ ?_
  · cases H with
    | @handle _ _ nd e H =>
      unfold symbol_identifier
      refine After.res e ?_
      have key : ∀ qn, nd.get_name = some qn → ∃ n, t.nameOf = some n ∧ Rep w n (.H qn) := by
        intro qn hq
        cases H <;> first | (cases hq; done) | skip
        all_goals (cases hq; exact ⟨_, rfl, by assumption⟩)
      cases hq : nd.get_name with
      | none => exact After.err
      | some qn =>
        obtain ⟨n, e1, h1⟩ := key qn hq
        refine After.get (After.lift fun o ho => After.okOr_end fun h hh => ⟨rfl, ?_⟩)
        subst hh
        obtain ⟨items, i, rfl, h2, h3⟩ := guid_inv h1 ho
        refine ⟨i, ?_, h3⟩
        unfold T.ident
        rw [e1]
        exact h2
  · rintro h _ ⟨rfl, i, hi, hr⟩
    exact hk i h hi hr

end

section
variable {E : Env} {n : Nat} {tb tb' : Tbl} {s x R : Text} {w : World} {ns ps : List Handle} {auto : Bool}

/-- A template argument, or everything is read. -/
def ArgOk (E : Env) (auto : Bool) (tb : Tbl) (s : Text) (tb' : Tbl) (R : Text) : Prop :=
  R = [] ∨ (∃ x a, s = x ++ R ∧ Gram E (.targ auto) tb a x tb') ∨ ∃ x a f, s = x ++ R ∧ f.ok R ∧ Gram E (.targN auto f) tb a x tb'

def ArgTook (E : Env) (auto : Bool) (tb : Tbl) (s : Text) (st : St) : Prop :=
  ∃ R, ∃ w : World, ∃ ns ps tb', st = mk R w.c ns ps ∧ Tab w tb' ns ps ∧ ArgOk E auto tb s tb' R

theorem internEnd {nd : Node} {b : Bool} {w : World} {Q : Handle → St → Prop} (h : Q w.length (mk s (World.c (w ++ [(nd, b)])) ns ps)) :
    After (intern nd) (mk s w.c ns ps) Q := After.sim (Sim.intern_end b h)

theorem Tab.push {nd : Node × Bool} (ht : Tab w tb ns ps) : Tab (w ++ [nd]) tb ns ps := ht.mono (Vis.push _)

theorem mp_offsets {ch : Char} (hc : ch ∈ ['1', 'H', 'I', 'J']) {β : Type} {K : List Int → P β} {Q : β → St → Prop} {c : Cache}
    (h : ∀ x offs u, s = x ++ u → Spec.EncInts x offs → (ch, offs.length) ∈ [('1', 0), ('H', 1), ('I', 2), ('J', 3)] → After (K offs) (mk u c ns ps) Q) :
    After (match (motive := Char → P β) ch with
    | '1' => offsets 0 >>= K
    | 'H' => offsets 1 >>= K
    | 'I' => offsets 2 >>= K
    | 'J' => offsets 3 >>= K
    | _ => SM.err .InvalidTemplateParameterList >>= K) (mk s c ns ps) Q := by
  simp only [List.mem_cons, List.not_mem_nil, or_false] at hc
  rcases hc with rfl | rfl | rfl | rfl
  · exact After.offsets (by decide) fun x offs u e ho hl => h x offs u e ho (by simp [hl])
  · exact After.offsets (by decide) fun x offs u e ho hl => h x offs u e ho (by simp [hl])
  · exact After.offsets (by decide) fun x offs u e ho hl => h x offs u e ho (by simp [hl])
  · exact After.offsets (by decide) fun x offs u e ho hl => h x offs u e ho (by simp [hl])

theorem mp_cases {ch : Char} {offs : List Int} (hc : (ch, offs.length) ∈ [('1', 0), ('H', 1), ('I', 2), ('J', 3)]) :
    (ch = '1' ∧ offs = []) ∨ (ch, offs.length) ∈ [('H', 1), ('I', 2), ('J', 3)] := by
  rcases List.mem_cons.1 hc with h | h
  · simp only [Prod.mk.injEq, List.length_eq_zero_iff] at h
    exact .inl h
  · exact .inr h

theorem memptr_inv (hn : AccN E n) (ht : Tab w tb ns ps) {ch : Char} (hc : ch ∈ ['1', 'H', 'I', 'J']) :
    After (template_member_pointer (render E) (fns (render E) n) ch) (mk s w.c ns ps)
      fun _ st => ArgTook E auto tb ((if auto then [] else c!"$") ++ ch :: s) st := by
  unfold template_member_pointer
  refine After.query ?_
  refine After.iteB (fun hq => ?_) fun hq => ?_
  · refine nested_of hn ht fun R t tb' hN a w1 ns1 ps1 hp1 ht1 H1 hid => ?_
    refine After.symId H1 fun i h hi Hi => ?_
    refine After.memoId ht1 Hi fun hf w2 ns2 hp2 ht2 => ?_
    refine After.step (s' := mk R w2.c ns2 ps1) rfl ?_
    refine mp_offsets hc fun y offs u e ho hl => ?_
    subst e
    refine internEnd (b := true) ⟨u, _, _, _, _, rfl, ht2.push, ?_⟩
    rcases hN with ⟨x, rfl, hg⟩ | hR | ⟨v, rfl, hu, hlo, rfl, rfl⟩
    · exact .inr (.inl ⟨(if auto then [] else c!"$") ++ ch :: x ++ y, _, by simp, .aSym hl hg hi hf ho⟩)
    · exact .inl (List.append_eq_nil_iff.1 hR).2
    · cases hi
      rcases mp_cases hl with ⟨rfl, rfl⟩ | hl
      · cases ho
        exact .inr (.inr ⟨(if auto then [] else c!"$") ++ '1' :: hashed v, _, .noLocator, by simp, hlo, .nHash hu hf⟩)
      · exact .inr (.inl ⟨(if auto then [] else c!"$") ++ ch :: hashed v ++ y, _, by simp, .aHash hl hu hf ho⟩)
  · refine After.step (s' := mk s w.c ns ps) rfl ?_
    refine mp_offsets hc fun y offs u e ho hl => ?_
    subst e
    refine internEnd (b := true) ⟨u, _, _, _, _, rfl, ht.push, ?_⟩
    have hq' : (y ++ u).head? ≠ some '?' := by
      intro h
      cases hyu : y ++ u with
      | nil => rw [hyu] at h; cases h
      | cons d v => rw [hyu] at h; cases h; rw [hyu] at hq; simp [run] at hq
    rcases mp_cases hl with ⟨rfl, rfl⟩ | hl
    · cases ho
      exact .inr (.inr ⟨(if auto then [] else c!"$") ++ c!"1", _, .noQ, by simp, hq', .nNull⟩)
    · refine .inr (.inl ⟨(if auto then [] else c!"$") ++ ch :: y, _, by simp, .aNull hl ho fun h => hq' ?_⟩)
      cases y with
      | nil => cases h
      | cons d y => exact h

theorem data_inv (ht : Tab w tb ns ps) {ch : Char} (hc : ch ∈ ['F', 'G']) :
    After (template_data_member_pointer ch) (mk s w.c ns ps) fun _ st => ArgTook E auto tb ((if auto then [] else c!"$") ++ ch :: s) st := by
  unfold template_data_member_pointer
  simp only [List.mem_cons, List.not_mem_nil, or_false] at hc
  have key : ∀ {y : Text} {offs : List Int} {u : Text}, Spec.EncInts y offs → (ch, offs.length) ∈ [('F', 2), ('G', 3)] →
      After (intern (.TemplateParameterReference none offs none true)) (mk u w.c ns ps)
        fun _ st => ArgTook E auto tb ((if auto then [] else c!"$") ++ ch :: (y ++ u)) st := by
    intro y offs u ho hl
    exact internEnd (b := true) ⟨u, _, _, _, _, rfl, ht.push, .inr (.inl ⟨(if auto then [] else c!"$") ++ ch :: y, _, by simp, .aData hl ho⟩)⟩
  rcases hc with rfl | rfl
  · refine After.offsets (by decide) fun y offs u e ho hl => ?_
    subst e
    exact key ho (by simp [hl])
  · refine After.offsets (by decide) fun y offs u e ho hl => ?_
    subst e
    exact key ho (by simp [hl])

theorem bindPure {α : Type} {m : P α} {st : St} {Q : α → St → Prop} (h : After (m >>= fun a => pure a) st Q) : After m st Q := by
  refine After.of_eq ?_ h
  rw [run_bind_eq]
  cases exec m st <;> rfl

theorem argument_inv (hn : AccN E n) (ht : Tab w tb ns ps) :
    After (template_argument (render E) (fns (render E) n) auto) (mk s w.c ns ps) fun _ st => ArgTook E auto tb s st := by
  unfold template_argument
  refine After.tryStr (fun u e => ?_) fun _ => ?_
  · subst e
    refine bindPure (qtn_bind hn ht fun x R t tb' e hg a w' ns' ps' hp ht' H => After.pure ?_)
    exact ⟨R, _, _, _, _, rfl, ht', .inr (.inl ⟨c!"$$Y" ++ x, _, by simp [e], .aName hg⟩)⟩
  refine After.tryStr (fun u e => ?_) fun _ => ?_
  · subst e
    refine bindPure (drop_bind hn ht fun x R t tb' e hg a w' ns' ps' hp ht' H => After.pure ?_)
    exact ⟨R, _, _, _, _, rfl, ht', .inr (.inl ⟨c!"$$B" ++ x, _, by simp [e], .aTypeB hg⟩)⟩
  refine After.tryStr (fun u e => ?_) fun _ => ?_
  · subst e
    refine After.know' (hn.mangle ht) ?_
    rintro ⟨ch, q, s', hc, rfl, x, R, t, tb', rfl, hg⟩
    refine After.mono (After.sim (mty_mangle (gram_reads hg) hc n R w ns ps ht)) ?_
    rintro a _ ⟨w', ns', ps', rfl, _, ht', _⟩
    exact ⟨R, _, _, _, _, rfl, ht', .inr (.inl ⟨c!"$$C" ++ ch :: x, _, by simp, .aTypeC hc hg⟩)⟩
  refine After.spec (fun ch u hc e => ?_) fun h1 => ?_
  · subst e
    exact memptr_inv hn ht hc
  refine After.query ?_
  refine After.iteB (fun he => ?_) fun he => ?_
  · refine After.expectStr fun u e => ?_
    subst e
    refine nested_of hn ht fun R t tb' hN a w1 ns1 ps1 hp1 ht1 H1 hid => ?_
    refine internEnd (b := true) ⟨R, _, _, _, _, rfl, ht1.push, ?_⟩
    rcases hN with ⟨x, rfl, hg⟩ | hR | ⟨v, rfl, hu, hlo, rfl, rfl⟩
    · exact .inr (.inl ⟨c!"$E" ++ x, _, by simp, .aRef hg⟩)
    · exact .inl hR
    · exact .inr (.inr ⟨c!"$E" ++ hashed v, _, .noLocator, by simp, hlo, .nHashRef hu⟩)
  refine After.spec (fun ch u hc e => ?_) fun h2 => ?_
  · subst e
    exact data_inv ht hc
  refine After.tryStr (fun u e => ?_) fun _ => ?_
  · subst e
    refine After.know number_inv ?_
    rintro ⟨x, v, neg, R, rfl, hx⟩
    refine After.step (encInt_run hx) ?_
    refine internEnd (b := true) ⟨R, _, _, _, _, rfl, ht.push, .inr (.inl ⟨(if auto then [] else c!"$") ++ '0' :: x, _, ?_, .aInt hx⟩)⟩
    cases auto <;> simp
  · refine bindPure (drop_bind hn ht fun x R t tb' e hg a w' ns' ps' hp ht' H => After.pure ?_)
    subst e
    refine ⟨R, _, _, _, _, rfl, ht', .inr (.inl ⟨x, t, rfl, ?_⟩)⟩
    cases auto with
    | false => exact .aType hg
    | true =>
      refine .aTypeAuto hg fun c hc hm => ?_
      cases x with
      | nil => cases hc
      | cons d x =>
        cases hc
        simp only [List.mem_cons, List.not_mem_nil, or_false] at hm
        rcases hm with rfl | rfl | rfl | rfl | rfl
        · exact h1 'H' (by simp) _ rfl
        · exact h1 'I' (by simp) _ rfl
        · exact h1 'J' (by simp) _ rfl
        · exact h2 'F' (by simp) _ rfl
        · exact h2 'G' (by simp) _ rfl

theorem follow_near {f : Follow} {y R : Text} (hy : y ≠ []) (h : f.ok (y ++ R)) : f.ok y := by
  cases f with
  | noQ =>
    cases y with
    | nil => exact (hy rfl).elim
    | cons c y => exact h
  | noLocator => exact fun hl => h (hl.trans (List.prefix_append _ _))

theorem targs_ne {as : T} {y : Text} (h : Gram E .targs tb as y tb') : y ≠ [] := by
  have := gram_at h
  rintro rfl
  cases this

theorem targs_inv (hn : AccN E n) (k : Nat) (acc : List Handle) :
    Acc E .targs (SM.iterate k (templateListBody (render E) (fns (render E) n)) acc) := by
  induction k generalizing acc with
  | zero => exact fun _ => After.iter_zero
  | succ k ih =>
    intro tb s w ns ps ht
    refine After.round ?_
    unfold templateListBody
    refine After.tryChar (fun u e => ?_) fun _ => ?_
    · subst e
      exact After.pure ⟨c!"@", u, _, _, rfl, .taNil⟩
    refine After.table (fun t a u hp e => ?_) fun _ => ?_
    · subst e
      refine After.pure (After.mono (ih _ ht) ?_)
      rintro _ _ ⟨x, R, as, tb', rfl, hg⟩
      refine ⟨t ++ x, R, as, tb', by simp, .taPack ?_ hg⟩
      simp only [List.mem_cons, List.not_mem_nil, or_false, Prod.mk.injEq, and_true] at hp ⊢
      exact hp
    refine After.query ?_
    refine After.iteB (fun _ => After.err) fun _ => ?_
    refine After.tryStr (fun u e => ?_) fun _ => ?_
    · subst e
      refine After.bind (Q := fun _ st => ∃ R, ∃ w1 : World, ∃ ns1 ps1 tb1 x t, st = mk R w1.c ns1 ps1 ∧ Tab w1 tb1 ns1 ps1 ∧ u = x ++ R ∧ Gram E .ty tb t x tb1) ?_ ?_
      · show After ((fns (render E) n).type .Drop >>= fun _ => pure ()) _ _
        exact drop_bind hn ht fun x R t tb' e hg a w' ns' ps' hp ht' H => After.pure ⟨R, _, _, _, _, x, t, rfl, ht', e, hg⟩
      rintro ⟨⟩ _ ⟨R, w1, ns1, ps1, tb1, x, t, rfl, ht1, rfl, hg⟩
      refine After.bind (argument_inv hn ht1) ?_
      rintro a _ ⟨R1, w2, ns2, ps2, tb2, rfl, ht2, hA⟩
      refine After.pure (After.mono (ih _ ht2) ?_)
      rintro _ _ ⟨z, R2, as, tb', rfl, hz⟩
      rcases hA with h | ⟨y, a, rfl, hy⟩ | ⟨y, a, f, rfl, hf, hy⟩
      · exact (targs_ne hz (List.append_eq_nil_iff.1 h).1).elim
      · exact ⟨c!"$M" ++ x ++ y ++ z, R2, _, _, by simp, .taAuto hg hy hz⟩
      · exact ⟨c!"$M" ++ x ++ y ++ z, R2, _, _, by simp, .taAutoN hg hy (follow_near (targs_ne hz) hf) hz⟩
    · refine After.step (a := ()) (s' := mk s w.c ns ps) rfl ?_
      refine After.bind (argument_inv hn ht) ?_
      rintro a _ ⟨R1, w2, ns2, ps2, tb2, rfl, ht2, hA⟩
      refine After.pure (After.mono (ih _ ht2) ?_)
      rintro _ _ ⟨z, R2, as, tb', rfl, hz⟩
      rcases hA with h | ⟨y, a, rfl, hy⟩ | ⟨y, a, f, rfl, hf, hy⟩
      · exact (targs_ne hz (List.append_eq_nil_iff.1 h).1).elim
      · exact ⟨y ++ z, R2, _, _, by simp, .taCons hy hz⟩
      · exact ⟨y ++ z, R2, _, _, by simp, .taConsN hy (follow_near (targs_ne hz) hf) hz⟩

end

end Undname
