/-
  The recursive parsers keep the invariant, never crash and return well-formed trees.
-/
import Verif.Proof.Strings

namespace Undname
variable {T : TSpec} {A B : Handle → Prop} {s s' : St}

/-- Rendering well-formed trees works. -/
def GoodRend (T : TSpec) (rend : Renderer) : Prop :=
  ∀ c A kd h, c.length ≤ 2048 → Good T c A (.k kd) h → Out T [] [] (rend c kd h)

/-- `h` is a new identifier on which nothing else depends. -/
def Fresh (T : TSpec) (A : Handle → Prop) (s : St) (h : Handle) (s' : St) : Prop :=
  Good T s'.cache A .ident h ∧ s'.len < s.len ∧ s.cache.length ≤ h ∧ Inv T (fun i => A i ∧ i ≠ h) s'

theorem Fresh.of {s1 : St} {h : Handle} (hf : Fresh T A s1 h s') (hs : Step T s s1) : Fresh T A s h s' :=
  ⟨hf.1, Nat.lt_of_lt_of_le hf.2.1 hs.len, Nat.le_trans hs.clen hf.2.2.1, hf.2.2.2⟩

/-- What the recursive functions do on inputs shorter than `n`. -/
structure RecOK (T : TSpec) (n : Nat) (r : Fns) : Prop where
  type : ∀ {A s} q, Inv T A s → s.len < n →
    Tr T A (r.type q) (fun h s' => Good T s'.cache A .type h ∧ s'.len < s.len) s
  tmpl : ∀ {A s} b, Inv T A s → s.len < n → Tr T A (r.tmpl b) (Fresh T A s) s
  parse : ∀ {A s}, Inv T A s → s.len < n →
    Tr T A r.parse (fun h s' => Good T s'.cache A .sym h ∧ s'.len < s.len) s

variable {rend : Renderer} {r : Fns} {n : Nat}

/-! ### Mutation of new nodes -/

theorem wp_modify {kd : Kind} {h : Handle} {f : Node → Node} {nd : Node} {Q : Unit → St → Prop}
    (h1 : s.cache[h]? = some nd) (h2 : nd.is kd = true)
    (hq : Q () { s with cache := s.cache.set h (f nd) }) : wp (modifyNode kd h f) Q s := by
  unfold wp
  rw [modifyNode_eq h1 h2]
  exact hq

theorem Step.set_late {s0 : St} {i : Handle} {nd nd' : Node} (hs : Step T s0 s) (hi : s0.cache.length ≤ i)
    (h1 : s.cache[i]? = some nd) (hf : nd.frozen = false) :
    Step T s0 { s with cache := s.cache.set i nd' } := by
  refine ⟨fun {A g h} hg => ?_, hs.len, by simpa using hs.clen, fun {j nd1} hj hfz => ?_⟩
  · exact ((hs.ext hg.bound).set_avoid fun j hj => Nat.ne_of_lt (Nat.lt_of_lt_of_le hj.2 hi)).mono
      fun j hj => hj.1
  · have := hs.frz hj hfz
    show (s.cache.set i nd')[j]? = _
    have hne : i ≠ j := by
      rintro rfl
      rw [h1] at this
      cases this
      rw [hf] at hfz; cases hfz
    rw [List.getElem?_set_ne hne]; exact this

theorem Inv.set_avoid {i : Handle} {nd' : Node} (hi : Inv T B s) (hB : ∀ j, B j → j ≠ i) :
    Inv T B { s with cache := s.cache.set i nd' } :=
  { hi with
    size := by simpa using hi.size
    names := fun h hh => (hi.names h hh).set_avoid hB
    params := fun h hh => (hi.params h hh).set_avoid hB
    fresh := fun j hj => hi.fresh j (by simpa using hj) }

theorem Inv.restore {s0 : St} {i : Handle} (h0 : Inv T A s0) (hs : Step T s0 s) (hi : s0.cache.length ≤ i)
    (h : Inv T (fun j => A j ∧ j ≠ i) s) :
    Inv T (fun j => A j ∧ j ≠ i) { s with names := s0.names, function_params := s0.function_params } :=
  { h with
    names_len := h0.names_len
    params_len := h0.params_len
    names := fun x hx => (hs.ext (h0.names x hx).bound).mono fun j hj =>
      ⟨hj.1, Nat.ne_of_lt (Nat.lt_of_lt_of_le hj.2 hi)⟩
    params := fun x hx => (hs.ext (h0.params x hx).bound).mono fun j hj =>
      ⟨hj.1, Nat.ne_of_lt (Nat.lt_of_lt_of_le hj.2 hi)⟩ }

/-- A tree built before `i` does not use `i`. -/
theorem Good.before {g : GK} {h i : Handle} {s0 : St} (hg : Good T s0.cache A g h)
    (hs : Step T s0 s) (hi : s0.cache.length ≤ i) : Good T s.cache (fun j => A j ∧ j ≠ i) g h :=
  (hs.ext hg.bound).mono fun j hj => ⟨hj.1, Nat.ne_of_lt (Nat.lt_of_lt_of_le hj.2 hi)⟩

/-- Changing the children of an identifier. -/
theorem Good.set_ident {c : Cache} {g : GK} {h i : Handle} {nd nd' : Node}
    (hg : Good T c A g h) (hi : Good T c A .ident i) (h1 : c[i]? = some nd)
    (hk : ∀ g : GK, g.ok nd = true → g.ok nd' = true) (hn : nodeOK T nd → nodeOK T nd')
    (hkids : ∀ g, ∀ p ∈ kids g nd', p ∈ kids .ident nd ∨ Good T c (fun j => A j ∧ j ≠ i) p.1 p.2) :
    Good T (c.set i nd') A g h := by
  obtain ⟨_, nd1, e1, e2, e3, e4⟩ := hi.kids_avoid
  rw [h1] at e1; cases e1
  refine hg.set_more h1 hk (hn e3) ?_
  intro g _ p hp
  rcases hkids g p hp with h | h
  · exact e4 p h
  · exact h

theorem is_ident_not_frozen {nd : Node} (h : nd.is .IIdentifierNode = true) : nd.frozen = false := by
  cases nd <;> first | rfl | cases h

theorem kids_not_frozen {g : GK} {nd : Node} (h : nd.frozen = false) : kids g nd = kidsOf nd := by
  cases g <;> cases nd <;> first | rfl | cases h

theorem set_template_params_ok (tp : Handle) {nd : Node} (h : nd.is .IIdentifierNode = true) :
    (∀ g : GK, g.ok nd = true → g.ok (nd.set_template_params tp) = true) ∧
    (nodeOK T nd → nodeOK T (nd.set_template_params tp)) ∧
    ∀ g, ∀ p ∈ kids g (nd.set_template_params tp), p ∈ kids .ident nd ∨ p = (.arr, tp) := by
  refine ⟨?_, ?_, ?_⟩
  · intro g
    cases g with
    | k kd => cases kd <;> cases nd <;> first | exact id | cases h
    | dims => cases nd <;> first | exact id | cases h
    | comps => cases nd <;> first | exact id | cases h
    | intLit => cases nd <;> first | exact id | cases h
  · cases nd <;> first | exact id | cases h
  · intro g p hp
    rw [kids_not_frozen (by cases nd <;> first | rfl | cases h)] at hp
    cases nd <;> first | (cases h; done) | skip
    all_goals
      first
      | (simp only [kids, kidsOf, Node.set_template_params, optKid] at hp ⊢; grind)
      | (rename_i x _; cases x <;> simp only [kids, kidsOf, Node.set_template_params, optKid] at hp ⊢ <;> grind)

theorem set_class_ok (cls : Handle) {nd : Node} (h : nd.is .IIdentifierNode = true) :
    (∀ g : GK, g.ok nd = true → g.ok (set_class cls nd) = true) ∧
    (nodeOK T nd → nodeOK T (set_class cls nd)) ∧
    ∀ g, ∀ p ∈ kids g (set_class cls nd), p ∈ kids .ident nd ∨ p = (.ident, cls) := by
  refine ⟨?_, ?_, ?_⟩
  · intro g
    cases g with
    | k kd => cases kd <;> cases nd <;> first | exact id | cases h
    | dims => cases nd <;> first | exact id | cases h
    | comps => cases nd <;> first | exact id | cases h
    | intLit => cases nd <;> first | exact id | cases h
  · cases nd <;> first | exact id | cases h
  · intro g p hp
    rw [kids_not_frozen (by cases nd <;> first | rfl | cases h)] at hp
    cases nd <;> first | (cases h; done) | (exact Or.inl hp) | skip
    simp only [kids, kidsOf, set_class, optKid] at hp ⊢; grind

theorem set_target_ok (t : Option Handle) {nd : Node} (h : nd.is .IIdentifierNode = true) :
    (∀ g : GK, g.ok nd = true → g.ok (set_target_type t nd) = true) ∧
    (nodeOK T nd → nodeOK T (set_target_type t nd)) ∧
    ∀ g, ∀ p ∈ kids g (set_target_type t nd), p ∈ kids .ident nd ∨ ∃ x, t = some x ∧ p = (.type, x) := by
  refine ⟨?_, ?_, ?_⟩
  · intro g
    cases g with
    | k kd => cases kd <;> cases nd <;> first | exact id | cases h
    | dims => cases nd <;> first | exact id | cases h
    | comps => cases nd <;> first | exact id | cases h
    | intLit => cases nd <;> first | exact id | cases h
  · cases nd <;> first | exact id | cases h
  · intro g p hp
    rw [kids_not_frozen (by cases nd <;> first | rfl | cases h)] at hp
    cases nd <;> first | (cases h; done) | (exact Or.inl hp) | skip
    cases t <;> simp only [kids, kidsOf, set_target_type, optKid] at hp ⊢ <;> grind

/-! ### Queries that cannot crash -/



theorem tr_queryE {α β : Type} {f : MStr → Except Fail α} {k : α → P β} {R : β → St → Prop}
    (hf : ∀ e, f s.str = .error e → ∃ e', e = .err e' ∧ e'.allowed) (hk : ∀ a, f s.str = .ok a → Tr T A (k a) R s) :
    Tr T A (queryE f >>= k) R s := by
  refine wp.bind ?_
  show wp (SM.lift (f s.str)) _ s
  cases hx : f s.str with
  | ok a => exact wp.lift_ok rfl (hk a hx)
  | error e =>
    obtain ⟨e', rfl, he⟩ := hf e hx
    exact he

theorem char_if_eq {m : MStr} (hm : m.chars = m.string.length) (f : Char → Bool) :
    (∃ c cs, m.string = c :: cs ∧ f c = true ∧
      MStr.try_consume_char_if f m = .ok (some c, ⟨cs, cs.length⟩)) ∨
    (MStr.try_consume_char_if f m = .ok (none, m) ∧ ∀ c cs, m.string = c :: cs → f c = false) := by
  obtain ⟨l, k⟩ := m
  simp only at hm
  subst hm
  cases l with
  | nil => exact Or.inr ⟨rfl, by simp⟩
  | cons c cs =>
    by_cases hf : f c = true
    · refine Or.inl ⟨c, cs, rfl, hf, ?_⟩
      simp [MStr.try_consume_char_if, SM.bind, SM.get, hf, MStr.advance, bind, pure, SM.pure]
    · refine Or.inr ⟨?_, ?_⟩
      · simp [MStr.try_consume_char_if, SM.bind, SM.get, hf, bind, pure, SM.pure]
      · rintro c' cs' h; cases h; simpa using hf

theorem member_pointer_ok {m : MStr} (hm : m.chars = m.string.length) :
    ∀ e, m.is_member_pointer = .error e → ∃ e', e = .err e' ∧ e'.allowed := by
  have key : wp MStr.member_pointer_probe (fun _ _ => True) m ∧ True := by
    refine ⟨?_, trivial⟩
    unfold MStr.member_pointer_probe
    have fin : ∀ (b : Prop) [Decidable b] (x y : SM MStr (Option Bool)) m, wp x (fun _ _ => True) m →
        wp y (fun _ _ => True) m → wp (if b then x else y) (fun _ _ => True) m := by
      intro b _ x y m h1 h2
      split
      · exact h1
      · exact h2
    have pr : ∀ (x : Option Bool) m, wp (pure x : SM MStr (Option Bool)) (fun _ _ => True) m := fun _ _ => trivial
    have last : ∀ m : MStr, wp (show SM MStr (Option Bool) from do
          let m ← SM.get
          match m.first_char with
          | none => pure none
          | some c =>
            if c == 'A' || c == 'B' || c == 'C' || c == 'D' then pure (some false)
            else if c == 'Q' || c == 'R' || c == 'S' || c == 'T' then pure (some true)
            else pure none) (fun _ _ => True) m := by
      intro m
      refine wp.bind (wp.get ?_)
      split
      · exact pr _ _
      · exact fin _ _ _ _ (pr _ _) (fin _ _ _ _ (pr _ _) (pr _ _))
    have step : ∀ {α : Type} (f : Char → Bool) (k : Option Char → SM MStr α) (m : MStr),
        m.chars = m.string.length →
        (∀ o m', m'.chars = m'.string.length → wp (k o) (fun _ _ => True) m') →
        wp (MStr.try_consume_char_if f >>= k) (fun _ _ => True) m := by
      intro α f k m hm hk
      exact wp.bind (wp_char_if hm (hk _ _ hm) fun c cs _ _ => hk _ _ rfl)
    refine step _ _ _ hm ?_
    intro o m1 hm1
    cases o with
    | none => exact pr _ _
    | some c =>
      refine fin _ _ _ _ (pr _ _) (fin _ _ _ _ ?_ (pr _ _))
      refine step _ _ _ hm1 ?_
      intro o m2 hm2
      cases o with
      | some d => exact fin _ _ _ _ (pr _ _) (fin _ _ _ _ (pr _ _) (pr _ _))
      | none =>
        refine step _ _ _ hm2 fun _ m3 hm3 => ?_
        refine step _ _ _ hm3 fun _ m4 hm4 => ?_
        refine step _ _ _ hm4 fun _ m5 hm5 => ?_
        exact last m5
  intro e he
  unfold MStr.is_member_pointer at he
  have h := key.1
  unfold wp at h
  split at h
  · next heq => rw [heq] at he; simp [Except.map] at he
  · next e' heq => rw [heq] at he; simp [Except.map] at he; exact ⟨e', he.symm, h⟩
  · exact h.elim

theorem local_scope_ok {m : MStr} (hm : m.chars = m.string.length) :
    ∀ e, m.starts_with_local_scope_pattern = .error e → ∃ e', e = .err e' ∧ e'.allowed := by
  intro e he
  exfalso
  unfold MStr.starts_with_local_scope_pattern MStr.try_consume_char at he
  rcases char_if_eq hm (fun c => c == '?') with ⟨c, cs, _, _, h1⟩ | ⟨h1, _⟩
  · rw [h1] at he
    simp only at he
    cases hf : MStr.find_char ⟨cs, cs.length⟩ '?' with
    | none => rw [hf] at he; simp at he
    | some stop =>
      rw [hf] at he
      simp only at he
      obtain ⟨a, b, h2, h3, h4⟩ := findChar_split hf
      simp only at h2
      have hsl : MStr.slice_to ⟨cs, cs.length⟩ stop = .ok ⟨a, a.length⟩ := by
        unfold MStr.slice_to
        simp only [h2, ← h4, splitAtBytes_len]
      rw [hsl] at he
      simp only at he
      split at he
      · simp at he
      next hne =>
      split at he
      · next h1 =>
        cases a with
        | nil => simp [MStr.is_empty] at hne
        | cons x xs => simp [MStr.first_char] at he
      · cases hl : MStr.last_char ⟨a, a.length⟩ with
        | none => rw [hl] at he; simp at he
        | some x =>
          rw [hl] at he
          by_cases hx : x = '@'
          · subst hx
            simp only at he
            obtain ⟨ys, hys⟩ : ∃ ys, a = ys ++ ['@'] := by
              simp only [MStr.last_char] at hl
              obtain ⟨ys, hys⟩ := List.getLast?_eq_some_iff.1 hl
              exact ⟨ys, hys⟩
            have hs2 : MStr.slice_to ⟨a, a.length⟩ (MStr.len_bytes ⟨a, a.length⟩ - 1) = .ok ⟨ys, ys.length⟩ := by
              unfold MStr.slice_to MStr.len_bytes
              have : utf8Len a - 1 = utf8Len ys := by
                rw [hys, utf8Len_take_cons]
                have : utf8Len ['@'] = 1 := by decide
                omega
              simp only [this]
              rw [hys, splitAtBytes_len]
            rw [hs2] at he
            simp only at he
            rcases char_if_eq (m := ⟨ys, ys.length⟩) rfl (fun x => decide ('B'.toNat ≤ x.toNat) && decide (x.toNat ≤ 'P'.toNat)) with
              ⟨c', cs', _, _, h5⟩ | ⟨h5, _⟩
            · rw [h5] at he; simp at he
            · rw [h5] at he; simp at he
          · split at he
            · next h => simp at h; exact hx h
            · simp at he
  · rw [h1] at he; simp at he


/-! ### Names -/

theorem Good.ident_of_named {c : Cache} {h : Handle} (hg : Good T c A .named h) : Good T c A .ident h :=
  hg.cast (by simp) (by simp) fun nd _ h => by cases nd <;> first | rfl | cases h

theorem tr_memorize_identifier (hr : GoodRend T rend) (hi : Inv T B s) {i : Handle}
    (hg : Good T s.cache A .ident i) :
    Tr T B (memorize_identifier rend i) (fun _ s' => s'.str = s.str) s := by
  unfold memorize_identifier
  refine Tr.get ?_
  refine Tr.bind (tr_runW hi (Q := fun t => T.name t) ?_) ?_
  · refine wp.mono (hr _ _ _ _ hi.size hg [] (by decide)) ?_
    rintro _ t ⟨_, u, rfl, hu⟩ d
    simpa using T.shift d hu
  · rintro t s1 hi1 hs1 ⟨ht, rfl⟩
    exact tr_memorize hi1 ht

/-- A name read from the input: a back reference or a new node. -/
def Named (T : TSpec) (A : Handle → Prop) (s : St) (h : Handle) (s' : St) : Prop :=
  s'.len < s.len ∧ ((Good T s'.cache A .named h ∧ h ∈ s.names) ∨ Fresh T A s h s')

theorem Named.good {h : Handle} (hn : Named T A s h s') : Good T s'.cache A .ident h := by
  rcases hn.2 with h | h
  · exact h.1.ident_of_named
  · exact h.1

theorem tr_type_name (hrec : RecOK T n r) (hi : Inv T A s) (hl : s.len < n) (m : Bool) :
    Tr T A (demangle_unqualified_type_name r m) (Named T A s) s := by
  unfold demangle_unqualified_type_name
  refine Tr.query ?_
  refine Tr.ite (fun _ => ?_) fun _ => ?_
  · exact (tr_back_ref hi).mono fun h s' _ _ hq => ⟨hq.2.2.2, Or.inl ⟨hq.1, hq.2.1⟩⟩
  refine Tr.query ?_
  refine Tr.ite (fun _ => ?_) fun _ => ?_
  · exact (hrec.tmpl _ hi hl).mono fun h s' _ _ hq => ⟨hq.2.1, Or.inr hq⟩
  · exact (tr_simple_name hi m).mono fun h s' _ _ hq => ⟨hq.2.1, Or.inr hq⟩

theorem tr_symbol_name (hrec : RecOK T n r) (hi : Inv T A s) (hl : s.len < n) (b : NBB) (hL : T.lead s.str.string) :
    Tr T A (demangle_unqualified_symbol_name r b) (Named T A s) s := by
  unfold demangle_unqualified_symbol_name
  refine Tr.query ?_
  refine Tr.ite (fun _ => ?_) fun _ => ?_
  · exact (tr_back_ref hi).mono fun h s' _ _ hq => ⟨hq.2.2.2, Or.inl ⟨hq.1, hq.2.1⟩⟩
  refine Tr.query ?_
  refine Tr.ite (fun _ => ?_) fun _ => ?_
  · exact (hrec.tmpl _ hi hl).mono fun h s' _ _ hq => ⟨hq.2.1, Or.inr hq⟩
  refine Tr.query ?_
  refine Tr.ite (fun _ => ?_) fun _ => ?_
  · exact (tr_identifier_code hi hL).mono fun h s' _ _ hq => ⟨hq.2.1, Or.inr hq⟩
  · exact (tr_simple_name hi _).mono fun h s' _ _ hq => ⟨hq.2.1, Or.inr hq⟩

/-- A natural number in the input. -/
def NatCode (a : Text) : Prop :=
  (∃ c, a = [c] ∧ (c = '@' ∨ isDigit c = true)) ∨
  ∃ x xs, a = x :: (xs ++ ['@']) ∧ is_rebased_ascii_hexdigit x = true ∧ xs.all is_rebased_ascii_hexdigit = true

theorem local_scope_true {m : MStr} (hm : m.chars = m.string.length) (h : m.starts_with_local_scope_pattern = .ok true) :
    ∃ a b, m.string = '?' :: (a ++ '?' :: b) ∧ NatCode a ∧ a.head? ≠ some '?' := by
  unfold MStr.starts_with_local_scope_pattern MStr.try_consume_char at h
  rcases char_if_eq hm (fun c => c == '?') with ⟨c, cs, hc, hc', h1⟩ | ⟨h1, _⟩
  · rw [h1] at h
    simp only at h
    obtain rfl : c = '?' := by simpa using hc'
    cases hf : MStr.find_char ⟨cs, cs.length⟩ '?' with
    | none => rw [hf] at h; simp at h
    | some stop =>
      rw [hf] at h
      simp only at h
      obtain ⟨a, b, h2, h3, h4⟩ := findChar_split hf
      simp only at h2
      have hsl : MStr.slice_to ⟨cs, cs.length⟩ stop = .ok ⟨a, a.length⟩ := by
        unfold MStr.slice_to
        simp only [h2, ← h4, splitAtBytes_len]
      rw [hsl] at h
      simp only at h
      have hq : a.head? ≠ some '?' := by
        cases a with
        | nil => simp
        | cons x xs => intro hx; simp at hx; subst hx; exact h3 (by simp)
      refine ⟨a, b, by rw [hc, h2], ?_, hq⟩
      split at h
      · simp at h
      next hne =>
      split at h
      · next h1 =>
        cases a with
        | nil => simp [MStr.is_empty] at hne
        | cons x xs =>
          simp [MStr.first_char] at h
          have : xs = [] := by simpa [MStr.len_chars] using h1
          exact .inl ⟨x, by rw [this], h⟩
      · cases hl : MStr.last_char ⟨a, a.length⟩ with
        | none => rw [hl] at h; simp at h
        | some x =>
          rw [hl] at h
          by_cases hx : x = '@'
          · subst hx
            simp only at h
            obtain ⟨ys, hys⟩ : ∃ ys, a = ys ++ ['@'] := by
              simp only [MStr.last_char] at hl
              obtain ⟨ys, hys⟩ := List.getLast?_eq_some_iff.1 hl
              exact ⟨ys, hys⟩
            have hs2 : MStr.slice_to ⟨a, a.length⟩ (MStr.len_bytes ⟨a, a.length⟩ - 1) = .ok ⟨ys, ys.length⟩ := by
              unfold MStr.slice_to MStr.len_bytes
              have : utf8Len a - 1 = utf8Len ys := by
                rw [hys, utf8Len_take_cons]
                have : utf8Len ['@'] = 1 := by decide
                omega
              simp only [this]
              rw [hys, splitAtBytes_len]
            rw [hs2] at h
            simp only at h
            rcases char_if_eq (m := ⟨ys, ys.length⟩) rfl (fun x => decide ('B'.toNat ≤ x.toNat) && decide (x.toNat ≤ 'P'.toNat)) with
              ⟨c', cs', h6, h7, h5⟩ | ⟨h5, _⟩
            · rw [h5] at h
              simp only at h h6
              refine .inr ⟨c', cs', by rw [hys, h6]; rfl, ?_, ?_⟩
              · simp only [is_rebased_ascii_hexdigit, Bool.and_eq_true, decide_eq_true_eq] at h7 ⊢
                have h8 : 66 ≤ c'.toNat := h7.1
                exact ⟨show 65 ≤ c'.toNat by omega, h7.2⟩
              · simpa [MStr.all_hexdigits] using h
            · rw [h5] at h; simp at h
          · split at h
            · next h' => simp at h'; exact absurd h' hx
            · simp at h
  · rw [h1] at h; simp at h

theorem atch_not_digit : isDigit '@' = false := by decide

theorem hexch_not_digit {c : Char} (h : is_rebased_ascii_hexdigit c = true) : isDigit c = false := by
  simp only [is_rebased_ascii_hexdigit, Bool.and_eq_true, decide_eq_true_eq] at h
  have h1 : 65 ≤ c.toNat := h.1
  simp only [isDigit, Bool.and_eq_false_iff, decide_eq_false_iff_not]
  right
  show ¬ c.toNat ≤ 57
  omega

theorem hexch_ne_at {c : Char} (h : is_rebased_ascii_hexdigit c = true) : (c == '@') = false := by
  cases h' : c == '@' with
  | false => rfl
  | true => rw [show c = '@' by simpa using h'] at h; exact absurd h (by decide)

/-- Reading a natural number. -/
theorem tr_number_nat (hi : Inv T A s) {a rest : Text} (ha : NatCode a) (hq : a.head? ≠ some '?')
    (hs : s.str.string = a ++ rest) :
    Tr T A demangle_number (fun x s' => Same s s' ∧ s'.len < s.len ∧ x.2 = false ∧ s'.str.string = rest) s := by
  unfold demangle_number
  refine Tr.bind (tr_tryChar' hi '?') ?_
  rintro neg s1 hi1 hs1 ⟨h1, h2, h3⟩
  have hne : a ≠ [] := by rcases ha with ⟨c, rfl, -⟩ | ⟨x, xs, rfl, -⟩ <;> simp
  obtain ⟨c, cs, rfl⟩ : ∃ c cs, a = c :: cs := by
    cases a with
    | nil => exact absurd rfl hne
    | cons c cs => exact ⟨c, cs, rfl⟩
  have hc : ¬ c = '?' := by simpa using hq
  have h4 : s1.str.string = c :: (cs ++ rest) := by rw [h2, hs]; simp [dropIf, hc]
  obtain rfl : neg = false := by rw [h3, hs]; simpa using hc
  refine Tr.bind (tr_expectAny' hi1 _ (by rw [h4]; simp)) ?_
  rintro c' s2 hi2 hs2 ⟨h5, h6, h7⟩
  rw [h7] at h4
  obtain ⟨rfl, h8⟩ := List.cons.inj h4
  have hlen : s2.len < s.len := by have := hs1.len; omega
  refine Tr.ite (fun hd => ?_) fun hd => ?_
  · rcases ha with ⟨x, hx, -⟩ | ⟨x, xs, hx, hh, -⟩
    · obtain ⟨rfl, rfl⟩ := List.cons.inj hx
      exact Tr.pure hi2 ⟨h1.trans h5, hlen, rfl, h8⟩
    · obtain ⟨rfl, -⟩ := List.cons.inj hx
      rw [hexch_not_digit hh] at hd
      exact absurd hd (by simp)
  · refine Tr.bind (Q := fun (n : Nat) s' => Same s2 s' ∧ s'.str.string = rest)
      (Tr.loop (fun (x : Nat × Char) s' => Same s2 s' ∧
        ((x.2 = '@' ∧ s'.str.string = rest) ∨ is_rebased_ascii_hexdigit x.2 = true ∧
          ∃ ys, ys.all is_rebased_ascii_hexdigit = true ∧ s'.str.string = ys ++ '@' :: rest)) hi2 ⟨Same.refl s2, ?_⟩ ?_) ?_
    · rcases ha with ⟨x, hx, hk⟩ | ⟨x, xs, hx, hh, ht⟩
      · obtain ⟨rfl, rfl⟩ := List.cons.inj hx
        rcases hk with rfl | hk
        · exact .inl ⟨rfl, h8⟩
        · exact absurd hk hd
      · obtain ⟨rfl, rfl⟩ := List.cons.inj hx
        exact .inr ⟨hh, xs, ht, by rw [h8]; simp⟩
    · rintro ⟨n, d⟩ s3 hi3 hs3 ⟨hsame, hk⟩
      unfold numberBody
      refine Tr.ite (fun hd => Tr.pure hi3 ⟨hsame, ?_⟩) fun hd => ?_
      · rcases hk with hk | ⟨hk, -⟩
        · exact hk.2
        · simp only at hk hd; rw [hexch_ne_at hk] at hd; exact absurd hd (by simp)
      rcases hk with ⟨hk, -⟩ | ⟨hk, ys, hy, hy'⟩
      · simp only at hk hd; exact absurd (by simpa using hk) hd
      refine Tr.ite (fun hc => ?_) fun hc => absurd hk hc
      refine Tr.ite (fun hlt => ?_) fun hge => absurd (number_no_overflow n _ (hexdigit_lt hc)) hge
      refine Tr.bind (tr_expectAny' hi3 .InvalidNumber (by rw [hy']; simp)) ?_
      rintro c'' s4 hi4 hs4 ⟨h9, h10, h11⟩
      refine Tr.pure hi4 ⟨⟨hsame.trans h9, ?_⟩, h10⟩
      rw [h11] at hy'
      cases ys with
      | nil => obtain ⟨rfl, hr⟩ := List.cons.inj hy'; exact .inl ⟨rfl, hr⟩
      | cons y ys =>
        obtain ⟨rfl, hr⟩ := List.cons.inj hy'
        simp only [List.all_cons, Bool.and_eq_true] at hy
        exact .inr ⟨hy.1, ys, hy.2, hr⟩
    · intro n s3 hi3 hs3 hq
      refine Tr.pure hi3 ⟨(h1.trans h5).trans hq.1, ?_, rfl, hq.2⟩
      have := hs3.len; omega

theorem tr_locally_scoped (hr : GoodRend T rend) (hrec : RecOK T n r) (hi : Inv T A s) (hl : s.len < n)
    (hp : s.str.starts_with_local_scope_pattern = .ok true) :
    Tr T A (demangle_locally_scoped_name_piece rend r)
      (fun h s' => Good T s'.cache A .ident h ∧ s'.len < s.len) s := by
  unfold demangle_locally_scoped_name_piece
  obtain ⟨a, b, hab, ha, haq⟩ := local_scope_true hi.chars hp
  refine Tr.bind (tr_expectChar' hi _ _ (by rw [hab]; rfl)) ?_
  intro _ s1 hi1 hs1 h1
  refine Tr.bind (tr_number_nat (rest := '?' :: b) hi1 ha haq (by
    have := h1.2.2; rw [hab] at this; exact (List.cons.inj this).2.symm)) ?_
  rintro ⟨k, neg⟩ s2 hi2 hs2 ⟨-, -, rfl, h2⟩
  refine Tr.ite (fun h => by cases h) fun _ => ?_
  refine Tr.bind (tr_expectChar' hi2 _ _ (by rw [h2]; rfl)) ?_
  intro _ s3 hi3 hs3 h3
  have hl3 : s3.len < s.len := by have := h1.2.1; have := hs2.len; have := hs3.len; omega
  refine Tr.bind (hrec.parse hi3 (by omega)) ?_
  rintro h s4 hi4 hs4 ⟨h4, h5⟩
  refine Tr.get ?_
  refine Tr.bind (tr_runW hi4 (Q := fun t => T.name t) ?_) ?_
  · have hout : Out T [] [] (do
        write c!"`"
        rend s4.cache .ISymbolNode h
        write (c!"'::`" ++ decNat k ++ c!"'")) :=
      Out.seq (Out.lit (by decide)) (Out.seq (hr _ _ _ _ hi4.size h4)
        (Out.name (T.name_append (T.name_append (T.name_of_lit (by decide)) (T.name_decNat k))
          (T.name_of_lit (by decide)))))
    refine wp.mono (hout [] (by decide)) ?_
    rintro _ t ⟨_, u, rfl, hu⟩ d
    simpa using T.shift d hu
  · rintro t s5 hi5 hs5 ⟨ht, rfl⟩
    refine (tr_intern_good (nd := .NamedIdentifier none t) hi5 .ident rfl ht
      (by simp [kids, kidsOf, optKid])).mono ?_
    rintro i s6 hi6 hs6 ⟨h6, _⟩
    exact ⟨h6, by have := hs6.len; omega⟩

theorem tr_scope_piece (hr : GoodRend T rend) (hrec : RecOK T n r) (hi : Inv T A s) (hl : s.len < n) :
    Tr T A (demangle_name_scope_piece rend r)
      (fun h s' => Good T s'.cache A .ident h ∧ s'.len < s.len) s := by
  unfold demangle_name_scope_piece
  refine Tr.query ?_
  refine Tr.ite (fun _ => ?_) fun _ => ?_
  · exact (tr_back_ref hi).mono fun h s' _ _ hq => ⟨hq.1.ident_of_named, hq.2.2.2⟩
  refine Tr.query ?_
  refine Tr.ite (fun _ => ?_) fun _ => ?_
  · exact (hrec.tmpl _ hi hl).mono fun h s' _ _ hq => ⟨hq.1, hq.2.1⟩
  refine Tr.query ?_
  refine Tr.ite (fun _ => tr_anonymous hi) fun _ => ?_
  refine tr_queryE (local_scope_ok hi.chars) fun l hlp => ?_
  refine Tr.ite (fun h => tr_locally_scoped hr hrec hi hl (by rw [hlp, h])) fun _ => ?_
  exact (tr_simple_name hi _).mono fun h s' _ _ hq => ⟨hq.1, hq.2.1⟩

/-- A qualified name ending in `i` whose other components are trees in `B`. -/
def Chain (T : TSpec) (A B : Handle → Prop) (i qn : Handle) (s : St) : Prop :=
  ∃ comps pieces, s.cache[qn]? = some (.QualifiedName comps) ∧
    s.cache[comps]? = some (.NodeArray (pieces ++ [i])) ∧
    (∀ p ∈ pieces, Good T s.cache B .ident p) ∧ B qn ∧ B comps ∧ Good T s.cache A .ident i

theorem Chain.good {i qn : Handle} (h : Chain T A B i qn s) (hBA : ∀ j, B j → A j) :
    Good T s.cache A .qn qn := by
  obtain ⟨comps, pieces, h1, h2, h3, h4, h5, h6⟩ := h
  refine Good.intro (hBA _ h4) h1 rfl trivial ?_
  intro p hp
  simp only [kids, kidsOf, List.mem_singleton] at hp
  subst hp
  refine Good.intro (hBA _ h5) h2 rfl trivial ?_
  intro p hp
  simp only [kids, List.mem_map, List.mem_append, List.mem_singleton] at hp
  obtain ⟨x, hx, rfl⟩ := hp
  rcases hx with hx | rfl
  · exact (h3 x hx).mono hBA
  · exact h6

theorem Chain.step {i qn : Handle} (h : Chain T A B i qn s) (hs : Step T s s') : Chain T A B i qn s' := by
  obtain ⟨comps, pieces, h1, h2, h3, h4, h5, h6⟩ := h
  exact ⟨comps, pieces, hs.frz h1 rfl, hs.frz h2 rfl, fun p hp => hs.ext (h3 p hp), h4, h5, hs.ext h6⟩

theorem tr_scope_chain (hr : GoodRend T rend) (hrec : RecOK T n r) (hBA : ∀ j, B j → A j) (hi : Inv T B s)
    (hl : s.len < n) {i : Handle} (hg : Good T s.cache A .ident i) :
    Tr T B (demangle_name_scope_chain rend r i) (fun qn s' => Chain T A B i qn s' ∧
      s.cache.length ≤ qn ∧ s'.len < s.len) s := by
  unfold demangle_name_scope_chain
  refine Tr.loop (fun nodes s' => ∃ ps, nodes = i :: ps ∧ ∀ p ∈ ps, Good T s'.cache B .ident p) hi
    ⟨[], rfl, by simp⟩ ?_
  rintro nodes s1 hi1 hs1 ⟨ps, rfl, hps⟩
  unfold scopeChainBody
  refine Tr.bind (tr_tryChar hi1 '@') ?_
  intro e s2 hi2 hs2 h2
  refine Tr.ite (fun he => ?_) fun _ => ?_
  · refine Tr.bind (tr_intern hi2 _) ?_
    rintro comps s3 hi3 hs3 ⟨hc, h3, h4, _⟩
    refine Tr.bind (tr_intern hi3 _) ?_
    rintro qn s4 hi4 hs4 ⟨hq, h5, h6, _⟩
    have hc' : s3.cache[comps]? = some (.NodeArray (i :: ps).reverse) := by rw [h3, hc]; simp
    refine Tr.pure hi4 ⟨⟨comps, ps.reverse, ?_, ?_, ?_, ?_, ?_, ?_⟩, ?_, ?_⟩
    · rw [h5, hq]; simp
    · have := hs4.frz hc' rfl
      simpa using this
    · intro p hp
      exact hs4.ext (hs3.ext (hs2.ext (hps p (by simpa using hp))))
    · rw [hq]; exact hi3.fresh _ (Nat.le_refl _)
    · rw [hc]; exact hi2.fresh _ (Nat.le_refl _)
    · exact hs4.ext (hs3.ext (hs2.ext (hs1.ext hg)))
    · rw [hq]; have := hs1.clen; have := hs2.clen; have := hs3.clen; omega
    · have := h2.2.1 he; have := hs1.len; have := hs3.len; have := hs4.len; omega
  · refine Tr.query ?_
    refine Tr.ite (fun _ => Tr.err) fun _ => ?_
    have hl2 : s2.len < n := by have := hs1.len; have := hs2.len; omega
    refine Tr.bind (tr_scope_piece hr hrec hi2 hl2) ?_
    rintro p s3 hi3 hs3 ⟨h3, h4⟩
    refine Tr.pure hi3 ⟨⟨ps ++ [p], by simp, ?_⟩, by have := hs2.len; omega⟩
    intro q hq
    rcases List.mem_append.1 hq with hq | hq
    · exact hs3.ext (hs2.ext (hps q hq))
    · simp only [List.mem_singleton] at hq; subst hq; exact h3

/-- Names of types. -/
theorem tr_qualified_type_name (hr : GoodRend T rend) (hrec : RecOK T n r) (hi : Inv T A s) (hl : s.len < n) :
    Tr T A (demangle_fully_qualified_type_name rend r)
      (fun h s' => Good T s'.cache A .qn h ∧ s'.len < s.len) s := by
  unfold demangle_fully_qualified_type_name
  refine Tr.bind (tr_type_name hrec hi hl true) ?_
  intro i s1 hi1 hs1 h1
  refine (tr_scope_chain hr hrec (fun _ h => h) hi1 (by have := h1.1; omega) h1.good).mono ?_
  rintro qn s2 hi2 hs2 ⟨h2, _, h3⟩
  exact ⟨h2.good fun _ h => h, by have := hs1.len; omega⟩

/-- What is known about the name of a symbol: its last identifier is a back reference, or new. -/
def SymName (T : TSpec) (A : Handle → Prop) (s : St) (qn : Handle) (s' : St) : Prop :=
  s'.len < s.len ∧ ∃ i, (Chain T A A i qn s' ∧ Good T s'.cache A .named i) ∨
    (Chain T A (fun j => A j ∧ j ≠ i) i qn s' ∧ s.cache.length ≤ i ∧ Inv T (fun j => A j ∧ j ≠ i) s')

theorem tr_qualified_symbol_name (hr : GoodRend T rend) (hrec : RecOK T n r) (hi : Inv T A s)
    (hl : s.len < n) (hL : T.lead s.str.string) :
    Tr T A (demangle_fully_qualified_symbol_name rend r) (SymName T A s) s := by
  unfold demangle_fully_qualified_symbol_name
  refine wp.bind (wp.mono (tr_symbol_name hrec hi hl .Simple hL) ?_)
  rintro i s1 ⟨hi1, hs1, h1⟩
  have hl1 : s1.len < n := by have := h1.1; omega
  rcases h1.2 with ⟨hn, _⟩ | ⟨f1, f2, f3, f4⟩
  · -- a back reference
    refine wp.bind (wp.mono (tr_scope_chain hr hrec (fun _ h => h) hi1 hl1 hn.ident_of_named) ?_)
    rintro qn s2 ⟨hi2, hs2, hc, _, hl2⟩
    have hn2 := hs2.ext hn
    refine wp.mono (Q := fun a s' => Inv T A s' ∧ Step T s2 s' ∧ SymName T A s a s')
      (tr_downcastP (T := T) (B := A) (R := SymName T A s) hn2.ident_of_named ?_) ?_
    · intro nd e1 e2
      obtain ⟨nd', _, e4, e5⟩ := resolve_good hn2
      rw [e1] at e4; cases e4
      have : nd.is .StructorIdentifier = false := by cases nd <;> first | rfl | cases e5
      rw [this]
      exact Tr.pure hi2 ⟨by have := hs1.len; omega, i, Or.inl ⟨hc, hn2⟩⟩
    · rintro a s' ⟨h3, h4, h5⟩
      exact ⟨h3, (hs1.trans hs2).trans h4, h5⟩
  · refine wp.bind (wp.mono (tr_scope_chain hr hrec (A := A) (fun j h => h.1) f4 hl1 f1) ?_)
    rintro qn s2 ⟨hi2, hs2, hc, _, hl2⟩
    have hlen : s2.len < s.len := by have := hs1.len; omega
    have hgi : Good T s2.cache A .ident i := hs2.ext f1
    obtain ⟨nd, e0, e1, e2⟩ := resolve_good hgi
    have hd : downcastP .IIdentifierNode .StructorIdentifier i s2 =
        .ok ((if nd.is .StructorIdentifier then some i else none), s2) := by
      show SM.lift (downcast _ _ s2.cache i) s2 = _
      unfold downcast
      rw [e0]; rfl
    refine wp.bind ?_
    unfold wp
    rw [hd]
    show wp _ _ s2
    by_cases hst : nd.is .StructorIdentifier = true
    rotate_left
    · rw [if_neg hst]
      exact wp.pure ⟨hi2.mono fun j h => h.1, hs1.trans hs2, hlen, i, Or.inr ⟨hc, f3, hi2⟩⟩
    rw [if_pos hst]
    simp only
    obtain ⟨comps, pieces, c1, c2, c3, c4, c5, c6⟩ := hc
    -- the class
    have hcls : wp (class_of_structor qn) (fun cl s' => s' = s2 ∧
        Good T s2.cache (fun j => A j ∧ j ≠ i) .ident cl) s2 := by
      unfold class_of_structor
      have r1 : resolve .QualifiedName s2.cache qn = .ok (.QualifiedName comps) := by
        unfold resolve; simp [c1, Node.is]
      have r2 : resolve .NodeArray s2.cache comps = .ok (.NodeArray (pieces ++ [i])) := by
        unfold resolve; simp [c2, Node.is]
      refine wp.bind (wp.bind (wp.get (wp.lift_ok r1 ?_)))
      refine wp.bind (wp.bind (wp.get (wp.lift_ok r2 ?_)))
      simp only
      split
      · exact wp.err trivial
      · next hlen2 =>
        split
        · next x hx =>
          have hxm : x ∈ pieces := by
            simp only [List.length_append, List.length_singleton] at hx hlen2
            rw [List.getElem?_append_left (by omega)] at hx
            exact List.mem_of_getElem? hx
          have hgx := c3 x hxm
          obtain ⟨nx, x0, x1, x2⟩ := resolve_good (hgx.toAny (by simp))
          have hdx : downcast .INode .IIdentifierNode s2.cache x = .ok (some x) := by
            unfold downcast
            rw [x0]
            obtain ⟨nx', _, y1, y2⟩ := resolve_good hgx
            rw [x1] at y1; cases y1
            simp [y2]
          refine wp.bind (wp.bind (wp.get (wp.lift_ok hdx ?_)))
          exact wp.okOr trivial fun a ha => by cases ha; exact ⟨rfl, hgx⟩
        · exact wp.err trivial
    refine wp.bind (wp.mono hcls ?_)
    rintro cl s3 ⟨rfl, hcl⟩
    refine wp.bind (wp_modify e1 hst ?_)
    refine wp.pure ?_
    obtain ⟨k1, k2, k3⟩ := set_class_ok (T := T) cl e2
    have hset : ∀ {g h}, Good T s3.cache A g h → Good T (s3.cache.set i (set_class cl nd)) A g h := by
      intro g h hg
      refine hg.set_ident hgi e1 k1 k2 ?_
      intro g p hp
      rcases k3 g p hp with h | rfl
      · exact Or.inl h
      · exact Or.inr hcl
    have hfz := is_ident_not_frozen e2
    have hi3 := hi2.set_avoid (nd' := set_class cl nd) fun j h => h.2
    have hs3 := (hs1.trans hs2).set_late (nd' := set_class cl nd) f3 e1 hfz
    refine ⟨hi3.mono fun j h => h.1, hs3, hlen, i, Or.inr ⟨⟨comps, pieces, ?_, ?_, ?_, c4, c5, hset c6⟩, f3, hi3⟩⟩
    · show (List.set _ _ _)[qn]? = _
      rw [List.getElem?_set_ne (Ne.symm c4.2)]; exact c1
    · show (List.set _ _ _)[comps]? = _
      rw [List.getElem?_set_ne (Ne.symm c5.2)]; exact c2
    · intro p hp
      exact (c3 p hp).set_avoid fun j h => h.2

end Undname
