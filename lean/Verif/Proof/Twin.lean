/-
  Two runs of the parser on a name without template instantiations, with different renderers: they take the same steps,
  and the nodes they build differ only in the names of local scopes.
-/
import Verif.Proof.Leafy

namespace Undname

/-- No template instantiation. -/
def NoT (t : Text) : Prop := ¬ c!"?$" <:+: t

theorem NoT.suffix {t u : Text} (h : NoT t) (hs : u <:+ t) : NoT u := fun hi => h (hi.trans hs.isInfix)

theorem NoT.starts {m : MStr} (h : NoT m.string) : m.starts_with c!"?$" = false := by
  unfold MStr.starts_with
  rw [Bool.eq_false_iff, Ne, List.isPrefixOf_iff_prefix]
  exact fun hp => h hp.isInfix

/-- The caches differ only in the names of plain identifiers. -/
def CEq (c c' : Cache) : Prop := ∀ i : Nat, c'[i]? = c[i]? ∨
  ∃ a b, c[i]? = some (.NamedIdentifier none a) ∧ c'[i]? = some (.NamedIdentifier none b)

structure Eqv (s s' : St) : Prop where
  str : s'.str = s.str
  names : s'.names = s.names
  params : s'.function_params = s.function_params
  len : s'.cache.length = s.cache.length
  nodes : CEq s.cache s'.cache
  same : ∀ h ∈ s.names, ∃ nd, s.cache[h]? = some nd ∧ s'.cache[h]? = some nd
  noT : NoT s.str.string

/-- Failures that depend on the renderer. -/
def Wild {α : Type} : Except Fail α → Prop
  | .error (.crash _) => True
  | .error (.err (.Io .OutOfMemory)) => True
  | _ => False

/-- The two runs do the same, up to failures that depend on the renderer. -/
def Rel {α : Type} (m m' : P α) : Prop := ∀ s s', Eqv s s' → Wild (exec m s) ∨ Wild (exec m' s') ∨
  (∃ e, exec m s = .error e ∧ exec m' s' = .error e) ∨
  (∃ a t t', exec m s = .ok (a, t) ∧ exec m' s' = .ok (a, t') ∧ Eqv t t')

/-! ### Reading nodes -/

/-- Interfaces that names do not have. -/
def Kind.noName : Kind → Bool
  | .INode | .IIdentifierNode | .NamedIdentifier => false
  | _ => true

theorem is_named {k : Kind} (hk : k.noName = true) (a : Text) : (Node.NamedIdentifier none a).is k = false := by
  cases k <;> first | rfl | cases hk

theorem is_named_eq (k : Kind) (a b : Text) : (Node.NamedIdentifier none a).is k = (Node.NamedIdentifier none b).is k := by
  cases k <;> rfl

theorem resolve_congr {c c' : Cache} (h : CEq c c') {k : Kind} (hk : k.noName = true) (i : Handle) :
    resolve k c' i = resolve k c i := by
  unfold resolve
  rcases h i with h | ⟨a, b, h, h'⟩
  · rw [h]
  · rw [h, h']; simp only [is_named hk]; rfl

theorem resolve_cases {c c' : Cache} (h : CEq c c') (k : Kind) (i : Handle) :
    resolve k c' i = resolve k c i ∨
    ∃ a b, resolve k c i = .ok (.NamedIdentifier none a) ∧ resolve k c' i = .ok (.NamedIdentifier none b) := by
  unfold resolve
  rcases h i with h | ⟨a, b, h, h'⟩
  · exact .inl (by rw [h])
  · rw [h, h']; simp only [is_named_eq k b a]
    cases e : (Node.NamedIdentifier none a).is k
    · exact .inl rfl
    · exact .inr ⟨a, b, rfl, rfl⟩

theorem downcast_congr {c c' : Cache} (h : CEq c c') (k k' : Kind) (i : Handle) :
    downcast k k' c' i = downcast k k' c i := by
  unfold downcast
  rcases resolve_cases h k i with h | ⟨a, b, h, h'⟩
  · rw [h]
  · rw [h, h']; simp only [is_named_eq k' b a]

theorem unqualified_congr {c c' : Cache} (h : CEq c c') (i : Handle) :
    get_unqualified_identifier c' i = get_unqualified_identifier c i := by
  unfold get_unqualified_identifier
  rw [resolve_congr h rfl]
  cases resolve .QualifiedName c i with
  | error e => rfl
  | ok n =>
    cases n <;> try rfl
    rename_i comps
    dsimp only
    rw [resolve_congr h rfl]
    cases resolve .NodeArray c comps with
    | error e => rfl
    | ok n =>
      cases n <;> try rfl
      rename_i nodes
      dsimp only
      cases nodes.getLast? with
      | none => rfl
      | some x => exact downcast_congr h _ _ _

theorem wild_cast {α β : Type} {e : Fail} (h : Wild (.error e : Except Fail α)) : Wild (.error e : Except Fail β) := by
  cases e with
  | crash c => trivial
  | err e => cases e <;> first | exact h | (rename_i k; cases k <;> exact h)

namespace Rel
variable {α β γ : Type}

theorem bind {m m' : P α} {f f' : α → P β} (h : Rel m m') (hf : ∀ a, Rel (f a) (f' a)) : Rel (m >>= f) (m' >>= f') := by
  intro s s' hs
  rcases h s s' hs with h | h | ⟨e, h, h'⟩ | ⟨a, t, t', h, h', ht⟩
  · refine .inl ?_
    rw [run_bind_eq]
    cases e : exec m s with
    | ok p => rw [e] at h; exact h.elim
    | error f => rw [e] at h; rw [andThen_error]; exact wild_cast h
  · refine .inr (.inl ?_)
    rw [run_bind_eq]
    cases e : exec m' s' with
    | ok p => rw [e] at h; exact h.elim
    | error f => rw [e] at h; rw [andThen_error]; exact wild_cast h
  · exact .inr (.inr (.inl ⟨e, run_bind_error h, run_bind_error h'⟩))
  · have := hf a t t' ht
    rw [run_bind_eq, run_bind_eq, h, h', andThen_ok, andThen_ok]
    exact this

theorem leafy {m : P α} (h : Leafy m) : Rel m m := by
  intro s s' hs
  obtain ⟨r, hr, hx⟩ := h s.str
  rw [hr s rfl, hr s' hs.str]
  cases r with
  | error e => exact .inr (.inr (.inl ⟨e, rfl, rfl⟩))
  | ok p =>
    exact .inr (.inr (.inr ⟨p.1, _, _, rfl, rfl, rfl, hs.names, hs.params, hs.len, hs.nodes, hs.same, hs.noT.suffix (hx _ _ rfl)⟩))

theorem ite {b : Prop} [Decidable b] {m m' n n' : P α} (h : b → Rel m n) (h' : ¬ b → Rel m' n') :
    Rel (if b then m else m') (if b then n else n') := by
  split
  · next hb => exact h hb
  · next hb => exact h' hb

theorem whenB {b : Bool} {m n : P Unit} (h : b = true → Rel m n) : Rel (whenB b m) (whenB b n) := by
  cases b
  · exact leafy (Leafy.pure _)
  · exact h rfl

theorem noT {k k' : Bool → P α} (h : Rel (k false) (k' false)) :
    Rel (query (fun m => m.starts_with c!"?$") >>= k) (query (fun m => m.starts_with c!"?$") >>= k') := by
  intro s s' hs
  have e1 : exec (query (fun m => m.starts_with c!"?$") >>= k) s = exec (k (s.str.starts_with c!"?$")) s := rfl
  have e2 : exec (query (fun m => m.starts_with c!"?$") >>= k') s' = exec (k' (s'.str.starts_with c!"?$")) s' := rfl
  rw [e1, e2, hs.noT.starts, hs.str, hs.noT.starts]
  exact h s s' hs

theorem CEq_push {c c' : Cache} (h : CEq c c') (hl : c'.length = c.length) {n n' : Node}
    (hn : n' = n ∨ ∃ a b, n = .NamedIdentifier none a ∧ n' = .NamedIdentifier none b) : CEq (c ++ [n]) (c' ++ [n']) := by
  intro i
  rcases Nat.lt_trichotomy i c.length with hi | hi | hi
  · rw [List.getElem?_append_left hi, List.getElem?_append_left (by omega)]
    exact h i
  · subst hi
    have e1 : (c ++ [n])[c.length]? = some n := by simp
    have e2 : (c' ++ [n'])[c.length]? = some n' := by rw [← hl]; simp
    rw [e1, e2]
    rcases hn with rfl | ⟨a, b, rfl, rfl⟩
    · exact .inl rfl
    · exact .inr ⟨a, b, rfl, rfl⟩
  · refine .inl ?_
    rw [List.getElem?_eq_none (by simp; omega), List.getElem?_eq_none (by simp; omega)]

theorem intern2 {n n' : Node} (hn : n' = n ∨ ∃ a b, n = .NamedIdentifier none a ∧ n' = .NamedIdentifier none b) :
    Rel (intern n) (intern n') := by
  intro s s' hs
  have e : ∀ (s : St) n, exec (Undname.intern n) s = if s.cache.length + 1 > NODE_LIMIT then .error (.err .MaliciousInput)
    else .ok (s.cache.length, { s with cache := s.cache ++ [n] }) := fun _ _ => rfl
  rw [e, e, hs.len]
  by_cases hc : s.cache.length + 1 > NODE_LIMIT
  · rw [if_pos hc, if_pos hc]
    exact .inr (.inr (.inl ⟨_, rfl, rfl⟩))
  · rw [if_neg hc, if_neg hc]
    refine .inr (.inr (.inr ⟨_, _, _, rfl, rfl, hs.str, hs.names, hs.params, ?_, CEq_push hs.nodes hs.len hn, ?_, hs.noT⟩))
    · simp [hs.len]
    · intro h hh
      obtain ⟨nd, e1, e2⟩ := hs.same h hh
      exact ⟨nd, push_old e1, push_old e2⟩
where
  push_old {c : Cache} {n nd : Node} {i : Handle} (h : c[i]? = some nd) : (c ++ [n])[i]? = some nd := by
    obtain ⟨hi, _⟩ := List.getElem?_eq_some_iff.1 h
    rw [List.getElem?_append_left hi, h]

theorem intern (n : Node) : Rel (intern n) (intern n) := intern2 (.inl rfl)

theorem read {g : Cache → Except Fail α} (hg : ∀ c c', CEq c c' → g c' = g c) :
    Rel (SM.get >>= fun s : St => SM.lift (g s.cache)) (SM.get >>= fun s : St => SM.lift (g s.cache)) := by
  intro s s' hs
  have e1 : exec (SM.get >>= fun s : St => SM.lift (g s.cache)) s = exec (SM.lift (g s.cache)) s := rfl
  have e2 : exec (SM.get >>= fun s : St => SM.lift (g s.cache)) s' = exec (SM.lift (g s'.cache)) s' := rfl
  rw [e1, e2, hg _ _ hs.nodes]
  exact leafy (Leafy.lift _) s s' hs

theorem readB {g : Cache → Except Fail α} {k k' : α → P β} (hg : ∀ c c', CEq c c' → g c' = g c) (hk : ∀ a, Rel (k a) (k' a)) :
    Rel (SM.get >>= fun s : St => SM.lift (g s.cache) >>= k) (SM.get >>= fun s : St => SM.lift (g s.cache) >>= k') := by
  intro s s' hs
  have e1 : exec (SM.get >>= fun s : St => SM.lift (g s.cache) >>= k) s = exec (SM.lift (g s.cache) >>= k) s := rfl
  have e2 : exec (SM.get >>= fun s : St => SM.lift (g s.cache) >>= k') s' = exec (SM.lift (g s'.cache) >>= k') s' := rfl
  rw [e1, e2, hg _ _ hs.nodes]
  exact bind (leafy (Leafy.lift _)) hk s s' hs

theorem resolveP {k : Kind} (hk : k.noName = true) (h : Handle) : Rel (resolveP k h) (resolveP k h) :=
  read (g := fun c => resolve k c h) fun _ _ hc => resolve_congr hc hk h

theorem downcastP (k k' : Kind) (h : Handle) : Rel (downcastP k k' h) (downcastP k k' h) :=
  read (g := fun c => downcast k k' c h) fun _ _ hc => downcast_congr hc k k' h

theorem unqualified {k k' : Option Handle → P α} (h : Handle) (hk : ∀ a, Rel (k a) (k' a)) :
    Rel (SM.get >>= fun s : St => SM.lift (get_unqualified_identifier s.cache h) >>= k)
      (SM.get >>= fun s : St => SM.lift (get_unqualified_identifier s.cache h) >>= k') :=
  readB (g := fun c => get_unqualified_identifier c h) (fun _ _ hc => unqualified_congr hc h) hk

theorem modifyNode {k : Kind} {h : Handle} {f : Node → Node} (hf : ∀ a, f (.NamedIdentifier none a) = .NamedIdentifier none a) :
    Rel (modifyNode k h f) (modifyNode k h f) := by
  intro s s' hs
  have e : ∀ s : St, exec (Undname.modifyNode k h f) s =
      andThen (resolve k s.cache h) fun n => .ok ((), { s with cache := s.cache.set h (f n) }) := by
    intro s
    show exec (SM.lift (resolve k s.cache h) >>= fun n => SM.modify fun s => { s with cache := s.cache.set h (f n) }) s = _
    rw [run_bind_eq]
    cases resolve k s.cache h <;> rfl
  have hlt : ∀ {c : Cache} {n : Node}, resolve k c h = .ok n → c[h]? = some n := by
    intro c n hr
    unfold resolve at hr
    cases hc : c[h]? with
    | none => rw [hc] at hr; cases hr
    | some x =>
      rw [hc] at hr
      dsimp only at hr
      by_cases hx : x.is k = true
      · rw [if_pos hx] at hr; cases hr; rfl
      · rw [if_neg hx] at hr; cases hr
  rw [e, e]
  rcases resolve_cases hs.nodes k h with hr | ⟨a, b, hr, hr'⟩
  · rw [hr]
    cases hn : resolve k s.cache h with
    | error e => exact .inr (.inr (.inl ⟨e, rfl, rfl⟩))
    | ok n =>
      rw [hn] at hr
      have g1 := hlt hn
      have g2 := hlt hr
      obtain ⟨l1, _⟩ := List.getElem?_eq_some_iff.1 g1
      obtain ⟨l2, _⟩ := List.getElem?_eq_some_iff.1 g2
      refine .inr (.inr (.inr ⟨(), _, _, rfl, rfl, hs.str, hs.names, hs.params, ?_, ?_, ?_, hs.noT⟩))
      · simp [hs.len]
      · intro i
        by_cases hi : h = i
        · subst hi
          left
          rw [List.getElem?_set_self l1, List.getElem?_set_self l2]
        · rw [List.getElem?_set_ne hi, List.getElem?_set_ne hi]
          exact hs.nodes i
      · intro i hh
        by_cases hi : h = i
        · subst hi
          exact ⟨f n, List.getElem?_set_self l1, List.getElem?_set_self l2⟩
        · obtain ⟨nd, q1, q2⟩ := hs.same i hh
          exact ⟨nd, by rw [← q1]; exact List.getElem?_set_ne hi, by rw [← q2]; exact List.getElem?_set_ne hi⟩
  · rw [hr, hr']
    have set_id : ∀ (s : St) a, s.cache[h]? = some (.NamedIdentifier none a) →
        { s with cache := s.cache.set h (.NamedIdentifier none a) } = s := by
      intro s a hg
      obtain ⟨l1, g⟩ := List.getElem?_eq_some_iff.1 hg
      rw [← g, List.set_getElem_self]
    refine .inr (.inr (.inr ⟨(), s, s', ?_, ?_, hs⟩))
    · rw [andThen_ok, hf, set_id s a (hlt hr)]
    · rw [andThen_ok, hf, set_id s' b (hlt hr')]

theorem iterate {body body' : β → P (β ⊕ γ)} (h : ∀ b, Rel (body b) (body' b)) :
    ∀ n b, Rel (SM.iterate n body b) (SM.iterate n body' b) := by
  intro n
  induction n with
  | zero => exact fun b => leafy (Leafy.crash _)
  | succ n ih =>
    intro b
    refine bind (h b) fun x => ?_
    cases x with
    | inl b' => exact ih b'
    | inr c => exact leafy (Leafy.pure _)

theorem loopInput {body body' : β → P (β ⊕ γ)} (h : ∀ b, Rel (body b) (body' b)) (b : β) :
    Rel (loopInput body b) (loopInput body' b) := by
  intro s s' hs
  have := iterate h (s.str.string.length + 1) b s s' hs
  have e : exec (Undname.loopInput body' b) s' = exec (SM.iterate (s.str.string.length + 1) body' b) s' := by
    rw [← hs.str]; rfl
  rw [e]
  exact this

theorem forN {body body' : β → P β} (h : ∀ b, Rel (body b) (body' b)) : ∀ n b, Rel (SM.forN n body b) (SM.forN n body' b) := by
  intro n
  induction n with
  | zero => exact fun b => leafy (Leafy.pure _)
  | succ n ih => exact fun b => bind (h b) fun b' => ih b'

end Rel

/-- Goes through a parser. -/
macro "rel" : tactic => `(tactic| repeat' (first
  | exact Rel.intern _ | assumption
  | exact Rel.downcastP _ _ _
  | exact Rel.resolveP rfl _
  | refine Rel.noT ?_
  | with_reducible refine Rel.bind ?_ fun _ => ?_
  | with_reducible refine Rel.ite (fun _ => ?_) fun _ => ?_
  | with_reducible refine Rel.whenB fun _ => ?_
  | (refine Rel.leafy ?_; leafy; done)))

namespace Rel

theorem contains_congr {c c' : Cache} {t : Text} {l : List Handle} (h : ∀ i ∈ l, ∃ nd, c[i]? = some nd ∧ c'[i]? = some nd) :
    memorize_string.names_contain c' t l = memorize_string.names_contain c t l := by
  induction l with
  | nil => rfl
  | cons i l ih =>
    obtain ⟨nd, h1, h2⟩ := h i (List.mem_cons_self ..)
    have : resolve .NamedIdentifier c' i = resolve .NamedIdentifier c i := by
      unfold resolve; rw [h1, h2]
    unfold memorize_string.names_contain
    rw [this, ih fun j hj => h j (List.mem_cons_of_mem _ hj)]

theorem memorize_string (t : Text) : Rel (memorize_string t) (memorize_string t) := by
  intro s s' hs
  have e : ∀ s : St, exec (Undname.memorize_string t) s = exec (SM.lift (memorize_string.names_contain s.cache t s.names) >>= fun known =>
      if s.names.length < 10 && !known then Undname.intern (.NamedIdentifier none t) >>= memorize_string.push_name else Pure.pure ()) s :=
    fun s => rfl
  rw [e, e, hs.names, contains_congr hs.same]
  cases hc : memorize_string.names_contain s.cache t s.names with
  | error f => exact .inr (.inr (.inl ⟨f, rfl, rfl⟩))
  | ok known =>
    rw [run_bind_eq, run_bind_eq, run_lift_ok, run_lift_ok, andThen_ok, andThen_ok]
    dsimp only
    by_cases hk : (s.names.length < 10 && !known) = true
    · simp only [hk, if_true]
      rw [run_bind_eq, run_bind_eq]
      have hn : s.names.length < 10 := by simp at hk; exact hk.1
      by_cases hc : s.cache.length + 1 > NODE_LIMIT
      · refine .inr (.inr (.inl ⟨.err .MaliciousInput, ?_, ?_⟩))
        · show andThen (if s.cache.length + 1 > NODE_LIMIT then _ else _) _ = _
          rw [if_pos hc]; rfl
        · show andThen (if s'.cache.length + 1 > NODE_LIMIT then _ else _) _ = _
          rw [hs.len, if_pos hc]; rfl
      · have q : ∀ s : St, s.names.length < 10 → ¬ s.cache.length + 1 > NODE_LIMIT →
            andThen (exec (Undname.intern (.NamedIdentifier none t)) s) (fun x => exec (memorize_string.push_name x.1) x.2) =
            .ok ((), { s with cache := s.cache ++ [.NamedIdentifier none t], names := s.names ++ [s.cache.length] }) := by
          intro s h1 h2
          show andThen (if s.cache.length + 1 > NODE_LIMIT then _ else _) _ = _
          rw [if_neg h2, andThen_ok]
          show (if _ then _ else _ : P Unit) _ = _
          rw [if_pos h1]; rfl
        refine .inr (.inr (.inr ⟨(), _, _, q s hn hc, q s' (by rw [hs.names]; exact hn) (by rw [hs.len]; exact hc), ?_⟩))
        refine ⟨hs.str, by simp [hs.names, hs.len], hs.params, by simp [hs.len], CEq_push hs.nodes hs.len (.inl rfl), ?_, hs.noT⟩
        intro i hi
        rcases List.mem_append.1 hi with hi | hi
        · obtain ⟨nd, e1, e2⟩ := hs.same i hi
          exact ⟨nd, intern2.push_old e1, intern2.push_old e2⟩
        · rw [List.mem_singleton.1 hi]
          refine ⟨.NamedIdentifier none t, by simp, ?_⟩
          show (s'.cache ++ [_])[s.cache.length]? = _
          rw [← hs.len]; simp
    · simp only [hk]
      exact .inr (.inr (.inr ⟨(), s, s', rfl, rfl, hs⟩))

theorem simple_string (b : Bool) : Rel (demangle_simple_string b) (demangle_simple_string b) := by
  have := memorize_string
  unfold demangle_simple_string
  rel
  exact this _

theorem simple_name (b : Bool) : Rel (demangle_simple_name b) (demangle_simple_name b) := by
  have := simple_string b
  unfold demangle_simple_name; rel

theorem anon : Rel demangle_anonymous_namespace_name demangle_anonymous_namespace_name := by
  unfold demangle_anonymous_namespace_name; rel
  exact memorize_string _

theorem back_ref : Rel demangle_back_ref_name demangle_back_ref_name := by
  unfold demangle_back_ref_name
  refine bind (leafy (Leafy.tryIf _)) fun c => bind (leafy (Leafy.okOr _ _)) fun c => ?_
  intro s s' hs
  show Wild (exec (SM.okOr Error.InvalidBackRef s.names[_]?) s) ∨ Wild (exec (SM.okOr Error.InvalidBackRef s'.names[_]?) s') ∨
    (∃ e, exec (SM.okOr Error.InvalidBackRef s.names[_]?) s = _ ∧ exec (SM.okOr Error.InvalidBackRef s'.names[_]?) s' = _) ∨
    (∃ a t t', exec (SM.okOr Error.InvalidBackRef s.names[_]?) s = _ ∧ exec (SM.okOr Error.InvalidBackRef s'.names[_]?) s' = _ ∧ _)
  rw [hs.names]
  exact leafy (Leafy.okOr _ _) s s' hs

theorem from_id (h : Handle) : Rel (synthesize_from_id h) (synthesize_from_id h) := by
  unfold synthesize_from_id; rel
theorem from_name (t : Text) : Rel (synthesize_from_name t) (synthesize_from_name t) := by
  have := from_id
  unfold synthesize_from_name; rel
  exact this _

theorem md5 : Rel demangle_md5_name demangle_md5_name := by
  unfold demangle_md5_name
  rel
  dsimp only
  split
  · exact leafy (Leafy.crash _)
  · exact bind (from_name _) fun _ => intern _

theorem literal_op : Rel demangle_literal_operator_identifier demangle_literal_operator_identifier := by
  have := simple_string false
  unfold demangle_literal_operator_identifier; rel

theorem code_group (g : CodeGroup) : Rel (demangle_function_identifier_code_group g) (demangle_function_identifier_code_group g) := by
  have := literal_op
  unfold demangle_function_identifier_code_group; rel

theorem code : Rel demangle_function_identifier_code demangle_function_identifier_code := by
  unfold demangle_function_identifier_code; rel <;> exact code_group _

theorem literal : Rel demangle_string_literal demangle_string_literal := by
  have := Leafy.number
  have h1 := fun b x => Leafy.loopInput (Leafy.wideBody b) x
  have h2 := fun x => Leafy.loopInput Leafy.narrowBody x
  have h3 := fun a b c d n x => Leafy.forN (Leafy.decodeBody a b c d) n x
  unfold demangle_string_literal; rel
  all_goals first | exact leafy (h1 _ _) | exact leafy (h2 _) | exact leafy (h3 _ _ _ _ _ _)

theorem primitive : Rel demangle_primitive_type demangle_primitive_type := by
  have := Leafy.primKind
  unfold demangle_primitive_type; rel

end Rel
end Undname
