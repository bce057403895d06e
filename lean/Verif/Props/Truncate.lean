/-
  Property theorems C57: truncated names are rejected.
-/
import Verif.Props.Exact
import Verif.Props.Rejects
import Verif.Props.RoundTrip

namespace Undname
namespace Props
open Spec

/-! ### What the parser leaves -/

theorem sim_left {E : Env} {m rest : Text} {tb' : Tbl} {Q : World → Handle → Prop}
    (h : Sim (fns (render E) (m.length + 1)).parse (mk m [] [] []) (Reach [] tb' rest Q)) {hd : Handle} {s : St}
    (hp : parse (render E) m = .ok (hd, s)) : s.str = MStr.new rest := by
  have hp' : exec (fns (render E) (m.length + 1)).parse (mk m [] [] []) = .ok (hd, s) := hp
  unfold Sim at h
  rw [hp'] at h
  obtain ⟨w, ns, ps, rfl, _⟩ := h
  rfl

theorem sym_left {E : Env} {t : T} {x rest : Text} {tb' : Tbl} (h : Gram E .sym {} t x tb') {hd : Handle} {s : St}
    (hp : parse (render E) (x ++ rest) = .ok (hd, s)) : s.str = MStr.new rest :=
  sim_left ((gram_reads h : MSym E {} t x tb').run _ rest [] [] [] (Tab.empty _)) hp

theorem symEnd_left {E : Env} {t : T} {x : Text} {tb' : Tbl} (h : Gram E .symEnd {} t x tb') {hd : Handle} {s : St}
    (hp : parse (render E) x = .ok (hd, s)) : s.str = MStr.new [] := by
  have := (gram_reads h : MSymEnd E {} t x tb') (x.length + 1) [] [] [] (Tab.empty _)
  rw [List.append_nil] at this
  exact sim_left this hp

theorem new_inj {a b : Text} (h : MStr.new a = MStr.new b) : a = b := congrArg MStr.string h

theorem parse_of_ok {E : Env} {m out : Text} (h : demangle E m = .ok (.ok out)) :
    ∃ hd s, parse (render E) m = .ok (hd, s) := by
  cases e : parse (render E) m with
  | ok p => exact ⟨p.1, p.2, rfl⟩
  | error f =>
    exfalso
    cases f with
    | crash c => unfold demangle demangle_into parse_into at h; rw [e] at h; cases h
    | err e' => rw [demangle_error e] at h; cases h

theorem rejected_of {E : Env} {m : Text} (h : ∀ out, demangle E m ≠ .ok (.ok out)) : ∃ e, demangle E m = .ok (.error e) := by
  cases hd : demangle E m with
  | error c => exact absurd hd (no_crash E m [] c).2
  | ok r =>
    cases r with
    | error e => exact ⟨e, rfl⟩
    | ok out => exact absurd hd (h out)

/-! ### Truncation -/

/-- **C57**: no proper prefix of a symbol is accepted, if it is not one of the symbols whose reading depends on where the
input ends. -/
theorem C57_truncated (E : Env) {t : T} {x : Text} {tb' : Tbl} (h : Gram E .sym {} t x tb')
    (hs : ∀ q ∈ endSensitive, ¬ q <+: x) {p : Text} (hp : p <+: x) (hne : p ≠ x) : ∃ e, demangle E p = .ok (.error e) := by
  refine rejected_of fun out hd => ?_
  obtain ⟨r, rfl⟩ := hp
  have hr : r ≠ [] := by rintro rfl; exact hne (by simp)
  have hs' : ∀ q ∈ endSensitive, ¬ q <+: p := fun q hq hqp => hs q hq (hqp.trans (List.prefix_append _ _))
  obtain ⟨hd1, s1, e1⟩ := parse_of_ok (C39_appended_ignored E (rest := r) hd hs')
  have l1 := sym_left (rest := []) h (by rw [List.append_nil]; exact e1)
  obtain ⟨t', ht, _⟩ := accepted_text hd
  rcases ht with ⟨x', r', tb2, rfl, hg⟩ | ⟨tb2, hg⟩ | ⟨u, r', rfl, _⟩
  · rw [List.append_assoc] at e1
    have l2 := sym_left hg e1
    rw [l1] at l2
    have := new_inj l2
    cases r' <;> simp at this
    exact hr this
  · cases hg with
    | guardEnd th vis _ =>
      cases th with
      | true => exact hs' c!"??__J" (by decide) (by simp [List.append_assoc])
      | false => exact hs' c!"??_B" (by decide) (by simp [List.append_assoc])
    | typeinfo _ => exact hs' c!"." (by decide) ⟨_, rfl⟩
    | rttiType _ => exact hs' c!"??_R0" (by decide) (by simp [List.append_assoc])
  · exact absurd (by simp [hashed, List.append_assoc]) (hs' c!"??@" (by decide))

/-- **C57**: in terms of the calls only: an accepted name (not one of those symbols) has a point before which every
prefix is rejected and from which on every prefix is accepted, with the same result. -/
theorem C57_one_end (E : Env) {m out : Text} (h : demangle E m = .ok (.ok out)) (hs : ∀ q ∈ endSensitive, ¬ q <+: m) :
    ∃ k, 0 < k ∧ k ≤ m.length ∧ (∀ j, j < k → ∃ e, demangle E (m.take j) = .ok (.error e)) ∧
      ∀ j, k ≤ j → demangle E (m.take j) = .ok (.ok out) := by
  obtain ⟨t, n, ht, hn, rfl, ho⟩ := (C56_exactly E m out).1 h
  rcases ht with ⟨x, r, tb', rfl, hg⟩ | ⟨tb', hg⟩ | ⟨u, r, rfl, _⟩
  · have hx : x ≠ [] := by
      obtain ⟨y, e⟩ := (gram_reads hg.gram : MSym E {} t x tb').head
      simp [e]
    have hsx : ∀ q ∈ endSensitive, ¬ q <+: x := fun q hq hqp => hs q hq (hqp.trans (List.prefix_append _ _))
    refine ⟨x.length, List.length_pos_iff.2 hx, by simp, fun j hj => ?_, fun j hj => ?_⟩
    · have e : (x ++ r).take j = x.take j := List.take_append_of_le_length (by omega)
      rw [e]
      refine C57_truncated E hg.gram hsx (List.take_prefix _ _) fun e => ?_
      have := congrArg List.length e
      rw [List.length_take] at this
      omega
    · have e : (x ++ r).take j = x ++ r.take (j - x.length) := by
        rw [List.take_append, List.take_of_length_le hj]
      rw [e]
      exact (C56_exactly E _ _).2 ⟨t, n, .inl ⟨x, _, tb', rfl, hg⟩, hn, rfl, ho⟩
  · exfalso
    cases hg with
    | guardEnd th vis _ =>
      cases th with
      | true => exact hs c!"??__J" (by decide) (by simp [List.append_assoc])
      | false => exact hs c!"??_B" (by decide) (by simp [List.append_assoc])
    | typeinfo _ => exact hs c!"." (by decide) ⟨_, rfl⟩
    | rttiType _ => exact hs c!"??_R0" (by decide) (by simp [List.append_assoc])
  · exact absurd (by simp [hashed, List.append_assoc]) (hs c!"??@" (by decide))

/-- Variables and functions are not among those symbols. -/
theorem free_insensitive {y : Text} (h : Free y) : ∀ q ∈ endSensitive, ¬ q <+: '?' :: y := by
  intro q hq hp
  simp only [endSensitive, List.mem_cons, List.not_mem_nil, or_false] at hq
  rcases hq with rfl | rfl | rfl | rfl | rfl
  · simp at hp
  · exact h c!"?_R0" (by decide) (List.cons_prefix_cons.1 hp).2
  · exact h c!"?_B" (by decide) (List.cons_prefix_cons.1 hp).2
  · exact h c!"?__J" (by decide) (List.cons_prefix_cons.1 hp).2
  · exact h c!"?@" (by decide) (List.cons_prefix_cons.1 hp).2

/-- **C57**: no proper prefix of what a compiler emits for a variable or a function is accepted. -/
theorem C57_compiler {E : Env} (w : Bool) {d : Cxx.Decl} (h : d.Ok E) (hd : Cxx.Distinct E d.keys) {p : Text}
    (hp : p <+: (d.mangle w {}).1) (hne : p ≠ (d.mangle w {}).1) : ∃ e, demangle E p = .ok (.error e) := by
  obtain ⟨t, x, tb', g⟩ := d.gram hd w h (fun _ h => h) {} {} (Cxx.Seen.like_nil E _)
  rw [g.eq] at hp hne
  exact C57_truncated E g.sym (free_insensitive g.free) hp hne

theorem decl_at {E : Env} {tb tb' : Tbl} {t : T} {x : Text} (h : Gram E .decl tb t x tb') : '@' ∈ x := by
  have key : ∀ {tb ps y tb'}, Gram E .scopes tb ps y tb' → '@' ∈ y := fun h => gram_at h
  cases h <;> simp [key ‹Gram E .scopes _ _ _ _›]

/-- A symbol that does not end with the input is not a type descriptor. -/
theorem sym_not_rtti {E : Env} {t : T} {x rest : Text} {tb' : Tbl} (h : Gram E .sym {} t x tb') :
    ¬ c!"??_R0" <+: x ++ rest := by
  intro hp
  cases h with
  | @sym _ _ y _ hd hf =>
    have hat : '@' ∈ y := decl_at hd
    rw [List.cons_append, List.cons_prefix_cons] at hp
    have hp := hp.2
    rcases List.prefix_or_prefix_of_prefix hp (List.prefix_append y rest) with h | h
    · exact hf c!"?_R0" (by decide) h
    · exact absurd (h.subset hat) (by decide)
  | table h _ _ _ =>
    simp only [tableCodes, List.mem_cons, List.not_mem_nil, or_false, Prod.mk.injEq] at h
    rcases h with h | h | h | h <;> obtain ⟨rfl, _⟩ := h <;> simp at hp
  | tableFor h _ _ _ _ =>
    simp only [tableCodes, List.mem_cons, List.not_mem_nil, or_false, Prod.mk.injEq] at h
    rcases h with h | h | h | h <;> obtain ⟨rfl, _⟩ := h <;> simp at hp
  | untyped h _ =>
    simp only [untypedCodes, List.mem_cons, List.not_mem_nil, or_false, Prod.mk.injEq] at h
    rcases h with h | h <;> obtain ⟨rfl, _⟩ := h <;> simp at hp
  | guardVar th vis => cases th <;> simp at hp
  | dynVar d => cases d <;> simp at hp
  | dynFn d => cases d <;> simp at hp
  | _ => simp [hashed] at hp

/-- **C57**: no proper prefix of an accepted type descriptor is accepted. -/
theorem C57_descriptors {E : Env} {m out : Text} (h : demangle E m = .ok (.ok out))
    (hs : c!"." <+: m ∨ c!"??_R0" <+: m) {p : Text} (hp : p <+: m) (hne : p ≠ m) : ∃ e, demangle E p = .ok (.error e) := by
  refine rejected_of fun out' hd => ?_
  obtain ⟨r, rfl⟩ := hp
  have hr : r ≠ [] := by rintro rfl; exact hne (by simp)
  have hrej : ∀ e, ¬ Rejects E (p ++ r) e := by
    rintro e (h' | ⟨_, h'⟩) <;> rw [h] at h' <;> cases h'
  obtain ⟨t', ht', _⟩ := accepted_text hd
  rcases ht' with ⟨x', r', tb2, rfl, hg⟩ | ⟨tb2, hg⟩ | ⟨u, r', rfl, _⟩
  · rw [List.append_assoc] at hs
    rcases hs with hs | hs
    · obtain ⟨y, e⟩ := (gram_reads hg : MSym E {} t' x' tb2).head
      rw [e] at hs
      simp at hs
    · exact sym_not_rtti hg hs
  · cases hg with
    | guardEnd th vis _ =>
      rcases hs with hs | hs <;> cases th <;> simp [List.append_assoc] at hs
    | typeinfo hg => exact hrej _ (C22_typeinfo_complete hg hr)
    | rttiType hg => exact hrej _ (C22_rtti_complete hg hr)
  · rcases hs with hs | hs <;> simp [hashed, List.append_assoc] at hs

/-! ### Examples -/

/-- A function in a template: the end is where the mangled name ends; what follows is not part of it. -/
example : ∃ k, 0 < k ∧ k ≤ 26 ∧
    (∀ j, j < k → ∃ e, demangle E0 (c!"?f@?$A@H@@QAEXPAU1@H@Zjunk".take j) = .ok (.error e)) ∧
    ∀ j, k ≤ j → demangle E0 (c!"?f@?$A@H@@QAEXPAU1@H@Zjunk".take j) = .ok (.ok c!"public: void __thiscall A<int>::f(struct A<int> *, int)") :=
  C57_one_end E0 (m := c!"?f@?$A@H@@QAEXPAU1@H@Zjunk") (by decide +kernel) (by decide +kernel)

example : ∃ e, demangle E0 c!".?AV?$A@H@" = .ok (.error e) :=
  C57_descriptors (E := E0) (m := c!".?AV?$A@H@@") (out := c!"class A<int> `RTTI Type Descriptor Name'") (by decide +kernel)
    (.inl (by decide +kernel)) (by decide +kernel) (by decide +kernel)

/-- The exceptions are real: a guard without its number and a hashed name without its marker are accepted. -/
theorem C57_exceptions :
    demangle E0 c!"??_B?1??f@@YAXXZ@51" = .ok (.ok c!"`void __cdecl f(void)'::`2'::`local static guard'{2}") ∧
    demangle E0 c!"??_B?1??f@@YAXXZ@5" = .ok (.ok c!"`void __cdecl f(void)'::`2'::`local static guard'") ∧
    demangle E0 c!"??@a@??_R4@" = .ok (.ok c!"??@a@??_R4@") ∧ demangle E0 c!"??@a@??_R4" = .ok (.ok c!"??@a@") := by
  refine ⟨?_, ?_, ?_, ?_⟩ <;> decide +kernel

end Props
end Undname
