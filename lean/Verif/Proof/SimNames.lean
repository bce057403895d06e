/-
  Simulation: names and scopes.
-/
import Verif.Proof.SimRules3
import Verif.Proof.Prefix

namespace Undname
open Spec (CV FnKind Sig Adjust Access T Tbl Ext Name Fits cvCodes memberCvCodes ptrCodes refCodes primCode tagCode)

/-! ### Memorizing -/

theorem contains_eq {w : World} {names : List Text} {ns : List Handle} (s : Text)
    (h : All2 (fun s h => w[h]? = some (.NamedIdentifier none s, true)) names ns) :
    memorize_string.names_contain w.c s ns = .ok (decide (s ∈ names)) := by
  induction h with
  | nil => rfl
  | @cons a b as bs hab _ ih =>
    unfold memorize_string.names_contain
    rw [resolve_get (World.c_get hab) rfl]
    by_cases e : a = s
    · subst e; simp
    · simp only [beq_eq_false_iff_ne.2 e, Bool.false_eq_true, if_false, ih]
      congr 1
      simp [Ne.symm e]

section
variable {β : Type} {w : World} {tb : Tbl} {ns ps : List Handle} {k : Unit → P β} {R : β → St → Prop} {x : Text}

theorem sim_memo {s : Text} (ht : Tab w tb ns ps)
    (hk : ∀ (w' : World) ns', w <+: w' → Tab w' (tb.note s) ns' ps → Sim (k ()) (mk x w'.c ns' ps) R) :
    Sim (memorize_string s >>= k) (mk x w.c ns ps) R := by
  refine Sim.bind (Q := fun _ s' => ∃ w' : World, ∃ ns', s' = mk x w'.c ns' ps ∧ w <+: w' ∧ Tab w' (tb.note s) ns' ps) ?_ ?_
  · unfold memorize_string
    refine Sim.get ?_
    rw [mk_cache, mk_names, contains_eq s ht.names]
    refine Sim.step rfl ?_
    have hl := ht.names.length
    unfold Spec.Tbl.note
    by_cases hc : tb.names.length < 10 ∧ s ∉ tb.names
    · have : (decide (ns.length < 10) && !decide (s ∈ tb.names)) = true := by simp [← hl, hc]
      simp only [this, if_true, if_pos hc]
      refine Sim.intern true ?_
      unfold memorize_string.push_name
      refine Sim.get ?_
      rw [mk_names, if_pos (by omega)]
      refine ⟨_, _, rfl, List.prefix_append _ _, ?_⟩
      have ht' := ht.mono (Vis.push (.NamedIdentifier none s, true))
      exact ⟨ht'.names.snoc (get_push _ _), ht'.params⟩
    · have : (decide (ns.length < 10) && !decide (s ∈ tb.names)) = false := by
        rw [Bool.eq_false_iff]; intro h; apply hc
        simpa [← hl] using h
      simp only [this, Bool.false_eq_true, if_false, if_neg hc]
      exact ⟨w, ns, rfl, List.prefix_refl _, ht⟩
  · rintro ⟨⟩ s' ⟨w', ns', rfl, hp, ht'⟩
    exact hk w' ns' hp ht'

theorem sim_runW {m : W Unit} {f : Text → Text} {k : Text → P β} {s : St} (hm : Em m f) (hf : Fits (f [])) (hk : Sim (k (f [])) s R) :
    Sim (runW m [] >>= k) s R := by
  have h := hm.run [] (by decide)
  unfold Sim at hk ⊢
  rw [run_bind_eq]
  have e : exec (runW m []) s = match exec m [] with | .ok (_, t') => .ok (t', s) | .error e => .error e := rfl
  rw [e]
  revert h
  cases exec m [] with
  | ok p =>
    obtain ⟨⟨⟩, t⟩ := p
    rintro ⟨rfl, _⟩
    exact hk
  | error e =>
    cases e with
    | crash c => intro _; trivial
    | err e => rintro ⟨_, h⟩; exact (h hf).elim

end

section
variable {E : Env} {tb tb' tb1 tb2 : Tbl} {t t' : T} {x y z : Text}

theorem render_em {w : World} {h : Handle} (H : Rep w t (.H h)) (k : Kind) : Em (render E w.c k h) (T.pr E t).out :=
  HEm.out (rep_em H) _ k

theorem sim_memoId {β : Type} {w : World} {tb : Tbl} {ns ps : List Handle} {k : Unit → P β} {R : β → St → Prop} {h : Handle}
    (ht : Tab w tb ns ps) (H : Rep w t (.H h)) (hf : Fits (t.text E))
    (hk : ∀ (w' : World) ns', w <+: w' → Tab w' (tb.note (t.text E)) ns' ps → Sim (k ()) (mk x w'.c ns' ps) R) :
    Sim (memorize_identifier (render E) h >>= k) (mk x w.c ns ps) R := by
  unfold memorize_identifier
  refine Sim.of_eq (s' := mk x w.c ns ps) (m' := runW (render E w.c .IIdentifierNode h) [] >>= fun t => memorize_string t >>= k) ?_ ?_
  · simp only [run]
    cases exec (runW (render E w.c .IIdentifierNode h) []) (mk x w.c ns ps) <;> rfl
  · exact sim_runW (render_em H _) hf (sim_memo ht hk)

/-! ### Simple names -/

theorem find_at {s : Text} (h : '@' ∉ s) (rest : Text) : (MStr.new (s ++ '@' :: rest)).find_char '@' = some (utf8Len s) :=
  findChar_at rest h

theorem utf8Len_ne {s : Text} (h : s ≠ []) : (utf8Len s == 0) = false := by
  cases s with
  | nil => exact (h rfl).elim
  | cons c s =>
    have := utf8Size_pos c
    simp only [utf8Len, beq_eq_false_iff_ne]
    omega

theorem take_run (s rest : Text) (c : Cache) (ns ps : List Handle) :
    exec (tryBytes (utf8Len s)) (mk (s ++ rest) c ns ps) = .ok (some s, mk rest c ns ps) :=
  tryBytes_hit _ _ _ _ (splitAtBytes_len _ _) rfl

theorem run_sstring {s : Text} (h0 : s ≠ []) (h : '@' ∉ s) :
    Runs (demangle_simple_string true) (s ++ c!"@") tb (tb.note s) (fun _ _ a => a = s) := by
  intro rest w ns ps ht
  rw [List.append_assoc, List.singleton_append]
  unfold demangle_simple_string
  refine Sim.query ?_
  rw [mk_str, find_at h]
  refine Sim.step rfl ?_
  simp only [utf8Len_ne h0, Bool.false_eq_true, if_false]
  refine Sim.step (take_run _ _ _ _ _) (Sim.step rfl ?_)
  refine Sim.step (expectChar_cons _ _ _ _ _ _ _) ?_
  exact sim_memo ht fun w' ns' hp ht' => Sim.done hp ht' rfl

theorem sstring_false {s rest : Text} {c : Cache} {ns ps : List Handle} (h0 : s ≠ []) (h : '@' ∉ s) :
    exec (demangle_simple_string false) (mk (s ++ '@' :: rest) c ns ps) = .ok (s, mk rest c ns ps) := by
  unfold demangle_simple_string
  simp only [run, find_at h, utf8Len_ne h0, Bool.false_eq_true, if_false, take_run]
  simp [run]

theorem run_simple {s : Text} (h0 : s ≠ []) (h : '@' ∉ s) : Runs (demangle_simple_name true) (s ++ c!"@") tb (tb.note s) (Hole (.named s .nil)) := by
  intro rest w ns ps ht
  unfold demangle_simple_name
  refine (run_sstring h0 h).bind ht fun a w1 ns1 ps1 hp1 ht1 H1 => ?_
  subst H1
  exact sim_hole hp1 ht1 (.named .nil)

theorem backref_run {i : Nat} {s : Text} (hi : i < 10) (hget : tb.names[i]? = some s) :
    Runs demangle_back_ref_name (Spec.digit i) tb tb (Seen (.named s .nil)) := by
  intro rest w ns ps ht
  obtain ⟨c, hc, h1, h2, h3, _⟩ := digit_char hi
  obtain ⟨p, hp, hR⟩ := ht.names.get hget
  rw [hc, List.singleton_append]
  unfold demangle_back_ref_name
  have h4 : exec (tryIf isDigit) (mk (c :: rest) w.c ns ps) = .ok (some c, mk rest w.c ns ps) := by
    rw [tryIf_cons, if_pos h1]
  refine Sim.step h4 (Sim.step rfl (Sim.get ?_))
  simp only [run, h2, hp]
  exact Sim.ok rfl ⟨w, ns, ps, rfl, List.prefix_refl _, ht, .handle hR (.named .nil)⟩

theorem digit_first {i : Nat} (hi : i < 10) (rest : Text) (c : Cache) (ns ps : List Handle) :
    exec (firstIs isDigit) (mk (Spec.digit i ++ rest) c ns ps) = .ok (true, mk (Spec.digit i ++ rest) c ns ps) := by
  obtain ⟨c, hc, h1, h2, h3, _⟩ := digit_char hi
  rw [hc, List.singleton_append, firstIs_cons, h1]

theorem isDigit_eq (c : Char) : isDigit c = c.isDigit := by
  rw [Bool.eq_iff_iff]
  simp only [isDigit, Char.isDigit, Bool.and_eq_true, decide_eq_true_eq, UInt32.le_iff_toNat_le, ge_iff_le, Char.toNat]

theorem name_cons {s : Text} (h : Name s) : ∃ c y, s = c :: y ∧ isDigit c = false ∧ c ≠ '?' ∧ c ≠ '@' := by
  cases s with
  | nil => exact (h.ne rfl).elim
  | cons c y =>
    obtain ⟨h1, h2⟩ := h.head c rfl
    exact ⟨c, y, rfl, by rw [isDigit_eq, h1], h2, fun e => h.at_ (by simp [e])⟩

theorem rule_uBack {i : Nat} {s : Text} (hi : i < 10) (hget : tb.names[i]? = some s) :
    MUname E tb (.named s .nil) (Spec.digit i) tb := by
  refine ⟨?_, fun n rest w ns ps ht => ?_, fun n rest w ns ps ht => ?_⟩
  · obtain ⟨c, hc, h1, h2, h3, h4, h5⟩ := digit_char hi
    rw [hc]; simpa using h5
  · unfold demangle_unqualified_type_name
    refine Sim.step (digit_first hi _ _ _ _) ?_
    exact backref_run hi hget rest w ns ps ht
  · unfold demangle_name_scope_piece
    refine Sim.step (digit_first hi _ _ _ _) ?_
    exact backref_run hi hget rest w ns ps ht

theorem local_miss {c : Char} (h : c ≠ '?') (u : Text) (ca : Cache) (ns ps : List Handle) :
    exec (queryE MStr.starts_with_local_scope_pattern) (mk (c :: u) ca ns ps) = .ok (false, mk (c :: u) ca ns ps) := by
  have e : MStr.try_consume_char '?' (MStr.new (c :: u)) = .ok (none, MStr.new (c :: u)) := by
    have := char_cons c '?' u
    rw [if_neg (by simpa using h)] at this
    exact this
  have : MStr.starts_with_local_scope_pattern (MStr.new (c :: u)) = .ok false := by
    unfold MStr.starts_with_local_scope_pattern
    rw [e]
  rw [queryE_mk, this]; rfl

theorem rule_uName {s : Text} (h : Name s) : MUname E tb (.named s .nil) (s ++ c!"@") (tb.note s) := by
  obtain ⟨c, y, rfl, h1, h2, h3⟩ := name_cons h
  have hrun : Runs (demangle_simple_name true) ((c :: y) ++ c!"@") tb (tb.note (c :: y)) (Seen (.named (c :: y) .nil)) :=
    (run_simple h.ne h.at_).mark fun w w' a hp H => H.reveal hp
  have hsw : ∀ (t u : Text), (MStr.new (c :: t)).starts_with ('?' :: u) = false := by
    intro t u
    simp [run, Ne.symm h2]
  refine ⟨by simpa using h3, fun n rest w ns ps ht => ?_, fun n rest w ns ps ht => ?_⟩
  · unfold demangle_unqualified_type_name
    refine Sim.step (firstIs_cons _ _ _ _ _ _) ?_
    rw [h1]
    refine Sim.query ?_
    simp only [mk_str, hsw]
    exact hrun rest w ns ps ht
  · unfold demangle_name_scope_piece
    refine Sim.step (firstIs_cons _ _ _ _ _ _) ?_
    rw [h1]
    refine Sim.query ?_
    simp only [mk_str, hsw]
    refine Sim.query ?_
    simp only [mk_str, hsw]
    refine Sim.step (local_miss h2 _ _ _ _) ?_
    exact hrun rest w ns ps ht

end

end Undname
