/-
  The parsers of types.
-/
import Verif.Proof.Parse

namespace Undname
variable {T : TSpec} {A B : Handle → Prop} {s s' : St} {rend : Renderer} {r : Fns} {n : Nat}

/-- The post-condition of the parsers of types. -/
def TypeQ (T : TSpec) (A : Handle → Prop) (s : St) (h : Handle) (s' : St) : Prop :=
  Good T s'.cache A .type h ∧ s'.len < s.len

theorem TypeQ.of {s1 : St} {h : Handle} (hq : TypeQ T A s1 h s') (hs : Step T s s1) : TypeQ T A s h s' :=
  ⟨hq.1, Nat.lt_of_lt_of_le hq.2 hs.len⟩

theorem tr_class_type (hr : GoodRend T rend) (hrec : RecOK T n r) (hi : Inv T A s) (hl : s.len < n + 1) :
    Tr T A (demangle_class_type rend r) (TypeQ T A s) s := by
  unfold demangle_class_type
  refine Tr.bind (tr_expectAny hi _) ?_
  intro f s1 hi1 hs1 h1
  have hend : ∀ tag, ∀ s2, Inv T A s2 → Step T s1 s2 → Tr T A (do
      let name ← demangle_fully_qualified_type_name rend r
      intern (.TagType Qualifiers.Q_None name tag)) (TypeQ T A s) s2 := by
    intro tag s2 hi2 hs2
    refine Tr.bind (tr_qualified_type_name hr hrec hi2 (by have := h1.2.1; have := hs2.len; omega)) ?_
    rintro name s3 hi3 hs3 ⟨h3, h4⟩
    refine (tr_intern_good (nd := .TagType Qualifiers.Q_None name tag) hi3 .type rfl trivial
      (by simpa [kids, kidsOf] using h3)).mono ?_
    rintro h s4 hi4 hs4 ⟨h5, _⟩
    exact ⟨h5, by have := hs4.len; have := hs2.len; have := hs1.len; omega⟩
  simp only
  split
  · exact hend _ _ hi1 (Step.refl _)
  · exact hend _ _ hi1 (Step.refl _)
  · exact hend _ _ hi1 (Step.refl _)
  · refine Tr.bind (tr_tryChar hi1 '4') ?_
    intro b s2 hi2 hs2 h2
    split
    · exact hend _ _ hi2 hs2
    · exact Tr.err
  · exact Tr.err

theorem tr_custom_type (hrec : RecOK T n r) (hi : Inv T A s) (hl : s.len < n + 1) :
    Tr T A (demangle_custom_type r) (TypeQ T A s) s := by
  unfold demangle_custom_type
  refine Tr.bind (tr_expectChar hi _ _) ?_
  intro _ s1 hi1 hs1 h1
  refine Tr.bind (tr_type_name hrec hi1 (by have := h1.2; omega) true) ?_
  intro i s2 hi2 hs2 h2
  refine Tr.bind (tr_tryChar hi2 '@') ?_
  intro b s3 hi3 hs3 h3
  refine Tr.ite (fun _ => ?_) fun _ => Tr.err
  refine (tr_intern_good (nd := .CustomType Qualifiers.Q_None i) hi3 .type rfl trivial
    (by simpa [kids, kidsOf] using hs3.ext h2.good)).mono ?_
  rintro h s4 hi4 hs4 ⟨h5, _⟩
  exact ⟨h5, by have := hs4.len; have := hs3.len; have := hs2.len; have := h1.2; omega⟩

/-- The parameter list. -/
theorem tr_param_list (hrec : RecOK T n r) (hi : Inv T A s) (hl : s.len < n) :
    Tr T A (demangle_function_parameter_list r) (fun p s' => ∀ h, p.1 = some h → Good T s'.cache A .arr h) s := by
  unfold demangle_function_parameter_list
  refine Tr.bind (tr_tryChar hi 'X') ?_
  intro x s1 hi1 hs1 h1
  refine Tr.ite (fun _ => Tr.pure hi1 (by simp)) fun _ => ?_
  refine Tr.bind (Q := fun (l : List Handle) s' => ∀ h ∈ l, Good T s'.cache A .type h)
    (Tr.loop (fun (l : List Handle) s' => ∀ h ∈ l, Good T s'.cache A .type h) hi1 (by simp) ?_) ?_
  · intro nodes s2 hi2 hs2 hn
    unfold paramListBody
    refine Tr.query ?_
    refine Tr.ite (fun _ => Tr.pure hi2 hn) fun _ => ?_
    refine Tr.query ?_
    refine Tr.ite (fun _ => Tr.err) fun _ => ?_
    refine Tr.bind (tr_tryIf' hi2 isDigit) ?_
    intro d s3 hi3 hs3 h3
    have hn3 : ∀ h ∈ nodes, Good T s3.cache A .type h := fun h hh => hs3.ext (hn h hh)
    split
    · next c =>
      refine Tr.get ?_
      refine Tr.okOrB fun p hp => ?_
      refine Tr.pure hi3 ⟨?_, (h3.2 c rfl).2⟩
      intro h hh
      rcases List.mem_append.1 hh with hh | hh
      · exact hn3 h hh
      · simp only [List.mem_singleton] at hh; subst hh
        exact hi3.params _ (List.mem_of_getElem? hp)
    · refine Tr.query ?_
      refine Tr.bind (hrec.type _ hi3 (by have := hs1.len; have := hs2.len; have := hs3.len; omega)) ?_
      rintro tn s4 hi4 hs4 ⟨h4, h5⟩
      refine Tr.query ?_
      refine Tr.ite (fun hc => ?_) fun _ => ?_
      · simp only [MStr.len_chars, hi4.chars, hi3.chars] at hc
        simp only [St.len] at h5
        omega
      refine Tr.ite (fun _ => Tr.err) fun _ => ?_
      refine Tr.bind (Q := fun _ s' => s'.cache = s4.cache ∧ s'.str = s4.str)
        (Tr.whenB hi4 (fun _ => ?_) fun _ => ⟨rfl, rfl⟩) ?_
      · unfold paramListBody.push_param
        refine wp.modify ?_
        by_cases hlt : s4.function_params.length < 10
        · rw [if_pos hlt]
          refine ⟨{ hi4 with
            params_len := by simp; omega
            params := fun x hx => ?_ }, ⟨id, Nat.le_refl _, Nat.le_refl _, fun h _ => h⟩, rfl, rfl⟩
          rcases List.mem_append.1 hx with hx | hx
          · exact hi4.params x hx
          · simp only [List.mem_singleton] at hx; subst hx; exact h4
        · rw [if_neg hlt]
          exact ⟨hi4, Step.refl _, rfl, rfl⟩
      · rintro _ s5 hi5 hs5 ⟨h6, h7⟩
        refine Tr.pure hi5 ⟨?_, by have := hs5.len; have := hs3.len; omega⟩
        intro h hh
        rcases List.mem_append.1 hh with hh | hh
        · exact hs5.ext (hs4.ext (hn3 h hh))
        · simp only [List.mem_singleton] at hh; subst hh; exact hs5.ext h4
  · intro nodes s2 hi2 hs2 hn
    refine Tr.bind (tr_intern_good (nd := .NodeArray nodes) hi2 .arr rfl trivial ?_) ?_
    · intro p hp
      simp only [kids, kidsOf, List.mem_map] at hp
      obtain ⟨x, hx, rfl⟩ := hp
      exact (hn x hx).toAny (by simp)
    rintro na s3 hi3 hs3 ⟨h3, _⟩
    refine Tr.bind (tr_tryChar hi3 '@') ?_
    intro a s4 hi4 hs4 h4
    refine Tr.ite (fun _ => Tr.pure hi4 ?_) fun _ => ?_
    · rintro h ⟨rfl⟩; exact hs4.ext h3
    refine Tr.bind (tr_tryChar hi4 'Z') ?_
    intro z s5 hi5 hs5 h5
    refine Tr.ite (fun _ => Tr.pure hi5 ?_) fun _ => Tr.err
    · rintro h ⟨rfl⟩; exact hs5.ext (hs4.ext h3)

theorem tr_this_quals (hi : Inv T A s) (b : Bool) : Tr T A (function_this_quals b) (fun _ s' => Same s s') s := by
  unfold function_this_quals
  refine Tr.ite (fun _ => ?_) fun _ => Tr.pure hi (Same.refl s)
  refine Tr.bind (tr_ext_quals hi) ?_
  intro _ s1 hi1 hs1 h1
  refine Tr.bind (tr_ref_qual hi1) ?_
  intro _ s2 hi2 hs2 h2
  refine Tr.bind (tr_qualifiers hi2) ?_
  intro _ s3 hi3 hs3 h3
  exact Tr.pure hi3 ((h1.1.trans h2).trans h3.1)

/-- Function signatures. -/
theorem tr_function_type (hrec : RecOK T n r) (hi : Inv T A s) (hl : s.len < n) (b : Bool) :
    Tr T A (demangle_function_type r b)
      (fun h s' => Good T s'.cache A (.k .FunctionSignature) h ∧ s'.len < s.len ∧ s.cache.length ≤ h) s := by
  unfold demangle_function_type
  refine Tr.bind (tr_this_quals hi b) ?_
  rintro ⟨quals, rq⟩ s1 hi1 hs1 h1
  refine Tr.bind (tr_calling_convention hi1) ?_
  intro cc s2 hi2 hs2 h2
  refine Tr.bind (tr_tryChar hi2 '@') ?_
  intro st s3 hi3 hs3 h3
  have hl3 : s3.len < s.len := by have := hs1.len; have := h2.2; have := hs3.len; omega
  have hend : ∀ rt, ∀ s4, Inv T A s4 → Step T s3 s4 → (∀ h, rt = some h → Good T s4.cache A .type h) →
      Tr T A (do
        let (params, is_variadic) ← demangle_function_parameter_list r
        let is_noexcept ← demangle_throw_specification
        intern (.FunctionSignature
          { quals := quals, call_convention := cc, ref_qualifier := rq, return_type := rt,
            is_variadic := is_variadic, params := params, is_noexcept := is_noexcept }))
      (fun h s' => Good T s'.cache A (.k .FunctionSignature) h ∧ s'.len < s.len ∧ s.cache.length ≤ h) s4 := by
    intro rt s4 hi4 hs4 hrt
    refine Tr.bind (tr_param_list hrec hi4 (by have := hs4.len; omega)) ?_
    rintro ⟨params, va⟩ s5 hi5 hs5 h5
    refine Tr.bind (tr_throw hi5) ?_
    intro ne s6 hi6 hs6 h6
    refine (tr_intern_good hi6 (.k .FunctionSignature) (by rfl) (by trivial) ?_).mono ?_
    · intro p hp
      simp only [kids, kidsOf, sigKids, List.mem_append] at hp
      rcases hp with hp | hp
      · cases rt with
        | none => simp [optKid] at hp
        | some t =>
          simp only [optKid, List.mem_singleton] at hp; subst hp
          exact hs6.ext (hs5.ext (hrt t rfl))
      · cases params with
        | none => simp [optKid] at hp
        | some t =>
          simp only [optKid, List.mem_singleton] at hp; subst hp
          exact hs6.ext (h5 t rfl)
    · rintro h s7 hi7 hs7 ⟨h7, rfl, _⟩
      refine ⟨h7, ?_, ?_⟩
      · have := hs7.len; have := hs6.len; have := hs5.len; have := hs4.len; omega
      · have := hs6.clen; have := hs5.clen; have := hs4.clen; have := hs3.clen; have := hs2.clen; have := hs1.clen; omega
  simp only
  split
  · exact hend none _ hi3 (Step.refl _) (by simp)
  · refine Tr.bind (hrec.type _ hi3 (by omega)) ?_
    rintro t s4 hi4 hs4 ⟨h4, _⟩
    exact hend (some t) s4 hi4 hs4 (by rintro h ⟨rfl⟩; exact h4)

theorem Good.type_of_fsig {c : Cache} {h : Handle} (hg : Good T c A (.k .FunctionSignature) h) : Good T c A .type h :=
  hg.cast (by simp) (by simp) fun nd _ h => by cases nd <;> first | rfl | cases h

theorem Good.sig_of_fsig {c : Cache} {h : Handle} (hg : Good T c A (.k .FunctionSignature) h) : Good T c A .sig h :=
  hg.cast (by simp) (by simp) fun nd _ h => by cases nd <;> first | rfl | cases h

theorem tr_pointer (hi : Inv T A s) {q : Qualifiers} {a : PointerAffinity} {cp : Option Handle} {p : Handle}
    (hcp : ∀ h, cp = some h → Good T s.cache A .qn h) (hp : Good T s.cache A .type p) :
    Tr T A (intern (.PointerType q (some a) cp p)) (fun h s' => Good T s'.cache A .type h ∧ s'.len = s.len) s := by
  refine (tr_intern_good hi .type (by rfl) (by exact rfl) ?_).mono ?_
  · intro x hx
    simp only [kids, kidsOf, List.mem_append, List.mem_singleton] at hx
    rcases hx with hx | rfl
    · cases cp with
      | none => simp [optKid] at hx
      | some t => simp only [optKid, List.mem_singleton] at hx; subst hx; exact hcp t rfl
    · exact hp
  · rintro h s1 hi1 hs1 ⟨h1, _, _, h4⟩
    exact ⟨h1, h4⟩

theorem tr_pointer_type (hrec : RecOK T n r) (hi : Inv T A s) (hl : s.len < n + 1) (hp : s.str.is_pointer_type = true) :
    Tr T A (demangle_pointer_type r) (TypeQ T A s) s := by
  unfold demangle_pointer_type
  refine Tr.bind (tr_pointer_cv hi hp) ?_
  rintro ⟨q, a⟩ s1 hi1 hs1 ⟨h1, h1', -⟩
  replace h1 := And.intro h1 h1'
  refine Tr.bind (tr_tryChar hi1 '6') ?_
  intro six s2 hi2 hs2 h2
  have hl2 : s2.len < n := by have := h1.2; have := hs2.len; omega
  refine Tr.ite (fun _ => ?_) fun _ => ?_
  · refine Tr.bind (tr_function_type hrec hi2 hl2 false) ?_
    rintro p s3 hi3 hs3 ⟨h3, h4, _⟩
    refine (tr_pointer hi3 (by simp) h3.type_of_fsig).mono ?_
    rintro h s4 hi4 hs4 ⟨h5, h6⟩
    exact ⟨h5, by have := hs3.len; have := hs2.len; have := h1.2; omega⟩
  · refine Tr.bind (tr_ext_quals hi2) ?_
    intro _ s3 hi3 hs3 h3
    refine Tr.bind (hrec.type _ hi3 (by have := hs3.len; omega)) ?_
    rintro p s4 hi4 hs4 ⟨h4, h5⟩
    refine (tr_pointer hi4 (by simp) h4).mono ?_
    rintro h s5 hi5 hs5 ⟨h6, h7⟩
    exact ⟨h6, by have := hs3.len; have := hs2.len; have := h1.2; omega⟩

/-- What the probe for pointers to members has seen. -/
theorem member_pointer_true {m : MStr} (hm : m.chars = m.string.length) (h : m.is_member_pointer = .ok (some true)) :
    ∃ c l, m.string = c :: l ∧ (c = 'P' ∨ c = 'Q' ∨ c = 'R' ∨ c = 'S') ∧
      ((∃ l', l = '8' :: l') ∨ ∃ d l', dropIf 'F' (dropIf 'I' (dropIf 'E' l)) = d :: l' ∧
        (d = 'Q' ∨ d = 'R' ∨ d = 'S' ∨ d = 'T')) := by
  have step : ∀ {α : Type} (c : Char) (k : Option Char → SM MStr α) (l : Text),
      (MStr.try_consume_char c >>= k) ⟨l, l.length⟩ =
        k (if l.head? == some c then some c else none) ⟨dropIf c l, (dropIf c l).length⟩ := by
    intro α c k l
    show SM.bind _ _ _ = _
    unfold SM.bind MStr.try_consume_char
    rcases char_if_eq (m := ⟨l, l.length⟩) rfl (fun x => x == c) with ⟨d, ds, h1, h2, h3⟩ | ⟨h3, h4⟩
    · rw [h3]
      simp only at h1
      obtain rfl : d = c := by simpa using h2
      simp [h1, dropIf]
    · rw [h3]
      cases l with
      | nil => simp [dropIf]
      | cons d ds =>
        have := h4 d ds rfl
        simp [dropIf, this]
  obtain ⟨l, k⟩ := m
  simp only at hm
  subst hm
  unfold MStr.is_member_pointer at h
  cases l with
  | nil => simp [MStr.member_pointer_probe, MStr.try_consume, MStr.try_consume_char_if, bind, SM.bind, SM.get, pure, SM.pure, Except.map] at h
  | cons c l =>
    refine ⟨c, l, rfl, ?_⟩
    have e1 : MStr.member_pointer_probe ⟨c :: l, (c :: l).length⟩ =
      (show SM MStr (Option Bool) from
        if c == '$' || c == 'A' then pure (some false)
        else if c == 'P' || c == 'Q' || c == 'R' || c == 'S' then do
          match ← MStr.try_consume_char_if isDigit with
          | some digit =>
            if digit == '6' then pure (some false)
            else if digit == '8' then pure (some true)
            else pure none
          | none => do
            let _ ← MStr.try_consume_char 'E'
            let _ ← MStr.try_consume_char 'I'
            let _ ← MStr.try_consume_char 'F'
            let m ← SM.get
            match m.first_char with
            | none => pure none
            | some c =>
              if c == 'A' || c == 'B' || c == 'C' || c == 'D' then pure (some false)
              else if c == 'Q' || c == 'R' || c == 'S' || c == 'T' then pure (some true)
              else pure none
        else pure none) ⟨l, l.length⟩ := by
      unfold MStr.member_pointer_probe
      show SM.bind _ _ _ = _
      unfold SM.bind MStr.try_consume
      rcases char_if_eq (m := ⟨c :: l, (c :: l).length⟩) rfl (fun _ => true) with ⟨d, ds, h1, h2, h3⟩ | ⟨h3, h4⟩
      · rw [h3]
        obtain ⟨rfl, rfl⟩ := List.cons.inj h1
        rfl
      · exact absurd (h4 c l rfl) (by simp)
    rw [e1] at h
    dsimp only at h
    split at h
    · simp [pure, SM.pure, Except.map] at h
    split at h
    · next hc =>
      refine ⟨by simpa [or_assoc] using hc, ?_⟩
      rcases char_if_eq (m := ⟨l, l.length⟩) rfl isDigit with ⟨d, ds, h1, h2, h3⟩ | ⟨h3, h4⟩
      · simp only [bind, SM.bind, h3] at h
        left
        simp only at h1
        split at h
        · simp [pure, SM.pure, Except.map] at h
        split at h
        · next h8 => exact ⟨ds, by rw [h1, show d = '8' by simpa using h8]⟩
        · simp [pure, SM.pure, Except.map] at h
      · right
        change Except.map _ (SM.bind _ _ _) = _ at h
        simp only [SM.bind, h3] at h
        rw [step, step, step] at h
        change Except.map _ (SM.bind _ _ _) = _ at h
        simp only [SM.bind, SM.get, MStr.first_char] at h
        cases hl : dropIf 'F' (dropIf 'I' (dropIf 'E' l)) with
        | nil => rw [hl] at h; simp [pure, SM.pure, Except.map] at h
        | cons d l' =>
          rw [hl] at h
          refine ⟨d, l', rfl, ?_⟩
          simp only [List.head?_cons] at h
          split at h
          · simp [pure, SM.pure, Except.map] at h
          split at h
          · next hd => simpa [or_assoc] using hd
          · simp [pure, SM.pure, Except.map] at h
    · simp [pure, SM.pure, Except.map] at h

theorem tr_member_pointer_type (hr : GoodRend T rend) (hrec : RecOK T n r) (hi : Inv T A s) (hl : s.len < n + 1)
    (hp : s.str.is_pointer_type = true) (hm : s.str.is_member_pointer = .ok (some true)) :
    Tr T A (demangle_member_pointer_type rend r) (TypeQ T A s) s := by
  unfold demangle_member_pointer_type
  obtain ⟨c, l, hcl, hc, hmem⟩ := member_pointer_true hi.chars hm
  refine Tr.bind (tr_pointer_cv hi hp) ?_
  rintro ⟨q, a⟩ s1 hi1 hs1 ⟨h1, h1', h1''⟩
  obtain ⟨ha, hs1l⟩ := h1'' c l hcl hc
  simp only at ha
  subst ha
  replace h1 := And.intro h1 h1'
  refine Tr.ite (fun h => absurd h (by decide)) fun _ => ?_
  refine Tr.bind (tr_ext_quals hi1) ?_
  intro _ s2 hi2 hs2 h2
  refine Tr.bind (tr_tryChar' hi2 '8') ?_
  intro eight s3 hi3 hs3 h3
  have hl3 : s3.len < s.len := by have := h1.2; have := hs2.len; have := hs3.len; omega
  refine Tr.ite (fun _ => ?_) fun h8 => ?_
  · refine Tr.bind (tr_qualified_type_name hr hrec hi3 (by omega)) ?_
    rintro cp s4 hi4 hs4 ⟨h4, h5⟩
    refine Tr.bind (tr_function_type hrec hi4 (by omega) true) ?_
    rintro p s5 hi5 hs5 ⟨h6, h7, _⟩
    refine (tr_pointer hi5 (by rintro h ⟨rfl⟩; exact hs5.ext h4) h6.type_of_fsig).mono ?_
    rintro h s6 hi6 hs6 ⟨h8, h9⟩
    exact ⟨h8, by omega⟩
  · have hqual : ∃ d l', s3.str.string = d :: l' ∧ (d = 'Q' ∨ d = 'R' ∨ d = 'S' ∨ d = 'T') := by
      rcases hmem with ⟨l', rfl⟩ | ⟨d, l', hd, hk⟩
      · refine absurd ?_ h8
        rw [h3.2.2, h2.2, hs1l]
        rfl
      · refine ⟨d, l', ?_, hk⟩
        rw [h3.2.1, h2.2, hs1l, hd]
        rcases hk with rfl | rfl | rfl | rfl <;> rfl
    refine Tr.bind (tr_member_qualifiers hi3 hqual) ?_
    rintro ⟨pq, mem⟩ s4 hi4 hs4 ⟨h4, h4', rfl⟩
    replace h4 := And.intro h4 h4'
    refine Tr.ite (fun h => absurd h (by decide)) fun _ => ?_
    refine Tr.bind (tr_qualified_type_name hr hrec hi4 (by have := h4.2; omega)) ?_
    rintro cp s5 hi5 hs5 ⟨h5, h6⟩
    refine Tr.bind (hrec.type _ hi5 (by have := h4.2; omega)) ?_
    rintro p s6 hi6 hs6 ⟨h7, h8⟩
    refine Tr.bind (tr_modify_same hi6 h7 fun nd _ => set_quals_same _ nd) ?_
    intro _ s7 hi7 hs7 h9
    refine (tr_pointer hi7 (by rintro h ⟨rfl⟩; exact hs7.ext (hs6.ext h5)) (hs7.ext h7)).mono ?_
    rintro h s8 hi8 hs8 ⟨h10, h11⟩
    exact ⟨h10, by have := hs7.len; have := h4.2; omega⟩

theorem tr_array_type (hrec : RecOK T n r) (hi : Inv T A s) (hl : s.len < n + 1) :
    Tr T A (demangle_array_type r) (TypeQ T A s) s := by
  unfold demangle_array_type
  refine Tr.bind (tr_expectChar hi _ _) ?_
  intro _ s1 hi1 hs1 h1
  refine Tr.bind (tr_number hi1) ?_
  rintro ⟨rank, neg⟩ s2 hi2 hs2 h2
  refine Tr.ite (fun _ => Tr.err) fun _ => ?_
  refine Tr.bind (Tr.forN (fun (l : List Handle) s' => ∀ h ∈ l, Good T s'.cache A .intLit h) hi2 (by simp) ?_) ?_
  · intro l s3 hi3 hs3 hl3
    unfold arrayDim
    refine Tr.bind (tr_number hi3) ?_
    rintro ⟨v, neg⟩ s4 hi4 hs4 h4
    refine Tr.ite (fun _ => Tr.err) fun _ => ?_
    refine Tr.bind (tr_intern_good (nd := .IntegerLiteral v neg) hi4 .intLit rfl trivial (by simp [kids, kidsOf])) ?_
    rintro d s5 hi5 hs5 ⟨h5, _⟩
    refine Tr.pure hi5 ?_
    intro h hh
    rcases List.mem_append.1 hh with hh | hh
    · exact hs5.ext (hs4.ext (hl3 h hh))
    · simp only [List.mem_singleton] at hh; subst hh; exact h5
  intro nodes s3 hi3 hs3 hn
  refine Tr.bind (tr_intern_good (nd := .NodeArray nodes) hi3 .dims rfl trivial ?_) ?_
  · intro p hp
    simp only [kids, List.mem_map] at hp
    obtain ⟨x, hx, rfl⟩ := hp
    exact hn x hx
  rintro dims s4 hi4 hs4 ⟨h4, _⟩
  refine Tr.bind (tr_tryStr' hi4 _) ?_
  intro hq s5 hi5 hs5 h5
  have hl5 : s5.len < s.len := by have := h1.2; have := hs2.len; have := hs3.len; have := hs4.len; have := hs5.len; omega
  have hend : ∀ q, ∀ s6, Inv T A s6 → Step T s5 s6 → Tr T A (do
      let element_type ← r.type .Drop
      intern (.ArrayType q dims element_type)) (TypeQ T A s) s6 := by
    intro q s6 hi6 hs6
    refine Tr.bind (hrec.type _ hi6 (by have := hs6.len; omega)) ?_
    rintro e s7 hi7 hs7 ⟨h7, h8⟩
    refine (tr_intern_good (nd := .ArrayType q dims e) hi7 .type rfl trivial ?_).mono ?_
    · intro p hp
      simp only [kids, kidsOf, List.mem_cons, List.not_mem_nil, or_false] at hp
      rcases hp with rfl | rfl
      · exact hs7.ext (hs6.ext (hs5.ext h4))
      · exact h7
    · rintro h s8 hi8 hs8 ⟨h9, _⟩
      exact ⟨h9, by have := hs8.len; have := hs6.len; omega⟩
  simp only
  split
  · refine Tr.bind (tr_qualifiers hi5) ?_
    rintro ⟨q, mem⟩ s6 hi6 hs6 h6
    simp only
    split
    · exact Tr.err
    · exact hend _ _ hi6 hs6
  · exact hend _ _ hi5 (Step.refl _)

theorem tr_type_quals (hi : Inv T A s) (q : QMM) : Tr T A (type_quals q) (fun _ s' => Same s s') s := by
  cases q with
  | Drop => exact Tr.pure hi (Same.refl s)
  | Mangle =>
    refine Tr.bind (tr_qualifiers hi) ?_
    intro _ s1 hi1 _ h1
    exact Tr.pure hi1 h1.1
  | Result =>
    refine Tr.bind (tr_tryChar hi '?') ?_
    intro b s1 hi1 hs1 h1
    refine Tr.ite (fun _ => ?_) fun _ => Tr.pure hi1 h1.1
    refine Tr.bind (tr_qualifiers hi1) ?_
    intro _ s2 hi2 _ h2
    exact Tr.pure hi2 (h1.1.trans h2.1)

theorem tr_type_body (hr : GoodRend T rend) (hrec : RecOK T n r) (hi : Inv T A s) (hl : s.len < n + 1) :
    Tr T A (demangle_type_body rend r) (TypeQ T A s) s := by
  unfold demangle_type_body
  refine Tr.query ?_
  refine Tr.ite (fun _ => tr_class_type hr hrec hi hl) fun _ => ?_
  refine Tr.ite (fun hp => ?_) fun _ => ?_
  · refine tr_queryE (member_pointer_ok hi.chars) fun k hk => ?_
    split
    · exact tr_member_pointer_type hr hrec hi hl hp hk
    · exact tr_pointer_type hrec hi hl hp
    · exact Tr.err
  refine Tr.ite (fun _ => tr_array_type hrec hi hl) fun _ => ?_
  refine Tr.ite (fun _ => ?_) fun _ => ?_
  · refine Tr.bind (tr_tryStr' hi _) ?_
    intro a8 s1 hi1 hs1 h1
    refine Tr.ite (fun hb => ?_) fun _ => ?_
    · refine (tr_function_type hrec hi1 (by have := h1.2.1 hb; omega) true).mono ?_
      rintro h s2 hi2 hs2 ⟨h2, h3, _⟩
      exact ⟨h2.type_of_fsig, by have := hs1.len; omega⟩
    refine Tr.bind (tr_tryStr' hi1 _) ?_
    intro a6 s2 hi2 hs2 h2
    refine Tr.ite (fun hb => ?_) fun _ => Tr.err
    refine (tr_function_type hrec hi2 (by have := h2.2.1 hb; have := hs1.len; omega) false).mono ?_
    rintro h s3 hi3 hs3 ⟨h3, h4, _⟩
    exact ⟨h3.type_of_fsig, by have := hs1.len; have := hs2.len; omega⟩
  refine Tr.ite (fun _ => tr_custom_type hrec hi hl) fun _ => ?_
  exact tr_primitive hi

theorem tr_type (hr : GoodRend T rend) (hrec : RecOK T n r) (hi : Inv T A s) (hl : s.len < n + 1) (q : QMM) :
    Tr T A (demangle_type rend r q) (TypeQ T A s) s := by
  unfold demangle_type
  refine Tr.bind (tr_type_quals hi q) ?_
  intro quals s1 hi1 hs1 h1
  refine Tr.query ?_
  refine Tr.ite (fun _ => Tr.err) fun _ => ?_
  refine Tr.bind (tr_type_body hr hrec hi1 (by have := hs1.len; omega)) ?_
  rintro ty s2 hi2 hs2 ⟨h2, h3⟩
  refine Tr.bind (tr_modify_same hi2 h2 fun nd _ => append_quals_same _ nd) ?_
  intro _ s3 hi3 hs3 h4
  exact Tr.pure hi3 ⟨hs3.ext h2, by have := hs3.len; have := hs1.len; omega⟩

end Undname
