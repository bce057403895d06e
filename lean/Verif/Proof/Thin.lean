/-
  Printing the same declaration with more suppression flags gives a subsequence of the text.
-/
import Verif.Proof.Grow

namespace Undname.Spec

/-- More flags are set. -/
structure FlagsLe (E E' : Env) : Prop where
  uni : E'.uni = E.uni
  cc : E.flags.no_calling_convention = true → E'.flags.no_calling_convention = true
  tag : E.flags.no_tag_specifier = true → E'.flags.no_tag_specifier = true
  acc : E.flags.no_access_specifier = true → E'.flags.no_access_specifier = true
  mem : E.flags.no_member_type = true → E'.flags.no_member_type = true
  ret : E.flags.no_return_type = true → E'.flags.no_return_type = true
  var : E.flags.no_variable_type = true → E'.flags.no_variable_type = true
  this : E.flags.no_this_type = true → E'.flags.no_this_type = true
  und : E.flags.no_leading_underscores = true → E'.flags.no_leading_underscores = true
  ms : E.flags.no_ms_keywords = true → E'.flags.no_ms_keywords = true
  name : E.flags.name_only = true → E'.flags.name_only = true

/-- The second text is a subsequence of the first. -/
abbrev S (w w' : Text) : Prop := w'.Sublist w

/-- The text ends in a word. -/
def WE (E : Env) (w : Text) : Prop := ∃ c, w.getLast? = some c ∧ isWordEnd E c = true

/-- A subsequence, such that the ends agree as far as it matters for what is appended next: a blank that is added to the
second text is there in the first or is added to it; an open parenthesis at the end of the first is there in the second. -/
structure R (E : Env) (w w' : Text) : Prop where
  sub : S w w'
  word : WE E w' → WE E w ∨ S w (w' ++ c!" ")
  opn : w.getLast? = some '(' → w'.getLast? = some '('

/-- The same without the condition on blanks and, if `b` is false, without that on parentheses. -/
structure R3 (b : Bool) (w w' : Text) : Prop where
  sub : S w w'
  opn : b = true → w.getLast? = some '(' → w'.getLast? = some '('

theorem R.r3 {E : Env} {w w' : Text} (h : R E w w') (b : Bool) : R3 b w w' := ⟨h.sub, fun _ => h.opn⟩
theorem S.r3 {w w' : Text} (h : S w w') : R3 false w w' := ⟨h, fun h => by cases h⟩

section
variable {E E' : Env}

theorem we_space {w : Text} : ¬ WE E (w ++ c!" ") := by
  rintro ⟨c, h, hc⟩
  rw [List.getLast?_append] at h
  cases h
  exact absurd hc (by simp [isWordEnd])

theorem getLast?_app {w a : Text} (h : a ≠ []) : (w ++ a).getLast? = a.getLast? := by
  rw [List.getLast?_append]
  cases e : a.getLast? with
  | none => exact absurd (List.getLast?_eq_none_iff.1 e) h
  | some c => rfl

theorem ne_of_last {a a' : Text} (h : a'.getLast? = a.getLast?) (ha : a' ≠ []) : a ≠ [] := by
  rintro rfl
  exact ha (List.getLast?_eq_none_iff.1 (by rw [h]; rfl))

/-- Appending the same end. -/
theorem R.fix {w w' a a' : Text} (h : S w w') (hs : S a a') (hl : a'.getLast? = a.getLast?) (ha : a' ≠ []) : R E (w ++ a) (w' ++ a') := by
  have ha2 := ne_of_last hl ha
  refine ⟨List.Sublist.append h hs, ?_, ?_⟩
  · rintro ⟨c, h1, h2⟩
    exact .inl ⟨c, by rw [getLast?_app ha2, ← hl, ← getLast?_app (w := w') ha, h1], h2⟩
  · intro h1
    rw [getLast?_app ha, hl, ← getLast?_app (w := w) ha2, h1]

theorem R.fix' {w w' a : Text} (h : S w w') (ha : a ≠ []) : R E (w ++ a) (w' ++ a) := R.fix h (List.Sublist.refl _) rfl ha

/-- Appending the same end, which may be empty. -/
theorem R.tail {w w' a a' : Text} (h : R E w w') (hs : S a a') (hl : a'.getLast? = a.getLast?) : R E (w ++ a) (w' ++ a') := by
  by_cases ha : a' = []
  · have : a = [] := by
      subst ha
      exact List.getLast?_eq_none_iff.1 hl.symm
    subst ha this
    simpa using h
  · exact R.fix h.sub hs hl ha

/-- Something that ends in a blank is left out. -/
theorem R.drop {w w' a : Text} (h : S w w') (ha : a.getLast? = some ' ') : R E (w ++ a) w' := by
  have hne : a ≠ [] := by rintro rfl; cases ha
  refine ⟨List.Sublist.trans h (List.sublist_append_left _ _), fun _ => .inr ?_, fun h1 => ?_⟩
  · exact List.Sublist.append h (List.singleton_sublist.2 (List.mem_of_getLast? ha))
  · rw [getLast?_app hne, ha] at h1; cases h1

/-- Something that ends in neither is left out. -/
theorem R.cut {w w' a a' : Text} (h : S w w') (hs : S a a') (hl : ∃ c, a'.getLast? = some c ∧ isWordEnd E c = false)
    (ho : a.getLast? ≠ some '(') : R E (w ++ a) (w' ++ a') := by
  obtain ⟨c, hc, hw⟩ := hl
  have ha' : a' ≠ [] := by rintro rfl; cases hc
  have ha : a ≠ [] := by rintro rfl; exact ha' (List.sublist_nil.1 hs)
  refine ⟨List.Sublist.append h hs, ?_, ?_⟩
  · rintro ⟨d, h1, h2⟩
    rw [getLast?_app ha', hc] at h1
    cases h1
    rw [hw] at h2; cases h2
  · intro h1
    rw [getLast?_app ha] at h1
    exact absurd h1 ho

theorem R3.app {b : Bool} {w w' a a' : Text} (h : R3 b w w') (hs : S a a') (ho : a.getLast? ≠ some '(') : R3 b (w ++ a) (w' ++ a') := by
  refine ⟨List.Sublist.append h.sub hs, fun hb h1 => ?_⟩
  by_cases ha : a = []
  · subst ha
    rw [List.sublist_nil.1 hs]
    rw [List.append_nil] at h1 ⊢
    exact h.opn hb h1
  · rw [getLast?_app ha] at h1
    exact absurd h1 ho

theorem isWordEnd_uni (H : FlagsLe E E') (c : Char) : isWordEnd E' c = isWordEnd E c := by
  unfold isWordEnd; rw [H.uni]

theorem sp_uni (H : FlagsLe E E') (w : Text) : sp E' w = sp E w := by
  unfold sp; simp only [isWordEnd_uni H]

theorem sp_we {w : Text} (h : WE E w) : sp E w = w ++ c!" " := by
  obtain ⟨c, h1, h2⟩ := h
  unfold sp
  rw [h1]
  dsimp only
  rw [if_pos h2]

theorem sp_not {w : Text} (h : ¬ WE E w) : sp E w = w := by
  unfold sp
  cases e : w.getLast? with
  | none => rfl
  | some c =>
    dsimp only
    rw [if_neg fun h2 => h ⟨c, e, h2⟩]

theorem not_we_paren {w : Text} (h : w.getLast? = some '(') : ¬ WE E w := by
  rintro ⟨c, h1, h2⟩
  rw [h] at h1
  cases h1
  exact absurd h2 (by simp [isWordEnd])

theorem R.sp (H : FlagsLe E E') {w w' : Text} (h : R E w w') : R E (sp E w) (sp E' w') := by
  rw [sp_uni H]
  by_cases hw' : WE E w'
  · rw [sp_we hw']
    by_cases hw : WE E w
    · rw [sp_we hw]; exact R.fix' h.sub (by simp)
    · rw [sp_not hw]
      rcases h.word hw' with h1 | h1
      · exact absurd h1 hw
      · exact ⟨h1, fun h2 => absurd h2 we_space, fun h2 => absurd hw' (not_we_paren (h.opn h2))⟩
  · rw [sp_not hw']
    by_cases hw : WE E w
    · rw [sp_we hw]
      exact R.drop h.sub rfl
    · rw [sp_not hw]; exact h

theorem S.grow {w w' v : Text} (h : S w w') (hg : w <+: v) : S v w' := List.Sublist.trans h hg.sublist

/-! ### The words -/

theorem msWord_thin (H : FlagsLe E E') {s : Text} (hs : s ≠ []) : S (msWord E s) (msWord E' s) ∧ (msWord E' s).getLast? = (msWord E s).getLast? := by
  have hu := H.und
  unfold msWord
  cases h1 : E.flags.no_leading_underscores <;> cases h2 : E'.flags.no_leading_underscores
  · exact ⟨List.Sublist.refl _, rfl⟩
  · refine ⟨List.sublist_append_right _ _, ?_⟩
    show s.getLast? = (c!"__" ++ s).getLast?
    rw [getLast?_app hs]
  · rw [hu h1] at h2; cases h2
  · exact ⟨List.Sublist.refl _, rfl⟩

theorem convName_thin (H : FlagsLe E E') (c : CallingConv) :
    S (convName E c) (convName E' c) ∧ (convName E' c).getLast? = (convName E c).getLast? := by
  cases c <;> first | exact msWord_thin H (by simp) | exact ⟨List.Sublist.refl _, rfl⟩

theorem msWord_ne {s : Text} (hs : s ≠ []) : msWord E s ≠ [] := by
  unfold msWord
  split
  · exact hs
  · simp

theorem convName_ne (c : CallingConv) : convName E c ≠ [] := by
  cases c <;> first | exact msWord_ne (by simp) | simp [convName]

theorem msWord_last {s : Text} (hs : s ≠ []) : (msWord E s).getLast? = s.getLast? := by
  unfold msWord
  split
  · rfl
  · rw [getLast?_app hs]

/-- Calling conventions end in a letter or a blank. -/
theorem convName_last (c : CallingConv) : ∃ d, (convName E c).getLast? = some d ∧ (isWordEnd E d = true ∨ d = ' ') := by
  have key : ∀ (s : Text) (d : Char), s.getLast? = some d → d.toNat < 128 → d.isAlphanum = true →
      ∃ d, (msWord E s).getLast? = some d ∧ (isWordEnd E d = true ∨ d = ' ') := by
    intro s d h1 h2 h3
    refine ⟨d, (msWord_last (by rintro rfl; cases h1)).trans h1, .inl ?_⟩
    unfold isWordEnd
    rw [if_pos h2, h3, Bool.or_true]
  cases c <;> first
    | exact key _ _ rfl (by decide) (by decide)
    | exact ⟨_, rfl, .inr rfl⟩

/-- Qualifiers of types. -/
theorem after_thin (H : FlagsLe E E') (q : CV) : S (q.after E) (q.after E') ∧
    ((q.after E').getLast? = (q.after E).getLast? ∨ (q.after E).getLast? = some 't' ∧ (q.after E').getLast? = some ' ') := by
  have hm := H.ms
  have hu := H.und
  obtain ⟨c, v, r, u⟩ := q
  unfold CV.after CV.words msWord
  cases h1 : E.flags.no_leading_underscores <;> cases h2 : E'.flags.no_leading_underscores <;>
  cases h3 : E.flags.no_ms_keywords <;> cases h4 : E'.flags.no_ms_keywords <;>
  first
    | (have := hm h3; rw [h4] at this; cases this; done)
    | (have := hu h1; rw [h2] at this; cases this; done)
    | (cases c <;> cases v <;> cases r <;> cases u <;> decide)

theorem R.after (H : FlagsLe E E') {w w' : Text} (h : R E w w') (q : CV) : R E (w ++ q.after E) (w' ++ q.after E') := by
  obtain ⟨h1, h2 | ⟨h2, h3⟩⟩ := after_thin H q
  · exact h.tail h1 h2
  · exact R.cut h.sub h1 ⟨_, h3, by simp [isWordEnd]⟩ (by rw [h2]; decide)

theorem sep_thin (H : FlagsLe E E') (q : CV) : S (q.sep E) (q.sep E') ∧ (q.sep E).getLast? ≠ some '(' ∧
    ((q.sep E').getLast? = (q.sep E).getLast? ∨ (q.sep E').getLast? = some ' ' ∨ q.sep E' = []) := by
  have hm := H.ms
  have hu := H.und
  obtain ⟨c, v, r, u⟩ := q
  unfold CV.sep CV.after CV.words msWord
  cases h1 : E.flags.no_leading_underscores <;> cases h2 : E'.flags.no_leading_underscores <;>
  cases h3 : E.flags.no_ms_keywords <;> cases h4 : E'.flags.no_ms_keywords <;>
  first
    | (have := hm h3; rw [h4] at this; cases this; done)
    | (have := hu h1; rw [h2] at this; cases this; done)
    | (cases c <;> cases v <;> cases r <;> cases u <;> decide)

theorem before_thin (H : FlagsLe E E') (q : CV) : S (q.before E) (q.before E') := by
  have hm := H.ms
  have hu := H.und
  obtain ⟨c, v, r, u⟩ := q
  unfold CV.before CV.sep CV.after CV.words msWord
  cases h1 : E.flags.no_leading_underscores <;> cases h2 : E'.flags.no_leading_underscores <;>
  cases h3 : E.flags.no_ms_keywords <;> cases h4 : E'.flags.no_ms_keywords <;>
  first
    | (have := hm h3; rw [h4] at this; cases this; done)
    | (have := hu h1; rw [h2] at this; cases this; done)
    | (cases c <;> cases v <;> cases r <;> cases u <;> decide)

theorem this_thin (H : FlagsLe E E') (q : CV) : S (q.this E) (q.this E') ∧ (q.this E).getLast? ≠ some '(' := by
  have hm := H.ms
  have hu := H.und
  obtain ⟨c, v, r, u⟩ := q
  unfold CV.this msWord
  cases h1 : E.flags.no_leading_underscores <;> cases h2 : E'.flags.no_leading_underscores <;>
  cases h3 : E.flags.no_ms_keywords <;> cases h4 : E'.flags.no_ms_keywords <;>
  first
    | (have := hm h3; rw [h4] at this; cases this; done)
    | (have := hu h1; rw [h2] at this; cases this; done)
    | (cases c <;> cases v <;> cases r <;> cases u <;> decide)

theorem R.aff (H : FlagsLe E E') {w w' : Text} (h : S w w') (a : PointerAffinity) (q : CV) :
    R E (w ++ affName a ++ q.sep E) (w' ++ affName a ++ q.sep E') := by
  obtain ⟨h1, h2, h3⟩ := sep_thin H q
  have ha : affName a ≠ [] := by cases a <;> simp [affName]
  have hl : ∃ c, (affName a).getLast? = some c ∧ isWordEnd E c = false ∧ c ≠ '(' := by
    cases a <;> exact ⟨_, rfl, by simp [isWordEnd], by decide⟩
  have h0 : R E (w ++ affName a) (w' ++ affName a) := R.fix' h ha
  rcases h3 with h3 | h3 | h3
  · exact h0.tail h1 h3
  · exact R.cut h0.sub h1 ⟨_, h3, by simp [isWordEnd]⟩ h2
  · rw [h3, List.append_nil]
    obtain ⟨c, hc, hw, hp⟩ := hl
    rw [List.append_assoc]
    refine R.cut h (List.sublist_append_left _ _) ⟨c, hc, hw⟩ ?_
    by_cases hq : q.sep E = []
    · rw [hq, List.append_nil, hc]
      intro h; cases h; exact hp rfl
    · rw [getLast?_app hq]; exact h2

/-! ### Signatures -/

/-- What is after the name does not end in an open parenthesis. -/
theorem post_open (t : T) (b : Bool) (w : Text) (h : ((T.pr E t).post b w).getLast? = some '(') : w.getLast? = some '(' := by
  have app : ∀ {v a : Text}, (v ++ a).getLast? = some '(' → a.getLast? ≠ some '(' → v.getLast? = some '(' := by
    intro v a h ha
    by_cases he : a = []
    · subst he; simpa using h
    · rw [getLast?_app he] at h; exact absurd h ha
  have thisq : ∀ q : CV, (q.this E).getLast? ≠ some '(' := fun q => (this_thin (E := E) (E' := E) ⟨rfl, id, id, id, id, id, id, id, id, id, id⟩ q).2
  have sg : ∀ (f : Sig) (r p : T), (∀ b w, ((T.pr E r).post b w).getLast? = some '(' → w.getLast? = some '(') →
      ∀ b w, (sigPost E f (T.pr E r) (T.pr E p) b w).getLast? = some '(' → w.getLast? = some '(' := by
    intro f r p ihr b w h
    unfold sigPost at h
    dsimp only at h
    have key : ∀ v : Text, (v ++ (if (!E.flags.no_this_type && !E.flags.name_only) = true then f.cv.this E else []) ++
        (if f.isNoexcept = true then c!" noexcept" else []) ++
        (if (!E.flags.no_this_type && !E.flags.name_only) = true then refName f.ref else [])).getLast? = some '(' →
        v.getLast? = some '(' := by
      intro v hv
      refine app (app (app hv ?_) ?_) ?_
      · split
        · cases f.ref with
          | none => decide
          | some x => cases x <;> decide
        · decide
      · split <;> decide
      · split
        · exact thisq _
        · decide
    have h' : ((if ((b || !E.flags.name_only) && !f.kind.bare) = true then paramsOut f (T.pr E p) w else w)).getLast? = some '(' := by
      split at h
      · exact key _ (ihr _ _ h)
      · exact key _ h
    split at h'
    · unfold paramsOut at h'
      dsimp only at h'
      rw [getLast?_app (by simp)] at h'
      cases h'
    · exact h'
  induction t generalizing b w with
  | cons a as iha _ => exact iha b w h
  | ptr q a c t _ iht =>
    have h2 := iht _ _ h
    refine app h2 ?_
    split <;> decide
  | array q d e ih =>
    have h2 := ih _ _ h
    rw [getLast?_app (by cases d <;> simp [bounds])] at h2
    cases d with
    | nil => cases h2
    | cons d ds =>
      unfold bounds at h2
      rw [getLast?_app (by simp)] at h2
      cases h2
  | sig f r p ihr _ => exact sg f r p (fun b w h => ihr b w h) b w h
  | thunk f adj r p ihr _ =>
    have h2 := sg f r p (fun b w h => ihr b w h) b _ h
    refine app h2 ?_
    cases adj with
    | none => decide
    | adjustor => unfold Adjust.text; rw [getLast?_app (by simp)]; decide
    | vtordisp => unfold Adjust.text; rw [getLast?_app (by simp)]; decide
    | vtordispex => unfold Adjust.text; rw [getLast?_app (by simp)]; decide
  | _ => exact h

/-- What is needed of an optional return type. -/
structure RetM (E E' : Env) (r r' : T) : Prop where
  some : (T.pr E' r').some = (T.pr E r).some
  pre : ∀ w w', R E w w' → R E ((T.pr E r).pre false w) ((T.pr E' r').pre false w')
  post : ∀ b w w', R3 b w w' → R3 b ((T.pr E r).post false w) ((T.pr E' r').post false w')

/-- What is needed of an optional parameter list. -/
structure ParM (E E' : Env) (p p' : T) : Prop where
  some : (T.pr E' p').some = (T.pr E p).some
  out : ∀ w w', R E w w' → R3 true ((T.pr E p).out w) ((T.pr E' p').out w')

theorem sigPre_thin (H : FlagsLe E E') {r r' : T} (hr : RetM E E' r r') (f : Sig) (b : Bool) {w w' : Text} (h : R E w w') :
    R E (sigPre E f (T.pr E r) b w) (sigPre E' f (T.pr E' r') b w') := by
  unfold sigPre
  dsimp only
  have hn := H.name
  have h1 : R E (w ++ (if (!E.flags.no_access_specifier && !E.flags.name_only) = true then
      (match f.kind.access with | Option.some a => accessName a | none => []) else []))
      (w' ++ (if (!E'.flags.no_access_specifier && !E'.flags.name_only) = true then
      (match f.kind.access with | Option.some a => accessName a | none => []) else [])) := by
    have ha := H.acc
    by_cases c2 : (!E'.flags.no_access_specifier && !E'.flags.name_only) = true
    · have c1 : (!E.flags.no_access_specifier && !E.flags.name_only) = true := by
        revert c2 hn ha
        cases E.flags.no_access_specifier <;> cases E.flags.name_only <;> simp +contextual
      rw [if_pos c1, if_pos c2]
      exact h.tail (List.Sublist.refl _) rfl
    · rw [if_neg c2, List.append_nil]
      split
      · cases f.kind.access with
        | none => simpa using h
        | some a => exact R.drop h.sub (by cases a <;> rfl)
      · simpa using h
  generalize (w ++ (if (!E.flags.no_access_specifier && !E.flags.name_only) = true then
      (match f.kind.access with | Option.some a => accessName a | none => []) else [])) = v at h1 ⊢
  generalize (w' ++ (if (!E'.flags.no_access_specifier && !E'.flags.name_only) = true then
      (match f.kind.access with | Option.some a => accessName a | none => []) else [])) = v' at h1 ⊢
  have h2 : R E (v ++ (if (!E.flags.no_member_type && !E.flags.name_only) = true then
      (if f.kind.isStatic then c!"static " else []) ++ (if f.kind.isVirtual then c!"virtual " else []) ++
      (if f.kind.externC then c!"extern \"C\" " else []) else []))
      (v' ++ (if (!E'.flags.no_member_type && !E'.flags.name_only) = true then
      (if f.kind.isStatic then c!"static " else []) ++ (if f.kind.isVirtual then c!"virtual " else []) ++
      (if f.kind.externC then c!"extern \"C\" " else []) else [])) := by
    have ha := H.mem
    by_cases c2 : (!E'.flags.no_member_type && !E'.flags.name_only) = true
    · have c1 : (!E.flags.no_member_type && !E.flags.name_only) = true := by
        revert c2 hn ha
        cases E.flags.no_member_type <;> cases E.flags.name_only <;> simp +contextual
      rw [if_pos c1, if_pos c2]
      exact h1.tail (List.Sublist.refl _) rfl
    · rw [if_neg c2, List.append_nil]
      split
      · cases f.kind.isStatic <;> cases f.kind.isVirtual <;> cases f.kind.externC <;>
          first | (exact R.drop h1.sub rfl; done) | simpa using h1
      · simpa using h1
  generalize (v ++ (if (!E.flags.no_member_type && !E.flags.name_only) = true then
      (if f.kind.isStatic then c!"static " else []) ++ (if f.kind.isVirtual then c!"virtual " else []) ++
      (if f.kind.externC then c!"extern \"C\" " else []) else [])) = u at h2 ⊢
  generalize (v' ++ (if (!E'.flags.no_member_type && !E'.flags.name_only) = true then
      (if f.kind.isStatic then c!"static " else []) ++ (if f.kind.isVirtual then c!"virtual " else []) ++
      (if f.kind.externC then c!"extern \"C\" " else []) else [])) = u' at h2 ⊢
  have h3 : R E (if (!E.flags.no_return_type && (b || !E.flags.name_only) && (T.pr E r).some) = true then
      (T.pr E r).pre false u ++ c!" " else u)
      (if (!E'.flags.no_return_type && (b || !E'.flags.name_only) && (T.pr E' r').some) = true then
      (T.pr E' r').pre false u' ++ c!" " else u') := by
    have ha := H.ret
    have hs := hr.some
    by_cases c2 : (!E'.flags.no_return_type && (b || !E'.flags.name_only) && (T.pr E' r').some) = true
    · have c1 : (!E.flags.no_return_type && (b || !E.flags.name_only) && (T.pr E r).some) = true := by
        rw [← hs]
        revert c2 hn ha
        cases E.flags.no_return_type <;> cases E.flags.name_only <;> cases b <;> simp +contextual
      rw [if_pos c1, if_pos c2]
      exact R.fix' (hr.pre _ _ h2).sub (by simp)
    · rw [if_neg c2]
      split
      · exact R.drop (h2.sub.grow ((pr_grow r).pre _ _)) rfl
      · exact h2
  generalize (if (!E.flags.no_return_type && (b || !E.flags.name_only) && (T.pr E r).some) = true then
      (T.pr E r).pre false u ++ c!" " else u) = t at h3 ⊢
  generalize (if (!E'.flags.no_return_type && (b || !E'.flags.name_only) && (T.pr E' r').some) = true then
      (T.pr E' r').pre false u' ++ c!" " else u') = t' at h3 ⊢
  have ha := H.cc
  have hm := H.ms
  cases f.conv with
  | none => simpa using h3
  | some cc =>
    dsimp only
    obtain ⟨hc1, hc2⟩ := convName_thin H cc
    by_cases c2 : (!b && !E'.flags.no_calling_convention && !E'.flags.no_ms_keywords && !E'.flags.name_only) = true
    · have c1 : (!b && !E.flags.no_calling_convention && !E.flags.no_ms_keywords && !E.flags.name_only) = true := by
        revert c2 hn ha hm
        cases E.flags.no_calling_convention <;> cases E.flags.no_ms_keywords <;> cases E.flags.name_only <;> cases b <;> simp +contextual
      rw [if_pos c1, if_pos c2]
      exact (h3.sp H).tail hc1 hc2
    · rw [if_neg c2]
      split
      · obtain ⟨d, hd, hw⟩ := convName_last (E := E) cc
        have h4 : S (Spec.sp E t) t' := h3.sub.grow (sp_grow _)
        rcases hw with hw | rfl
        · refine ⟨List.Sublist.trans h4 (List.sublist_append_left _ _), fun _ => .inl ⟨d, ?_, hw⟩, fun ho => ?_⟩
          · rw [getLast?_app (convName_ne cc), hd]
          · rw [getLast?_app (convName_ne cc), hd] at ho
            cases ho
            exact absurd hw (by simp [isWordEnd])
        · exact R.drop h4 hd
      · exact h3

theorem params_thin {p p' : T} (hp : ParM E E' p p') (f : Sig) {w w' : Text} (h : S w w') :
    R E (paramsOut f (T.pr E p) w) (paramsOut f (T.pr E' p') w') := by
  unfold paramsOut
  dsimp only
  have h0 : R E (w ++ c!"(") (w' ++ c!"(") := R.fix' h (by simp)
  have h1 : R3 true (if (T.pr E p).some = true then (T.pr E p).out (w ++ c!"(") else w ++ c!"(" ++ c!"void")
      (if (T.pr E' p').some = true then (T.pr E' p').out (w' ++ c!"(") else w' ++ c!"(" ++ c!"void") := by
    rw [hp.some]
    split
    · exact hp.out _ _ h0
    · exact (R.fix' (E := E) h0.sub (by simp)).r3 _
  generalize (if (T.pr E p).some = true then (T.pr E p).out (w ++ c!"(") else w ++ c!"(" ++ c!"void") = v at h1 ⊢
  generalize (if (T.pr E' p').some = true then (T.pr E' p').out (w' ++ c!"(") else w' ++ c!"(" ++ c!"void") = v' at h1 ⊢
  refine R.fix' ?_ (by simp)
  split
  · refine List.Sublist.append ?_ (List.Sublist.refl _)
    by_cases hv : v.getLast? = some '('
    · have hv' := h1.opn rfl hv
      rw [if_pos (by simp [hv, hv']), if_pos (by simp [hv, hv'])]
      exact h1.sub
    · rw [if_neg (c := (v.getLast? == some '(') = true) (by simpa using hv)]
      split
      · exact List.Sublist.trans h1.sub (List.sublist_append_left _ _)
      · exact List.Sublist.append h1.sub (List.Sublist.refl _)
  · exact h1.sub

theorem sigPost_thin (H : FlagsLe E E') {r r' p p' : T} (hr : RetM E E' r r') (hp : ParM E E' p p') (f : Sig) (fp b : Bool)
    {w w' : Text} (h : R3 b w w') :
    R3 b (sigPost E f (T.pr E r) (T.pr E p) fp w) (sigPost E' f (T.pr E' r') (T.pr E' p') fp w') := by
  unfold sigPost
  dsimp only
  have hn := H.name
  have h1 : R3 b (if ((fp || !E.flags.name_only) && !f.kind.bare) = true then paramsOut f (T.pr E p) w else w)
      (if ((fp || !E'.flags.name_only) && !f.kind.bare) = true then paramsOut f (T.pr E' p') w' else w') := by
    by_cases c2 : ((fp || !E'.flags.name_only) && !f.kind.bare) = true
    · have c1 : ((fp || !E.flags.name_only) && !f.kind.bare) = true := by
        revert c2 hn
        cases E.flags.name_only <;> cases fp <;> simp +contextual
      rw [if_pos c1, if_pos c2]
      exact (params_thin hp f h.sub).r3 _
    · rw [if_neg c2]
      split
      · refine ⟨h.sub.grow (params_grow (pr_grow p) f w), fun _ ho => ?_⟩
        unfold paramsOut at ho
        dsimp only at ho
        rw [getLast?_app (by simp)] at ho
        cases ho
      · exact h
  generalize (if ((fp || !E.flags.name_only) && !f.kind.bare) = true then paramsOut f (T.pr E p) w else w) = v at h1 ⊢
  generalize (if ((fp || !E'.flags.name_only) && !f.kind.bare) = true then paramsOut f (T.pr E' p') w' else w') = v' at h1 ⊢
  have hth : (!E'.flags.no_this_type && !E'.flags.name_only) = true → (!E.flags.no_this_type && !E.flags.name_only) = true := by
    have ha := H.this
    revert hn ha
    cases E.flags.no_this_type <;> cases E.flags.name_only <;> simp +contextual
  have h2 : R3 b (v ++ (if (!E.flags.no_this_type && !E.flags.name_only) = true then f.cv.this E else []))
      (v' ++ (if (!E'.flags.no_this_type && !E'.flags.name_only) = true then f.cv.this E' else [])) := by
    obtain ⟨t1, t2⟩ := this_thin H f.cv
    by_cases c2 : (!E'.flags.no_this_type && !E'.flags.name_only) = true
    · rw [if_pos c2, if_pos (hth c2)]
      exact h1.app t1 t2
    · rw [if_neg c2]
      split
      · exact h1.app (List.nil_sublist _) t2
      · exact h1.app (List.Sublist.refl _) (by decide)
  have h3 := h2.app (List.Sublist.refl (if f.isNoexcept = true then c!" noexcept" else [])) (by split <;> decide)
  generalize v ++ (if (!E.flags.no_this_type && !E.flags.name_only) = true then f.cv.this E else []) ++
    (if f.isNoexcept = true then c!" noexcept" else []) = u at h3 ⊢
  generalize v' ++ (if (!E'.flags.no_this_type && !E'.flags.name_only) = true then f.cv.this E' else []) ++
    (if f.isNoexcept = true then c!" noexcept" else []) = u' at h3 ⊢
  have hrl : (refName f.ref).getLast? ≠ some '(' := by
    cases f.ref with
    | none => decide
    | some x => cases x <;> decide
  have h4 : R3 b (u ++ (if (!E.flags.no_this_type && !E.flags.name_only) = true then refName f.ref else []))
      (u' ++ (if (!E'.flags.no_this_type && !E'.flags.name_only) = true then refName f.ref else [])) := by
    by_cases c2 : (!E'.flags.no_this_type && !E'.flags.name_only) = true
    · rw [if_pos c2, if_pos (hth c2)]
      exact h3.app (List.Sublist.refl _) hrl
    · rw [if_neg c2]
      split
      · exact h3.app (List.nil_sublist _) hrl
      · exact h3.app (List.Sublist.refl _) (by decide)
  generalize u ++ (if (!E.flags.no_this_type && !E.flags.name_only) = true then refName f.ref else []) = s at h4 ⊢
  generalize u' ++ (if (!E'.flags.no_this_type && !E'.flags.name_only) = true then refName f.ref else []) = s' at h4 ⊢
  by_cases c2 : (!E'.flags.no_return_type && !E'.flags.name_only) = true
  · have c1 : (!E.flags.no_return_type && !E.flags.name_only) = true := by
      have ha := H.ret
      revert hn ha c2
      cases E.flags.no_return_type <;> cases E.flags.name_only <;> simp +contextual
    rw [if_pos c1, if_pos c2]
    exact hr.post _ _ _ h4
  · rw [if_neg c2]
    split
    · exact ⟨h4.sub.grow ((pr_grow r).post _ _), fun hb ho => h4.opn hb (post_open r _ _ ho)⟩
    · exact h4

end

end Undname.Spec
