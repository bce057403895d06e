/-
  The text of a compiler's symbol with more suppression flags is a subsequence of its text.
-/
import Verif.Proof.ThinGram
import Verif.Proof.ManglerPr
import Verif.Spec.MangledSym

namespace Undname.Spec.Cxx

/-- Lists of texts, entry by entry. -/
inductive Each (P : Text → Text → Prop) : List Text → List Text → Prop where
  | nil : Each P [] []
  | cons {a a' : Text} {l l' : List Text} (h : P a a') (t : Each P l l') : Each P (a :: l) (a' :: l')

theorem Each.isEmpty {P : Text → Text → Prop} {l l' : List Text} (h : Each P l l') : l'.isEmpty = l.isEmpty := by
  cases h <;> rfl

theorem Each.mono {P Q : Text → Text → Prop} (hq : ∀ a b, P a b → Q a b) {l l' : List Text} (h : Each P l l') : Each Q l l' := by
  induction h with
  | nil => exact .nil
  | cons h _ ih => exact .cons (hq _ _ h) ih

theorem Each.append {P : Text → Text → Prop} {l l' m m' : List Text} (h : Each P l l') (h2 : Each P m m') : Each P (l ++ m) (l' ++ m') := by
  induction h with
  | nil => exact h2
  | cons h _ ih => exact .cons h ih

theorem Each.reverse {P : Text → Text → Prop} {l l' : List Text} (h : Each P l l') : Each P l.reverse l'.reverse := by
  induction h with
  | nil => exact .nil
  | cons h _ ih =>
    rw [List.reverse_cons, List.reverse_cons]
    exact ih.append (.cons h .nil)

theorem Each.join {l l' : List Text} (sep : Text) (h : Each S l l') : S (join sep l) (join sep l') := by
  induction h with
  | nil => exact List.Sublist.refl _
  | cons h t ih =>
    cases t with
    | nil => exact h
    | cons h2 t2 => exact (h.append (List.Sublist.refl sep)).append ih

theorem Each.path {l l' : List Text} (h : Each S l l') : S (showPath l) (showPath l') := h.reverse.join _

theorem path_last {a a' : Text} {l l' : List Text} (h : Each S l l') (e : a'.getLast? = a.getLast?) :
    (showPath (a' :: l')).getLast? = (showPath (a :: l)).getLast? := by
  cases h with
  | nil => exact e
  | cons h t =>
    rw [showPath_cons a' _ (List.cons_ne_nil _ _), showPath_cons a _ (List.cons_ne_nil _ _), List.getLast?_append,
      List.getLast?_append (l' := a), e, List.getLast?_append, List.getLast?_append (l' := c!"::")]
    rfl

/-- A subsequence that ends in a word, or in a parenthesis, only if the whole does. -/
structure Le (E : Env) (w w' : Text) : Prop where
  sub : S w w'
  word : WE E w' → WE E w
  opn : w'.getLast? = some '(' → w.getLast? = some '('

section
variable {E E' : Env}

theorem Le.of_last {w w' : Text} (h : S w w') (e : w'.getLast? = w.getLast?) : Le E w w' :=
  ⟨h, fun ⟨c, h1, h2⟩ => ⟨c, by rw [← e, h1], h2⟩, fun h1 => by rw [← e, h1]⟩

theorem Le.before {w w' a a' : Text} (h : S w w') (h2 : Le E a a') (hne : a' ≠ []) : Le E (w ++ a) (w' ++ a') := by
  have hne2 : a ≠ [] := by rintro rfl; exact hne (List.sublist_nil.1 h2.sub)
  refine ⟨h.append h2.sub, ?_, ?_⟩
  · rintro ⟨c, h1, hc⟩
    rw [getLast?_app hne] at h1
    obtain ⟨d, h3, hd⟩ := h2.word ⟨c, h1, hc⟩
    exact ⟨d, by rw [getLast?_app hne2, h3], hd⟩
  · intro h1
    rw [getLast?_app hne] at h1
    rw [getLast?_app hne2, h2.opn h1]

/-- Something with a given end after something that ends in neither. -/
theorem Le.after {w w' a a' : Text} (h : S w w') (hw : ¬ WE E w') (ho : w'.getLast? ≠ some '(') (h2 : S a a') (e : a'.getLast? = a.getLast?) :
    Le E (w ++ a) (w' ++ a') := by
  by_cases hne : a' = []
  · have : a = [] := by
      subst hne
      exact List.getLast?_eq_none_iff.1 e.symm
    subst hne this
    simp only [List.append_nil]
    exact ⟨h, fun h1 => absurd h1 hw, fun h1 => absurd h1 ho⟩
  · exact Le.before h (.of_last h2 e) hne

theorem Le.sp (H : FlagsLe E E') {w w' : Text} (h : Le E w w') : S (sp E w) (sp E' w') := by
  rw [sp_uni H]
  by_cases hw' : WE E w'
  · rw [sp_we hw', sp_we (h.word hw')]
    exact h.sub.append (List.Sublist.refl _)
  · rw [sp_not hw']
    by_cases hw : WE E w
    · rw [sp_we hw]
      exact h.sub.trans (List.sublist_append_left _ _)
    · rw [sp_not hw]; exact h.sub

/-! ### Parts -/

theorem part_le {b b' : Bool} (hb : b' = true → b = true) {t t' : Text} (h : S t t') : S (part b t) (part b' t') := by
  cases b' with
  | false => exact List.nil_sublist _
  | true =>
    rw [hb rfl]
    exact h

theorem part_sub (b : Bool) (t : Text) : S t (part b t) := by
  cases b with
  | false => exact List.nil_sublist _
  | true => exact List.Sublist.refl _

section
variable (H : FlagsLe E E')
include H

theorem le_access : shows.access E' = true → shows.access E = true := by
  have h1 := H.acc; have h2 := H.name
  unfold shows.access
  revert h1 h2
  cases E.flags.no_access_specifier <;> cases E.flags.name_only <;> simp <;> intros <;> simp_all

theorem le_member : shows.member E' = true → shows.member E = true := by
  have h1 := H.mem; have h2 := H.name
  unfold shows.member
  revert h1 h2
  cases E.flags.no_member_type <;> cases E.flags.name_only <;> simp <;> intros <;> simp_all

theorem le_tag : shows.tag E' = true → shows.tag E = true := by
  have h1 := H.tag; have h2 := H.name
  unfold shows.tag
  revert h1 h2
  cases E.flags.no_tag_specifier <;> cases E.flags.name_only <;> simp <;> intros <;> simp_all

theorem le_ms : shows.ms E' = true → shows.ms E = true := by
  have h1 := H.ms
  unfold shows.ms
  revert h1
  cases E.flags.no_ms_keywords <;> simp

theorem le_ptrConv : shows.ptrConv E' = true → shows.ptrConv E = true := by
  have h1 := H.cc; have h2 := H.ms
  unfold shows.ptrConv
  revert h1 h2
  cases E.flags.no_calling_convention <;> cases E.flags.no_ms_keywords <;> simp <;> intros <;> simp_all

theorem le_name : (!E'.flags.name_only) = true → (!E.flags.name_only) = true := by
  have h1 := H.name
  revert h1
  cases E.flags.name_only <;> simp

theorem le_conv : shows.conv E' = true → shows.conv E = true := by
  unfold shows.conv
  rw [Bool.and_eq_true, Bool.and_eq_true]
  exact fun ⟨a, b⟩ => ⟨le_ptrConv H a, le_name H b⟩

theorem le_ptrRet : shows.ptrRet E' = true → shows.ptrRet E = true := by
  have h1 := H.ret
  unfold shows.ptrRet
  revert h1
  cases E.flags.no_return_type <;> simp

theorem le_ret : shows.ret E' = true → shows.ret E = true := by
  unfold shows.ret
  rw [Bool.and_eq_true, Bool.and_eq_true]
  exact fun ⟨a, b⟩ => ⟨le_ptrRet H a, le_name H b⟩

theorem le_params : shows.params E' = true → shows.params E = true := le_name H

theorem le_this : shows.this E' = true → shows.this E = true := by
  have h1 := H.this; have h2 := H.name
  unfold shows.this
  revert h1 h2
  cases E.flags.no_this_type <;> cases E.flags.name_only <;> simp <;> intros <;> simp_all

theorem le_varType : shows.varType E' = true → shows.varType E = true := by
  have h1 := H.var; have h2 := H.name
  unfold shows.varType
  revert h1 h2
  cases E.flags.no_variable_type <;> cases E.flags.name_only <;> simp <;> intros <;> simp_all

theorem le_unaligned (u : Bool) : S (part (shows.ms E && u) (msWord E c!"unaligned" ++ c!" "))
    (part (shows.ms E' && u) (msWord E' c!"unaligned" ++ c!" ")) := by
  refine part_le ?_ ((msWord_thin H (by simp)).1.append (List.Sublist.refl _))
  rw [Bool.and_eq_true, Bool.and_eq_true]
  exact fun ⟨a, b⟩ => ⟨le_ms H a, b⟩

theorem le_convCpp (cc : Char) : S (convCpp E cc) (convCpp E' cc) := by
  have hu := H.und
  unfold convCpp
  dsimp only
  revert hu
  cases E.flags.no_leading_underscores <;> cases E'.flags.no_leading_underscores
  · exact fun _ => List.Sublist.refl _
  · exact fun _ => List.drop_sublist _ _
  · exact fun h => by simp at h
  · exact fun _ => List.Sublist.refl _

theorem le_convBlank (b b' : Bool) (hb : b' = true → b = true) (cc : Char) :
    S (part b (convCpp E cc ++ c!" ")) (part b' (convCpp E' cc ++ c!" ")) :=
  part_le hb ((le_convCpp H cc).append (List.Sublist.refl _))

theorem le_thisCpp (q : This) : S (q.cpp E) (q.cpp E') := by
  unfold This.cpp
  refine (List.Sublist.refl _).append (part_le (le_ms H) ((part_le id ?_).append (part_le id ?_)))
  · exact (List.Sublist.refl _).append (msWord_thin H (by simp)).1
  · exact (List.Sublist.refl _).append (msWord_thin H (by simp)).1

theorem le_storage (st : Storage) : S (st.cpp E) (st.cpp E') := by
  cases st with
  | member a => exact (part_le (le_access H) (List.Sublist.refl _)).append (part_le (le_member H) (List.Sublist.refl _))
  | _ => exact List.Sublist.refl _

theorem le_kind (k : Kind) : S (k.cpp E) (k.cpp E') := by
  cases k with
  | free b => exact part_le (le_member H) (List.Sublist.refl _)
  | static a => exact (part_le (le_access H) (List.Sublist.refl _)).append (part_le (le_member H) (List.Sublist.refl _))
  | member a v q => exact (part_le (le_access H) (List.Sublist.refl _)).append (part_le (le_member H) (List.Sublist.refl _))
  | thunk a adj q =>
    exact ((part_le (le_name H) (List.Sublist.refl _)).append (part_le (le_access H) (List.Sublist.refl _))).append
      (part_le (le_member H) (List.Sublist.refl _))

omit H in
theorem pk_ne (k : PK) : k.cpp E ≠ [] := by
  cases k <;> simp [PK.cpp]

omit H in
theorem star_last (c v r : Bool) : ∀ b u : Bool, ∀ x : Text, x = (if b then (if u then c!"restrict" else c!"__restrict") else []) →
    (c!"*" ++ words ((if c then [c!"const"] else []) ++ (if v then [c!"volatile"] else []) ++ (if r then [x] else []))).getLast? ≠ some '(' := by
  intro b u x hx
  subst hx
  revert c v r b u
  decide

omit H in
theorem msWord_restrict : part (shows.ms E) (msWord E c!"restrict") =
    (if shows.ms E then (if E.flags.no_leading_underscores then c!"restrict" else c!"__restrict") else []) := by
  unfold part msWord
  cases shows.ms E <;> rfl

omit H in
theorem pk_open (k : PK) : (k.cpp E).getLast? ≠ some '(' := by
  cases k with
  | star c v r => exact star_last c v r _ _ _ msWord_restrict
  | ref => simp [PK.cpp]
  | rref => simp [PK.cpp]

theorem le_pk (k : PK) : Le E (k.cpp E) (k.cpp E') := by
  refine ⟨?_, ?_, fun h => absurd h (pk_open k)⟩
  · cases k with
    | star c v r =>
      refine (List.Sublist.refl _).append (Each.join _ (.append (.append ?_ ?_) ?_))
      · cases c
        · exact .nil
        · exact .cons (List.Sublist.refl _) .nil
      · cases v
        · exact .nil
        · exact .cons (List.Sublist.refl _) .nil
      · cases r
        · exact .nil
        · exact .cons (part_le (le_ms H) (msWord_thin H (by simp)).1) .nil
    | ref => exact List.Sublist.refl _
    | rref => exact List.Sublist.refl _
  · cases k with
    | star c v r =>
      rintro ⟨d, h1, hd⟩
      refine ⟨d, ?_, hd⟩
      rw [← h1]
      show (c!"*" ++ words (_ ++ _ ++ _)).getLast? = (c!"*" ++ words (_ ++ _ ++ _)).getLast?
      cases r with
      | false => rfl
      | true =>
        have h2 : (c!"*" ++ words ((if c then [c!"const"] else []) ++ (if v then [c!"volatile"] else []) ++
          [part (shows.ms E') (msWord E' c!"restrict")])).getLast? = some d := h1
        show (c!"*" ++ words (_ ++ _ ++ [part (shows.ms E) (msWord E c!"restrict")])).getLast? =
          (c!"*" ++ words (_ ++ _ ++ [part (shows.ms E') (msWord E' c!"restrict")])).getLast?
        have hm := le_ms H
        rw [msWord_restrict] at h2 ⊢
        rw [msWord_restrict]
        generalize E.flags.no_leading_underscores = u
        generalize E'.flags.no_leading_underscores = u' at *
        cases hs' : shows.ms E' with
        | false =>
          exfalso
          rw [hs'] at h2
          have : d = '*' ∨ d = ' ' := by
            revert h2
            cases c <;> cases v <;> simp [words, Spec.join] <;> intro h <;> simp [← h]
          rcases this with rfl | rfl <;> exact absurd hd (by simp [isWordEnd])
        | true =>
          rw [hm hs']
          clear h1 h2 hs'
          revert c v u u'
          decide
    | ref => exact id
    | rref => exact id

omit H in
theorem le_params_text {l l' : List Text} (h : Each S l l') (v : Bool) : S (paramsCpp l v) (paramsCpp l' v) := by
  unfold paramsCpp
  rw [h.isEmpty]
  refine ((List.Sublist.refl _).append ?_).append (List.Sublist.refl _)
  split
  · exact List.Sublist.refl _
  · exact (h.join _).append (List.Sublist.refl _)

set_option linter.unusedSectionVars false in
mutual
theorem Ty.left_le : (t : Ty) → Le E (t.left E) (t.left E')
  | .prim k c v => by
    rw [Ty.left, Ty.left]
    exact .of_last (List.Sublist.refl _) rfl
  | .tag k p c v => by
    have hp := p.names_le
    rw [Ty.left, Ty.left, List.append_assoc, List.append_assoc]
    refine .after (part_le (le_tag H) (List.Sublist.refl _)) ?_ ?_ (hp.1.path.append (List.Sublist.refl _)) ?_
    · unfold part
      split
      · exact we_space
      · rintro ⟨c, h, _⟩; cases h
    · unfold part
      split
      · rw [List.getLast?_append]; simp
      · simp
    · rw [List.getLast?_append, List.getLast?_append, hp.2]
  | .ptr k u to => by
    have h := to.left_le
    rw [Ty.left, Ty.left]
    exact .before ((h.sp H).append (le_unaligned H u)) (le_pk H k) (pk_ne k)
  | .fptr k s => by
    have h := s.left_le
    rw [Ty.left, Ty.left]
    exact .before h (le_pk H k) (pk_ne k)
  | .aptr k c v dims el => by
    have h := el.left_le
    rw [Ty.left, Ty.left]
    refine .before (List.Sublist.append (Le.sp H ?_) (List.Sublist.refl _)) (le_pk H k) (pk_ne k)
    by_cases e : Spec.Ty.cvAfter c v = []
    · rw [e, List.append_nil, List.append_nil]; exact h
    · exact .before h.sub (.of_last (List.Sublist.refl _) rfl) e
  | .mptr k u cls to => by
    have h := to.left_le
    have hp := cls.names_le
    rw [Ty.left, Ty.left]
    exact .before ((((h.sp H).append (le_unaligned H u)).append hp.1.path).append (List.Sublist.refl _)) (le_pk H k) (pk_ne k)
  | .mfptr k cls q s => by
    have h := s.left_le
    have hp := cls.names_le
    rw [Ty.left, Ty.left]
    exact .before ((h.append hp.1.path).append (List.Sublist.refl _)) (le_pk H k) (pk_ne k)
theorem Ty.right_le : (t : Ty) → S (t.right E) (t.right E')
  | .prim k c v => by rw [Ty.right, Ty.right]; exact List.Sublist.refl _
  | .tag k p c v => by rw [Ty.right, Ty.right]; exact List.Sublist.refl _
  | .ptr k u to => by
    have h := to.right_le
    rw [Ty.right, Ty.right]
    exact h
  | .fptr k s => by
    have h := s.params_le
    have h2 := s.right_le {}
    rw [Ty.right, Ty.right]
    exact ((List.Sublist.refl _).append h).append h2
  | .aptr k c v dims el => by
    have h := el.right_le
    rw [Ty.right, Ty.right]
    exact (List.Sublist.refl _).append h
  | .mptr k u cls to => by
    have h := to.right_le
    rw [Ty.right, Ty.right]
    exact h
  | .mfptr k cls q s => by
    have h := s.params_le
    have h2 := s.right_le q
    rw [Ty.right, Ty.right]
    exact ((List.Sublist.refl _).append h).append h2
theorem Sig.left_le : (s : Sig) → S (s.left E) (s.left E')
  | .mk cc ret ps variadic noexc => by
    have h := ret.left_le
    rw [Sig.left, Sig.left]
    exact ((part_le (le_ptrRet H) (h.sub.append (List.Sublist.refl _))).append (List.Sublist.refl _)).append
      (le_convBlank H _ _ (le_ptrConv H) cc)
theorem Sig.ret_le : (s : Sig) → S (s.ret E) (s.ret E')
  | .mk cc ret ps variadic noexc => by
    have h := ret.left_le
    rw [Sig.ret, Sig.ret]
    exact part_le (le_ret H) (h.sub.append (List.Sublist.refl _))
theorem Sig.params_le : (s : Sig) → S (s.params E) (s.params E')
  | .mk cc ret ps variadic noexc => by
    have h := ps.list_le
    rw [Sig.params, Sig.params]
    exact le_params_text h variadic
theorem Sig.right_le : (s : Sig) → (q : This) → S (s.right E q) (s.right E' q)
  | .mk cc ret ps variadic noexc, q => by
    have h := ret.right_le
    rw [Sig.right, Sig.right]
    exact (((part_le (le_this H) (le_thisCpp H q)).append (List.Sublist.refl _)).append (part_le (le_this H) (List.Sublist.refl _))).append
      (part_le (le_ret H) h)
theorem Sig.retType_le : (s : Sig) → S (s.retType E) (s.retType E')
  | .mk cc ret ps variadic noexc => by
    have h := ret.left_le
    have h2 := ret.right_le
    rw [Sig.retType, Sig.retType]
    exact h.sub.append h2
theorem Tys.list_le : (ts : Tys) → Each S (ts.list E) (ts.list E')
  | .nil => by rw [Tys.list, Tys.list]; exact .nil
  | .cons t ts => by
    have h := t.left_le
    have h2 := t.right_le
    have h3 := ts.list_le
    rw [Tys.list, Tys.list]
    exact .cons (h.sub.append h2) h3
theorem Path.names_le : (p : Path) → Each S (p.names E) (p.names E') ∧ (showPath (p.names E')).getLast? = (showPath (p.names E)).getLast?
  | .nil => by rw [Path.names, Path.names]; exact ⟨.nil, rfl⟩
  | .cons s p => by
    have h := s.cpp_le
    have h2 := p.names_le
    rw [Path.names, Path.names]
    exact ⟨.cons h.1 h2.1, path_last h2.1 h.2⟩
theorem Seg.cpp_le : (s : Seg) → S (s.cpp E) (s.cpp E') ∧ (s.cpp E').getLast? = (s.cpp E).getLast?
  | .id s => by rw [Seg.cpp, Seg.cpp]; exact ⟨List.Sublist.refl _, rfl⟩
  | .tm s as => by
    have h := as.list_le
    rw [Seg.cpp, Seg.cpp]
    refine ⟨((List.Sublist.refl _).append (h.join _)).append (List.Sublist.refl _), ?_⟩
    rw [List.getLast?_append, List.getLast?_append (l' := c!">")]
    rfl
  | .anon key => by rw [Seg.cpp, Seg.cpp]; exact ⟨List.Sublist.refl _, rfl⟩
  | .loc n d => by
    have h := d.cpp_le
    rw [Seg.cpp, Seg.cpp]
    refine ⟨((((List.Sublist.refl _).append h).append (List.Sublist.refl _)).append (List.Sublist.refl _)).append (List.Sublist.refl _), ?_⟩
    rw [List.getLast?_append, List.getLast?_append (l' := c!"'")]
    rfl
theorem Args.list_le : (as : Args) → Each S (as.list E) (as.list E')
  | .nil => by rw [Args.list, Args.list]; exact .nil
  | .ty t as => by
    have h := t.left_le
    have h2 := t.right_le
    have h3 := as.list_le
    rw [Args.list, Args.list]
    exact .cons (h.sub.append h2) h3
  | .int neg n as => by
    have h3 := as.list_le
    rw [Args.list, Args.list]
    exact .cons (List.Sublist.refl _) h3
  | .pack as => by
    have h3 := as.list_le
    rw [Args.list, Args.list]
    exact h3
  | .fn s as => by
    have h := s.type_le {}
    have h3 := as.list_le
    rw [Args.list, Args.list]
    exact .cons h h3
  | .mfn q s as => by
    have h := s.type_le q
    have h3 := as.list_le
    rw [Args.list, Args.list]
    exact .cons h h3
  | .arr c v dims el as => by
    have h := el.left_le
    have h2 := el.right_le
    have h3 := as.list_le
    rw [Args.list, Args.list]
    exact .cons (((h.sub.append (List.Sublist.refl _)).append (List.Sublist.refl _)).append h2) h3
  | .tmpl p as => by
    have h := p.names_le
    have h3 := as.list_le
    rw [Args.list, Args.list]
    exact .cons h.1.path h3
  | .addr d as => by
    have h := d.cpp_le
    have h3 := as.list_le
    rw [Args.list, Args.list]
    exact .cons ((List.Sublist.refl _).append h) h3
  | .ref d as => by
    have h := d.cpp_le
    have h3 := as.list_le
    rw [Args.list, Args.list]
    exact .cons h h3
  | .memFn d offs as => by
    have h := d.cpp_le
    have h3 := as.list_le
    rw [Args.list, Args.list]
    exact .cons (((((List.Sublist.refl _).append h).append (List.Sublist.refl _)).append (List.Sublist.refl _)).append (List.Sublist.refl _)) h3
  | .memData offs as => by
    have h3 := as.list_le
    rw [Args.list, Args.list]
    exact .cons (List.Sublist.refl _) h3
theorem Sig.type_le : (s : Sig) → (q : This) → S (s.type E q) (s.type E' q)
  | .mk cc ret ps variadic noexc, q => by
    have h := ret.left_le
    have h2 := ret.right_le
    have h3 := ps.list_le
    rw [Sig.type, Sig.type]
    exact ((((((part_le (le_ret H) (h.sub.append (List.Sublist.refl _))).append (part_le (le_conv H) (le_convCpp H cc))).append
      (part_le (le_params H) (le_params_text h3 variadic))).append (part_le (le_this H) (le_thisCpp H q))).append (List.Sublist.refl _)).append
      (part_le (le_this H) (List.Sublist.refl _))).append (part_le (le_ret H) h2)
theorem Targs.cpp_le : (ta : Targs) → S (ta.cpp E) (ta.cpp E')
  | .none => by rw [Targs.cpp, Targs.cpp]; exact List.Sublist.refl _
  | .some as => by
    have h := as.list_le
    rw [Targs.cpp, Targs.cpp]
    exact ((List.Sublist.refl _).append (h.join _)).append (List.Sublist.refl _)
theorem Head.cpp_le : (h : Head) → S (h.cpp E) (h.cpp E')
  | .id s => by rw [Head.cpp, Head.cpp]; exact List.Sublist.refl _
  | .tm s as => by
    have h := as.list_le
    rw [Head.cpp, Head.cpp]
    exact ((List.Sublist.refl _).append (h.join _)).append (List.Sublist.refl _)
  | .op o ta => by
    have h := ta.cpp_le
    rw [Head.cpp, Head.cpp]
    exact (List.Sublist.refl _).append h
  | .lit s => by rw [Head.cpp, Head.cpp]; exact List.Sublist.refl _
theorem Decl.cpp_le : (d : Decl) → S (d.cpp E) (d.cpp E')
  | .var st name scope ty => by
    have h1 := name.cpp_le
    have h2 := scope.names_le
    have h3 := ty.left_le
    have h4 := ty.right_le
    have hn : S (showPath (name.cpp E :: scope.names E)) (showPath (name.cpp E' :: scope.names E')) := (Each.cons h1 h2.1).path
    rw [Decl.cpp, Decl.cpp]
    refine (le_storage H st).append ?_
    cases h : shows.varType E' with
    | true =>
      rw [le_varType H h, if_pos rfl, if_pos rfl]
      exact ((h3.sp H).append hn).append h4
    | false =>
      rw [if_neg (by simp)]
      split
      · exact hn.trans ((List.sublist_append_right _ _).trans (List.sublist_append_left _ _))
      · exact hn
  | .fn k name scope s => by
    have h1 := name.cpp_le
    have h2 := scope.names_le
    have h3 := s.ret_le
    have h4 := s.conv_le
    have h5 := s.params_le
    have h6 := s.right_le k.this
    rw [Decl.cpp, Decl.cpp]
    exact ((((((le_kind H k).append h3).append h4).append (Each.cons h1 h2.1).path).append (List.Sublist.refl _)).append
      (part_le (le_params H) h5)).append h6
  | .structor dtor targs k s scope cc ps variadic noexc => by
    have h1 := targs.cpp_le
    have h2 := s.cpp_le
    have h3 := scope.names_le
    have h4 := ps.list_le
    rw [Decl.cpp, Decl.cpp]
    exact (((((((le_kind H k).append (le_convBlank H _ _ (le_conv H) cc)).append
      (Each.cons (P := S) (((List.Sublist.refl _).append h2.1).append h1) (.cons h2.1 h3.1)).path).append (List.Sublist.refl _)).append
      (part_le (le_params H) (le_params_text h4 variadic))).append (part_le (le_this H) (le_thisCpp H k.this))).append (List.Sublist.refl _)).append
      (part_le (le_this H) (List.Sublist.refl _))
  | .conv targs k cls s => by
    have h1 := targs.cpp_le
    have h2 := cls.names_le
    have h3 := s.ret_le
    have h4 := s.conv_le
    have h5 := s.params_le
    have h6 := s.right_le k.this
    have h7 := s.retType_le
    rw [Decl.cpp, Decl.cpp]
    exact ((((((le_kind H k).append h3).append h4).append
      (Each.cons (P := S) ((((List.Sublist.refl _).append h1).append (List.Sublist.refl _)).append h7) h2.1).path).append (List.Sublist.refl _)).append
      (part_le (le_params H) h5)).append h6
theorem Sig.conv_le : (s : Sig) → S (s.conv E) (s.conv E')
  | .mk cc ret ps variadic noexc => by
    rw [Sig.conv, Sig.conv]
    exact le_convBlank H _ _ (le_conv H) cc
end

end

end

end Undname.Spec.Cxx
