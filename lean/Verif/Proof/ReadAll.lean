/-
  Reading names, and all of a declaration by induction.
-/
import Verif.Proof.ReadArgs

namespace Undname.Spec.Cxx

/-! ### Operators -/

theorem op_table : ∀ o ∈ allOps, ∀ o' ∈ allOps, opName o <+: opName o' → o = o' ∨ ((opName o').drop (opName o).length).head?.any (fun c => c ≠ '(' && c ≠ '`' && c ≠ ':') = true := by decide +kernel
theorem op_anon : ∀ o ∈ allOps, ¬opName o <+: c!"`anonymous namespace'" ∧ ¬c!"`anonymous namespace'" <+: opName o := by decide +kernel
/-- Operators start with `operator`, others with a quote and a word that starts no declaration. -/
theorem op_first : ∀ o ∈ allOps, firstWord (opName o) = c!"operator" ∧ (opName o).any (fun c => !idc c) = true ∨
    ((opName o).head? = some '`' ∧ ((opName o).drop 1).any (fun c => !idc c) = true ∧ ((opName o).drop 1).head? ≠ some '[' ∧
      firstWord ((opName o).drop 1) ∉ phraseWords ++ [c!"extern", c!"private", c!"protected", c!"public"]) := by decide +kernel

theorem op_ident (o : IFK) {a : Text} : (∃ r, opName o ++ a = '`' :: r) ∨ firstWord (opName o ++ a) = c!"operator" := by
  rcases op_first o (mem_ops o) with ⟨h, h'⟩ | ⟨h, -⟩
  · right; rw [firstWord_append h']; exact h
  · left
    cases ho : opName o with
    | nil => rw [ho] at h; simp at h
    | cons c r => rw [ho] at h; simp at h; rw [h]; exact ⟨_, rfl⟩

theorem firstWord_ident {s a : Text} (h : ident s = true) (ha : NI a) : firstWord (s ++ a) ≠ c!"operator" := by
  rw [firstWord_eq (ident_idc h) ha]
  rintro rfl
  revert h; decide

theorem ident_quote {s a r : Text} (h : ident s = true) : s ++ a ≠ '`' :: r := by
  intro e
  cases s with
  | nil => exact ident_ne h rfl
  | cons c s =>
    have := ident_idc h c (by simp)
    injection e with e _
    rw [e] at this; exact absurd this (by decide)

/-- A text that starts with `operator`, or with a quote and no declaration. -/
def OpStart (X : Text) : Prop := firstWord X = c!"operator" ∨ ∃ r, X = '`' :: r ∧ ¬DStart r

theorem op_start (o : IFK) (a : Text) : OpStart (opName o ++ a) := by
  rcases op_first o (mem_ops o) with ⟨h, h'⟩ | ⟨h, h1, h2, h3⟩
  · left; rw [firstWord_append h']; exact h
  · right
    cases ho : opName o with
    | nil => rw [ho] at h; simp at h
    | cons c r =>
      rw [ho] at h h1 h2 h3; simp only [List.head?_cons, Option.some.injEq, List.drop_succ_cons, List.drop_zero] at h h1 h2 h3
      refine ⟨r ++ a, by rw [h]; rfl, ?_⟩
      rintro (h4 | h4)
      · cases r with
        | nil => simp at h1
        | cons d r => exact h2 (by simpa using h4)
      · rw [firstWord_append h1] at h4; exact h3 h4

theorem lit_start (s a : Text) : OpStart (c!"operator \"\"" ++ s ++ a) := by
  left; rw [List.append_assoc, firstWord_append (by decide)]; decide

theorem tm_not_op {E : Env} {w : Text} {as : Args} (hs : ident w = true) {a : Text} : ¬OpStart ((Seg.tm w as).cpp E ++ a) := by
  intro h
  rw [Seg.cpp, List.append_assoc, List.append_assoc, List.append_assoc] at h
  rcases h with h | ⟨r, h, -⟩
  · exact firstWord_ident hs (NI.cons (by decide)) h
  · exact ident_quote hs h

/-- Names that are not operators do not start so, except anonymous namespaces. -/
theorem seg_not_op {E : Env} (hE : E.flags = Flags.default) {key : Text} {s : Seg} (hs : s.plain key = true) (hk : ∀ k, s ≠ .anon k) {a : Text} (ha : SegStop a) :
    ¬OpStart (s.cpp E ++ a) := by
  intro h
  cases s with
  | id s =>
    simp only [Seg.plain] at hs
    rw [Seg.cpp] at h
    rcases h with h | ⟨r, h, -⟩
    · exact firstWord_ident hs ha.1 h
    · exact ident_quote hs h
  | tm s as =>
    simp only [Seg.plain, Bool.and_eq_true] at hs
    rw [Seg.cpp, List.append_assoc, List.append_assoc, List.append_assoc] at h
    rcases h with h | ⟨r, h, -⟩
    · exact firstWord_ident hs.1 (NI.cons (by decide)) h
    · exact ident_quote hs.1 h
  | anon k => exact hk k rfl
  | loc n d =>
    simp only [Seg.plain] at hs
    rw [Seg.cpp] at h
    simp only [List.append_assoc] at h
    rcases h with h | ⟨r, h, h'⟩
    · simp [firstWord, show idc '`' = false by decide] at h
    · injection h with _ h
      rw [← h] at h'
      exact h' (Decl.start hE hs (Stop.cons (by decide)))

theorem anon_op {o : IFK} {a b : Text} : c!"`anonymous namespace'" ++ a ≠ opName o ++ b := by
  intro e
  rcases append_cases e with ⟨r, h1, h2⟩ | ⟨r, h1, h2⟩
  · exact (op_anon o (mem_ops o)).2 ⟨r, h1.symm⟩
  · exact (op_anon o (mem_ops o)).1 ⟨r, h1.symm⟩

/-! ### Special names -/

def allStems : List Text :=
  [c!"`vftable'", c!"`vbtable'", c!"`local vftable'", c!"`RTTI Complete Object Locator'", c!"`RTTI Base Class Descriptor at (",
   c!"`RTTI Base Class Array'", c!"`RTTI Class Hierarchy Descriptor'", c!"`vcall'{", c!"`local static thread guard'", c!"`local static guard'",
   c!"`RTTI Type Descriptor'", c!"`dynamic atexit destructor for `", c!"`dynamic initializer for `", c!"`dynamic atexit destructor for '",
   c!"`dynamic initializer for '"]

theorem mem_stems (x : Spc) : x.stem ∈ allStems := by
  cases x with
  | table t => cases t <;> simp [Spc.stem, Table.name, allStems]
  | guard th n => cases th <;> simp [Spc.stem, allStems]
  | initVar dt d => cases dt <;> simp [Spc.stem, initText, allStems]
  | initName dt d => cases dt <;> simp [Spc.stem, initText, allStems]
  | _ => simp [Spc.stem, allStems]

theorem stem_table : ∀ p ∈ allStems, ∀ q ∈ allStems, p <+: q → p = q := by decide +kernel
theorem stem_op : ∀ p ∈ allStems, ∀ o ∈ allOps, ¬p <+: opName o ∧ ¬opName o <+: p := by decide +kernel
theorem stem_anon : ∀ p ∈ allStems, ¬p <+: c!"`anonymous namespace'" ∧ ¬c!"`anonymous namespace'" <+: p := by decide +kernel
theorem stem_first : ∀ p ∈ allStems, p.head? = some '`' ∧ (p.drop 1).any (fun c => !idc c) = true ∧ (p.drop 1).head? ≠ some '[' ∧
      firstWord (p.drop 1) ∉ phraseWords ++ [c!"extern", c!"private", c!"protected", c!"public"] := by decide +kernel

theorem spc_start (x : Spc) (a : Text) : OpStart (x.stem ++ a) := by
  obtain ⟨h, h1, h2, h3⟩ := stem_first x.stem (mem_stems x)
  right
  cases ho : x.stem with
  | nil => rw [ho] at h; simp at h
  | cons c r =>
    rw [ho] at h h1 h2 h3; simp only [List.head?_cons, Option.some.injEq, List.drop_succ_cons, List.drop_zero] at h h1 h2 h3
    refine ⟨r ++ a, by rw [h]; rfl, ?_⟩
    rintro (h4 | h4)
    · cases r with
      | nil => simp at h1
      | cons d r => exact h2 (by simpa using h4)
    · rw [firstWord_append h1] at h4; exact h3 h4

theorem anon_spc {x : Spc} {a b : Text} : c!"`anonymous namespace'" ++ a ≠ x.stem ++ b := by
  intro e
  rcases append_cases e with ⟨r, h1, h2⟩ | ⟨r, h1, h2⟩
  · exact (stem_anon _ (mem_stems x)).2 ⟨r, h1.symm⟩
  · exact (stem_anon _ (mem_stems x)).1 ⟨r, h1.symm⟩

theorem op_spc {o : IFK} {x : Spc} {a b : Text} : opName o ++ a ≠ x.stem ++ b := by
  intro e
  rcases append_cases e with ⟨r, h1, h2⟩ | ⟨r, h1, h2⟩
  · exact (stem_op _ (mem_stems x) o (mem_ops o)).2 ⟨r, h1.symm⟩
  · exact (stem_op _ (mem_stems x) o (mem_ops o)).1 ⟨r, h1.symm⟩

theorem spcStem_read {x y : Spc} {a b : Text} (e : x.stem ++ a = y.stem ++ b) : x.stem = y.stem ∧ a = b := by
  have h : x.stem = y.stem := by
    rcases append_cases e with ⟨r, h1, h2⟩ | ⟨r, h1, h2⟩
    · exact stem_table _ (mem_stems x) _ (mem_stems y) ⟨r, h1.symm⟩
    · exact (stem_table _ (mem_stems y) _ (mem_stems x) ⟨r, h1.symm⟩).symm
  rw [h] at e
  exact ⟨h, List.append_cancel_left e⟩

/-- Names that are not operators, and others. -/
theorem seg_not_nm {E : Env} (hE : E.flags = Flags.default) {key : Text} {s : Seg} (hs : s.plain key = true) {y : Nm} (hy : ∀ t, y ≠ .seg t)
    (hy' : ∀ w as bs, y ≠ .segT w as bs) {a b : Text} (ha : SegStop a) :
    s.cpp E ++ a ≠ y.cpp E ++ b := by
  intro e
  have an : ∀ {s : Seg}, (∃ k, s = .anon k) ∨ (∀ k, s ≠ .anon k) := by
    intro s; cases s with
    | anon k => exact .inl ⟨k, rfl⟩
    | _ => exact .inr (fun k h => by cases h)
  cases y with
  | seg t => exact hy t rfl
  | segT w as bs => exact hy' w as bs rfl
  | op o =>
    rw [Nm.cpp] at e
    rcases an (s := s) with ⟨k, rfl⟩ | h
    · rw [Seg.cpp] at e; exact anon_op e
    · have := op_start o b; rw [← e] at this; exact seg_not_op hE hs h ha this
  | opT o as =>
    rw [Nm.cpp, List.append_assoc] at e
    rcases an (s := s) with ⟨k, rfl⟩ | h
    · rw [Seg.cpp] at e; exact anon_op e
    · have := op_start o (c!"<" ++ (join c!", " (as.list E) ++ c!">") ++ b); rw [← e] at this; exact seg_not_op hE hs h ha this
  | dtorT w as bs =>
    obtain ⟨c, r, h1, h2⟩ := Seg.cpp_head (E := E) hs
    rw [h1, Nm.cpp] at e
    injection e with e _
    rw [e] at h2; exact absurd h2 (by decide)
  | lit t =>
    rw [Nm.cpp] at e
    rcases an (s := s) with ⟨k, rfl⟩ | h
    · rw [Seg.cpp] at e; simp at e
    · have := lit_start t b; rw [← e] at this; exact seg_not_op hE hs h ha this
  | dtor t =>
    obtain ⟨c, r, h1, h2⟩ := Seg.cpp_head (E := E) hs
    rw [h1, Nm.cpp] at e
    injection e with e _
    rw [e] at h2; exact absurd h2 (by decide)
  | spc x =>
    rw [Nm.cpp, List.append_assoc] at e
    rcases an (s := s) with ⟨k, rfl⟩ | h
    · rw [Seg.cpp] at e; exact anon_spc e
    · have := spc_start x (x.rest E ++ b); rw [← e] at this; exact seg_not_op hE hs h ha this

/-- What may follow the name of an operator, its template arguments included. -/
def OpTail (A : Text) : Prop := (A.head? ∈ [some '(', some ':'] ∨ A.take 4 ∈ [c!"`adj", c!"`vto"]) ∨ ∃ X, A = '<' :: X ∧ ArgsHead X

theorem take4_head {A : Text} (h : A.take 4 ∈ [c!"`adj", c!"`vto"]) : A.head? = some '`' := by
  have : (A.take 4).head? = A.head? := by cases A <;> simp
  rw [← this]
  simp only [List.mem_cons, List.not_mem_nil, or_false] at h
  rcases h with h | h <;> rw [h] <;> rfl

theorem OpTail.head {A : Text} (h : OpTail A) : A.head? ∈ [some '(', some ':', some '`', some '<'] := by
  rcases h with (h | h) | ⟨X, rfl, -⟩
  · simp only [List.mem_cons, List.not_mem_nil, or_false] at h ⊢
    exact h.elim .inl fun h => .inr (.inl h)
  · simp [take4_head h]
  · simp

theorem op_tail {o o' : IFK} {A B : Text} (hA : OpTail A) (hB : OpTail B) (e : opName o ++ A = opName o' ++ B) : o = o' ∧ A = B := by
  have key : ∀ {o o' : IFK} {A B r : Text}, OpTail A → OpTail B → opName o' = opName o ++ r → A = r ++ B → o = o' := by
    intro o o' A B r hA hB h1 h2
    have hh := hA.head
    rcases op_table2 o (mem_ops o) o' (mem_ops o') ⟨r, h1.symm⟩ with h | h
    · exact h
    · rw [h1, List.drop_left] at h
      exfalso
      rcases h with h | h | h
      · cases r with
        | nil => simp at h
        | cons c r =>
          rw [h2] at hh
          simp at hh h
          rcases hh with rfl | rfl | rfl | rfl <;> simp at h
      · subst h
        rcases hA with (hA | hA) | ⟨X, hX, hX1, hX2⟩
        · rw [h2] at hA; simp at hA
        · have := take4_head hA; rw [h2] at this; simp at this
        · rw [hX] at h2
          injection h2 with _ h2
          have h2 : X = B := h2
          subst h2
          rcases hB with (hB | hB) | ⟨Y, hY, -⟩
          · exact hX1 (by simp only [List.mem_cons, List.not_mem_nil, or_false] at hB ⊢; rcases hB with h | h <;> simp [h])
          · exact hX2 hB
          · exact hX1 (by simp [hY])
      · match r, h with
        | c :: c' :: r, h =>
          obtain rfl : c' = '=' := by simpa using h
          rcases hA with (hA | hA) | ⟨X, hX, hX1, hX2⟩
          · rw [h2] at hA hh
            have : ∀ o ∈ allOps, ∀ o' ∈ allOps, opName o <+: opName o' → ((opName o').drop (opName o).length).head? ∉ [some '(', some ':', some '`'] := by decide +kernel
            have := this o (mem_ops o) o' (mem_ops o') ⟨_, h1.symm⟩
            rw [h1, List.drop_left] at this
            simp at this hA
            rcases hA with h | h
            · exact this.1 h
            · exact this.2.1 h
          · have := take4_head hA; rw [h2] at this hA; simp at this; subst this; simp at hA
          · rw [h2] at hX
            injection hX with _ hX
            rw [← hX] at hX1
            simp at hX1
  rcases append_cases e with ⟨r, h1, h2⟩ | ⟨r, h1, h2⟩
  · obtain rfl := key hA hB h1 h2
    exact ⟨rfl, List.append_cancel_left e⟩
  · obtain rfl := key hB hA h1 h2
    exact ⟨rfl, List.append_cancel_left e⟩

/-- The text of an operator followed by anything is no other name. -/
theorem op_not_nm {E : Env} (hE : E.flags = Flags.default) {key : Text} {o : IFK} {A : Text} {y : Nm} (hy : y.plain key = true) {b : Text} (hb : y.St b)
    (e : opName o ++ A = y.cpp E ++ b) : (∃ o', y = .op o') ∨ ∃ o' as, y = .opT o' as := by
  have tl : ∀ {r : Text}, opName o ++ A ≠ '~' :: r := by
    intro r e
    have := op_start o A
    rw [e] at this
    rcases this with h | ⟨r, h, -⟩
    · simp [firstWord, show idc '~' = false by decide] at h
    · simp at h
  cases y with
  | seg t =>
    have an : (∃ k, t = .anon k) ∨ (∀ k, t ≠ .anon k) := by
      cases t with
      | anon k => exact .inl ⟨k, rfl⟩
      | _ => exact .inr (fun k h => by cases h)
    rw [Nm.cpp] at e
    rcases an with ⟨k, rfl⟩ | h
    · rw [Seg.cpp] at e; exact absurd e.symm anon_op
    · have := op_start o A; rw [e] at this; exact absurd this (seg_not_op hE hy h hb)
  | op o' => exact .inl ⟨o', rfl⟩
  | opT o' as => exact .inr ⟨o', as, rfl⟩
  | lit t =>
    simp only [Nm.cpp, List.append_assoc] at e
    rcases append_cases e with ⟨r, h1, h2⟩ | ⟨r, h1, h2⟩
    · exact absurd ⟨r, h1.symm⟩ (op_lit o (mem_ops o)).1
    · exact absurd ⟨r, h1.symm⟩ (op_lit o (mem_ops o)).2
  | dtor t => exact absurd e tl
  | segT w as bs =>
    simp only [Nm.plain, Bool.and_eq_true] at hy
    rw [Nm.cpp, List.append_assoc] at e
    have := op_start o A; rw [e] at this; exact absurd this (tm_not_op hy.1.1)
  | dtorT w as bs => exact absurd e tl
  | spc x =>
    rw [Nm.cpp, List.append_assoc] at e
    exact absurd e op_spc

theorem opT_tail {E : Env} (hE : E.flags = Flags.default) {key : Text} {as : Args} (h : as.plain key = true) (a : Text) :
    OpTail (c!"<" ++ (join c!", " (as.list E) ++ c!">") ++ a) := by
  refine .inr ⟨_, rfl, ?_⟩
  show ArgsHead ((join c!", " (as.list E) ++ c!">") ++ a)
  rw [List.append_assoc]
  exact args_head hE h

theorem op_rd {E : Env} (hE : E.flags = Flags.default) {key : Text} (o : IFK) : NmRd E key (.op o) := by
  intro y hy a b ha hb e
  rw [Nm.cpp] at e
  rcases op_not_nm hE hy hb e with ⟨o', rfl⟩ | ⟨o', as, rfl⟩
  · rw [Nm.cpp] at e
    obtain ⟨h1, h2⟩ := op_tail (.inl ha) (.inl hb) e
    rw [h1]; exact ⟨rfl, h2⟩
  · rw [Nm.cpp, List.append_assoc] at e
    simp only [Nm.plain, Bool.and_eq_true] at hy
    obtain ⟨h1, h2⟩ := op_tail (.inl ha) (opT_tail hE hy.2 b) e
    rw [h2] at ha
    simp [Nm.St] at ha

theorem opT_rd {E : Env} (hE : E.flags = Flags.default) {key : Text} (o : IFK) {as : Args} (has : as.plain key = true) (rd : ∀ x ∈ as.toList, ArgRd E key x) :
    NmRd E key (.opT o as) := by
  intro y hy a b ha hb e
  rw [Nm.cpp, List.append_assoc] at e
  rcases op_not_nm hE hy hb e with ⟨o', rfl⟩ | ⟨o', bs, rfl⟩
  · rw [Nm.cpp] at e
    obtain ⟨h1, h2⟩ := op_tail (opT_tail hE has a) (.inl hb) e
    rw [← h2] at hb
    simp [Nm.St] at hb
  · rw [Nm.cpp, List.append_assoc (opName o')] at e
    simp only [Nm.plain, Bool.and_eq_true] at hy
    obtain ⟨h1, h2⟩ := op_tail (opT_tail hE has a) (opT_tail hE hy.2 b) e
    simp only [List.append_assoc] at h2
    obtain ⟨h3, h4⟩ := args_read hE has hy.2 rd (List.append_cancel_left h2)
    rw [h1, h3]; exact ⟨rfl, h4⟩

theorem targs_read {E : Env} (hE : E.flags = Flags.default) {key : Text} {ta : Targs} (h : ta.plain key = true)
    (rd : ∀ bs, ta = .some bs → bs.plain key = true ∧ ∀ x ∈ bs.toList, ArgRd E key x) : TargsRd E key ta := by
  intro ta' h' a b e
  cases ta with
  | none =>
    cases ta' with
    | none => simp only [Targs.cpp, List.nil_append, List.cons.injEq, true_and] at e; exact ⟨rfl, e⟩
    | some bs => simp [Targs.cpp] at e
  | some as =>
    cases ta' with
    | none => simp [Targs.cpp] at e
    | some bs =>
      simp only [Targs.plain] at h h'
      simp only [Targs.cpp, List.append_assoc] at e
      obtain ⟨h3, h4⟩ := args_read hE h h' (rd as rfl).2 (List.append_cancel_left (as := c!"<") e)
      exact ⟨by rw [h3], by injection h4⟩

theorem lit_rd {E : Env} (hE : E.flags = Flags.default) {key : Text} {s : Text} (hs : s.all idc = true) : NmRd E key (.lit s) := by
  intro y hy a b ha hb e
  cases y with
  | seg t => exact absurd e.symm (seg_not_nm hE hy (by simp) (by simp) hb)
  | op o' =>
    simp only [Nm.cpp, List.append_assoc] at e
    rcases append_cases e with ⟨r, h1, h2⟩ | ⟨r, h1, h2⟩
    · exact absurd ⟨r, h1.symm⟩ (op_lit o' (mem_ops o')).2
    · exact absurd ⟨r, h1.symm⟩ (op_lit o' (mem_ops o')).1
  | opT o' as =>
    simp only [Nm.cpp, List.append_assoc] at e
    rcases append_cases e with ⟨r, h1, h2⟩ | ⟨r, h1, h2⟩
    · exact absurd ⟨r, h1.symm⟩ (op_lit o' (mem_ops o')).2
    · exact absurd ⟨r, h1.symm⟩ (op_lit o' (mem_ops o')).1
  | segT w as bs =>
    simp only [Nm.plain, Bool.and_eq_true] at hy
    have := lit_start s a
    rw [Nm.cpp, Nm.cpp, List.append_assoc (Seg.cpp E _)] at e
    rw [e] at this; exact absurd this (tm_not_op hy.1.1)
  | dtorT w as bs => simp [Nm.cpp] at e
  | lit t =>
    simp only [Nm.plain, Bool.and_eq_true] at hy
    simp only [Nm.cpp, List.append_assoc, List.append_cancel_left_eq] at e
    obtain ⟨h1, h2⟩ := word_read (List.all_eq_true.mp hs) (List.all_eq_true.mp hy.2) ha.1 hb.1 e
    rw [h1]; exact ⟨rfl, h2⟩
  | dtor t => simp [Nm.cpp] at e
  | spc x =>
    obtain ⟨r, hr⟩ := x.stem_head
    simp [Nm.cpp, hr] at e

theorem dtor_rd {E : Env} (hE : E.flags = Flags.default) {key : Text} {s : Seg} (rd : NmRd E key (.seg s)) : NmRd E key (.dtor s) := by
  intro y hy a b ha hb e
  cases y with
  | seg t => exact absurd e.symm (seg_not_nm hE hy (by simp) (by simp) hb)
  | op o =>
    have := op_start o b
    rw [Nm.cpp, Nm.cpp] at e
    rw [← e] at this
    rcases this with h | ⟨r, h, -⟩
    · simp [firstWord, show idc '~' = false by decide] at h
    · simp at h
  | opT o as =>
    have := op_start o (c!"<" ++ (join c!", " (as.list E) ++ c!">") ++ b)
    rw [Nm.cpp, Nm.cpp, List.append_assoc (opName o)] at e
    rw [← e] at this
    rcases this with h | ⟨r, h, -⟩
    · simp [firstWord, show idc '~' = false by decide] at h
    · simp at h
  | lit t => simp [Nm.cpp] at e
  | dtor t =>
    simp only [Nm.cpp, List.append_assoc, List.append_cancel_left_eq] at e
    obtain ⟨h1, h2⟩ := rd (.seg t) hy a b ha hb e
    injection h1 with h1
    rw [h1]; exact ⟨rfl, h2⟩
  | segT w as bs =>
    obtain ⟨c, r, h1, h2⟩ := Nm.cpp_head (E := E) (x := .segT w as bs) hy
    have h3 : idc c = true ∨ c = '`' := by
      rw [Nm.cpp] at h1
      obtain ⟨d, r', h4, h5⟩ := Seg.cpp_head (E := E) (key := key) (s := .tm w as) (by
        simp only [Nm.plain, Bool.and_eq_true] at hy
        rw [Seg.plain, hy.1.1, hy.1.2]; rfl)
      rw [h4] at h1; injection h1 with h1 _; rw [← h1]; exact h5
    rw [h1] at e
    simp only [Nm.cpp, List.append_assoc, List.cons_append, List.nil_append, List.cons.injEq] at e
    rw [← e.1] at h3; exact absurd h3 (by decide)
  | dtorT w as bs =>
    simp only [Nm.cpp] at e
    rw [List.append_assoc, List.append_assoc c!"~"] at e
    obtain ⟨h1, h2⟩ := rd (.segT w as bs) hy a b ha hb (by rw [Nm.cpp, Nm.cpp]; exact List.append_cancel_left e)
    simp at h1
  | spc x =>
    obtain ⟨r, hr⟩ := x.stem_head
    simp [Nm.cpp, hr] at e

theorem spc_rd {E : Env} (hE : E.flags = Flags.default) {key : Text} {x : Spc} (hx : x.plain key = true)
    (hd : ∀ dt d, x = .initVar dt d → DeclRd E key d) (hp : ∀ dt p, x = .initName dt p → NmsRd E key p.nms) : NmRd E key (.spc x) := by
  intro y hy a b ha hb e
  cases y with
  | seg t => exact absurd e.symm (seg_not_nm hE hy (by simp) (by simp) hb)
  | op o =>
    rw [Nm.cpp, Nm.cpp, List.append_assoc] at e
    exact absurd e.symm op_spc
  | opT o as =>
    rw [Nm.cpp, Nm.cpp, List.append_assoc, List.append_assoc (opName o)] at e
    exact absurd e.symm op_spc
  | segT w as bs =>
    simp only [Nm.plain, Bool.and_eq_true] at hy
    rw [Nm.cpp, Nm.cpp, List.append_assoc, List.append_assoc (Seg.cpp E _)] at e
    have := spc_start x (x.rest E ++ a); rw [e] at this; exact absurd this (tm_not_op hy.1.1)
  | dtorT w as bs =>
    obtain ⟨r, hr⟩ := x.stem_head
    simp [Nm.cpp, hr] at e
  | lit t =>
    obtain ⟨r, hr⟩ := x.stem_head
    simp [Nm.cpp, hr] at e
  | dtor t =>
    obtain ⟨r, hr⟩ := x.stem_head
    simp [Nm.cpp, hr] at e
  | spc y =>
    rw [Nm.cpp, Nm.cpp, List.append_assoc, List.append_assoc] at e
    obtain ⟨h, e⟩ := spcStem_read e
    suffices h : x = y ∧ a = b by rw [h.1]; exact ⟨rfl, h.2⟩
    have ni : ∀ {c : Char} {r : Text}, idc c = false → NI (c :: r) := fun h => NI.cons h
    cases x with
    | table t =>
      cases y with
      | table t' => cases t <;> cases t' <;> first | exact ⟨rfl, e⟩ | simp [Spc.stem, Table.name] at h
      | guard th n => cases t <;> cases th <;> simp [Spc.stem, Table.name] at h
      | initVar dt d => cases t <;> cases dt <;> simp [Spc.stem, Table.name, initText] at h
      | initName dt d => cases t <;> cases dt <;> simp [Spc.stem, Table.name, initText] at h
      | _ => cases t <;> simp [Spc.stem, Table.name] at h
    | base nv vb vt fl =>
      cases y with
      | table t' => cases t' <;> simp [Spc.stem, Table.name] at h
      | guard th n => cases th <;> simp [Spc.stem] at h
      | initVar dt d => cases dt <;> simp [Spc.stem, initText] at h
      | initName dt d => cases dt <;> simp [Spc.stem, initText] at h
      | base nv' vb' vt' fl' =>
        simp only [Spc.rest, List.append_assoc] at e
        obtain ⟨h1, e⟩ := nat_read (NI.cons (by decide)) (NI.cons (by decide)) e
        have e := List.append_cancel_left (as := c!", ") e
        obtain ⟨h2, e⟩ := sint_read (NI.cons (by decide)) (NI.cons (by decide)) e
        have e := List.append_cancel_left (as := c!", ") e
        obtain ⟨h3, e⟩ := nat_read (NI.cons (by decide)) (NI.cons (by decide)) e
        have e := List.append_cancel_left (as := c!", ") e
        obtain ⟨h4, e⟩ := nat_read (NI.cons (by decide)) (NI.cons (by decide)) e
        rw [h1, h2, h3, h4]; exact ⟨rfl, by simpa using e⟩
      | _ => simp [Spc.stem] at h
    | array =>
      cases y with
      | table t' => cases t' <;> simp [Spc.stem, Table.name] at h
      | guard th n => cases th <;> simp [Spc.stem] at h
      | initVar dt d => cases dt <;> simp [Spc.stem, initText] at h
      | initName dt d => cases dt <;> simp [Spc.stem, initText] at h
      | array => exact ⟨rfl, e⟩
      | _ => simp [Spc.stem] at h
    | hier =>
      cases y with
      | table t' => cases t' <;> simp [Spc.stem, Table.name] at h
      | guard th n => cases th <;> simp [Spc.stem] at h
      | initVar dt d => cases dt <;> simp [Spc.stem, initText] at h
      | initName dt d => cases dt <;> simp [Spc.stem, initText] at h
      | hier => exact ⟨rfl, e⟩
      | _ => simp [Spc.stem] at h
    | desc =>
      cases y with
      | table t' => cases t' <;> simp [Spc.stem, Table.name] at h
      | guard th n => cases th <;> simp [Spc.stem] at h
      | initVar dt d => cases dt <;> simp [Spc.stem, initText] at h
      | initName dt d => cases dt <;> simp [Spc.stem, initText] at h
      | desc => exact ⟨rfl, e⟩
      | _ => simp [Spc.stem] at h
    | vcall n =>
      cases y with
      | table t' => cases t' <;> simp [Spc.stem, Table.name] at h
      | guard th n => cases th <;> simp [Spc.stem] at h
      | initVar dt d => cases dt <;> simp [Spc.stem, initText] at h
      | initName dt d => cases dt <;> simp [Spc.stem, initText] at h
      | vcall n' =>
        simp only [Spc.rest, List.append_assoc] at e
        obtain ⟨h1, e⟩ := nat_read (NI.cons (by decide)) (NI.cons (by decide)) e
        rw [h1]; exact ⟨rfl, by simpa using e⟩
      | _ => simp [Spc.stem] at h
    | guard th n =>
      cases y with
      | table t' => cases t' <;> cases th <;> simp [Spc.stem, Table.name] at h
      | guard th' n' =>
        have h1 : th = th' := by cases th <;> cases th' <;> first | rfl | simp [Spc.stem] at h
        obtain ⟨_, ha⟩ := ha
        obtain ⟨_, hb⟩ := hb
        rw [h1]
        simp only [Spc.rest] at e
        by_cases hn : n = 0 <;> by_cases hn' : n' = 0
        · rw [if_pos hn, if_pos hn'] at e; rw [hn, hn']; exact ⟨rfl, e⟩
        · rw [if_pos hn, if_neg hn'] at e; rw [List.nil_append] at e; rw [e] at ha; simp at ha
        · rw [if_neg hn, if_pos hn'] at e; rw [List.nil_append] at e; rw [← e] at hb; simp at hb
        · rw [if_neg hn, if_neg hn'] at e
          simp only [List.append_assoc] at e
          have e := List.append_cancel_left (as := c!"{") e
          obtain ⟨h1, e⟩ := nat_read (NI.cons (by decide)) (NI.cons (by decide)) e
          rw [h1]; exact ⟨rfl, by simpa using e⟩
      | initVar dt d => cases dt <;> cases th <;> simp [Spc.stem, initText] at h
      | initName dt d => cases dt <;> cases th <;> simp [Spc.stem, initText] at h
      | _ => cases th <;> simp [Spc.stem] at h
    | initVar dt d =>
      cases y with
      | table t' => cases t' <;> cases dt <;> simp [Spc.stem, Table.name, initText] at h
      | guard th' n' => cases dt <;> cases th' <;> simp [Spc.stem, initText] at h
      | initVar dt' d' =>
        have h1 : dt = dt' := by cases dt <;> cases dt' <;> first | rfl | simp [Spc.stem, initText] at h
        simp only [Spc.rest, List.append_assoc] at e
        obtain ⟨h2, e⟩ := hd dt d rfl d' hy _ _ (Stop.cons (by decide)) (Stop.cons (by decide)) e
        rw [h1, h2]; exact ⟨rfl, by simpa using e⟩
      | initName dt' d' => cases dt <;> cases dt' <;> simp [Spc.stem, initText] at h
      | _ => cases dt <;> simp [Spc.stem, initText] at h
    | initName dt p =>
      cases y with
      | table t' => cases t' <;> cases dt <;> simp [Spc.stem, Table.name, initText] at h
      | guard th' n' => cases dt <;> cases th' <;> simp [Spc.stem, initText] at h
      | initVar dt' d' => cases dt <;> cases dt' <;> simp [Spc.stem, initText] at h
      | initName dt' p' =>
        have h1 : dt = dt' := by cases dt <;> cases dt' <;> first | rfl | simp [Spc.stem, initText] at h
        simp only [Nm.plain, Spc.plain, Bool.and_eq_true, Bool.not_eq_true'] at hx hy
        simp only [Spc.rest, List.append_assoc, Path.text_eq] at e
        have q : ∀ r, Stop ('\'' :: r) := fun r => Stop.cons (by decide)
        obtain ⟨h2, e⟩ := names_read (hp dt p rfl) (Path.plain_nms hx.2) (Path.plain_nms hy.2) (Path.nms_ne hx.1) (Path.nms_ne hy.1)
          (seg_sts (q _).seg) (seg_sts (q _).seg) (q _).pathEnd (q _).pathEnd e
        rw [h1, Path.nms_inj h2]; exact ⟨rfl, by simpa using e⟩
      | _ => cases dt <;> simp [Spc.stem, initText] at h

theorem anon_loc {E : Env} (hE : E.flags = Flags.default) {key : Text} {n : Nat} {d : Decl} (hd : d.plain key = true) {a b : Text} :
    c!"`anonymous namespace'" ++ a ≠ c!"`" ++ (d.cpp E ++ (c!"'::`" ++ (nat n ++ (c!"'" ++ b)))) := by
  intro e
  have ds := Decl.start hE hd (a := c!"'::`" ++ (nat n ++ (c!"'" ++ b))) (Stop.cons (by decide))
  injection e with _ e
  have e : d.cpp E ++ (c!"'::`" ++ (nat n ++ (c!"'" ++ b))) = c!"anonymous namespace'" ++ a := e.symm
  rw [e] at ds
  rcases ds with h | h
  · simp at h
  · rw [firstWord_append (by decide)] at h
    exact absurd h (by decide +kernel)

theorem seg_not_segT {E : Env} {b : Text} (hE : E.flags = Flags.default) {key : Text} {s : Seg} (hs : s.plain key = true) {a : Text} (sa : SegStop a)
    {w : Text} {as : Args} (hw : ident w = true) (has : as.plain key = true)
    (rd : (∀ t bs, s = .tm t bs → ∀ x ∈ bs.toList, ArgRd E key x) ∨ ∀ x ∈ as.toList, ArgRd E key x) {r : Text} :
    s.cpp E ++ a ≠ (Seg.tm w as).cpp E ++ (c!"<" ++ r ++ b) := by
  intro e
  have q : ∀ {z : Text}, (Seg.tm w as).cpp E ++ (c!"<" ++ r ++ b) ≠ '`' :: z := by
    intro z; rw [Seg.cpp, List.append_assoc, List.append_assoc, List.append_assoc]; exact ident_quote hw
  cases s with
  | id v =>
    simp only [Seg.plain] at hs
    simp only [Seg.cpp, List.append_assoc] at e
    obtain ⟨h1, h2⟩ := word_read (ident_idc hs) (ident_idc hw) sa.1 (NI.cons (by decide)) e
    rw [h2] at sa; exact absurd rfl sa.2
  | tm v cs =>
    simp only [Seg.plain, Bool.and_eq_true] at hs
    simp only [Seg.cpp, List.append_assoc] at e
    obtain ⟨h1, h2⟩ := word_read (ident_idc hs.1) (ident_idc hw) (NI.cons (by decide)) (NI.cons (by decide)) e
    have h2 := List.append_cancel_left (as := c!"<") h2
    have h3 : a = c!"<" ++ (r ++ b) := by
      rcases rd with rd | rd
      · exact (args_read hE hs.2 has (rd v cs rfl) h2).2
      · exact (args_read hE has hs.2 rd h2.symm).2.symm
    rw [h3] at sa; exact absurd rfl sa.2
  | anon k => rw [show (Seg.anon k).cpp E = c!"`anonymous namespace'" by rw [Seg.cpp]] at e; exact q e.symm
  | loc n d => rw [show (Seg.loc n d).cpp E = c!"`" ++ (d.cpp E ++ c!"'::`" ++ nat n ++ c!"'") by rw [Seg.cpp]; simp only [List.append_assoc]] at e; exact q e.symm

theorem segT_rd {E : Env} (hE : E.flags = Flags.default) {key : Text} {w : Text} {as bs : Args} (hw : ident w = true) (has : as.plain key = true)
    (hbs : bs.plain key = true) (ra : ∀ x ∈ as.toList, ArgRd E key x) (rb : ∀ x ∈ bs.toList, ArgRd E key x) : NmRd E key (.segT w as bs) := by
  intro y hy a b sa sb e
  rw [Nm.cpp, List.append_assoc] at e
  have til : ∀ {r z : Text}, (Seg.tm w as).cpp E ++ r ≠ '~' :: z := by
    intro r z e
    obtain ⟨c, r, h1, h2⟩ := Seg.cpp_head (E := E) (key := key) (s := .tm w as) (by rw [Seg.plain, hw, has]; rfl)
    rw [h1] at e
    injection e with e _
    rw [e] at h2; exact absurd h2 (by decide)
  cases y with
  | op o => rw [Nm.cpp] at e; have := op_start o b; rw [← e] at this; exact absurd this (tm_not_op hw)
  | opT o cs => rw [Nm.cpp, List.append_assoc (opName o)] at e; have := op_start o (c!"<" ++ (join c!", " (cs.list E) ++ c!">") ++ b); rw [← e] at this; exact absurd this (tm_not_op hw)
  | lit t => rw [Nm.cpp] at e; have := lit_start t b; rw [← e] at this; exact absurd this (tm_not_op hw)
  | dtor t => exact absurd e til
  | dtorT w as bs => exact absurd e til
  | spc x => rw [Nm.cpp, List.append_assoc x.stem] at e; have := spc_start x (x.rest E ++ b); rw [← e] at this; exact absurd this (tm_not_op hw)
  | seg t =>
    rw [Nm.cpp] at e
    exact absurd e.symm (seg_not_segT hE hy sb hw has (.inr ra))
  | segT v cs ds =>
    simp only [Nm.plain, Bool.and_eq_true] at hy
    simp only [Nm.cpp, Seg.cpp, List.append_assoc] at e
    obtain ⟨h1, h2⟩ := word_read (ident_idc hw) (ident_idc hy.1.1) (NI.cons (by decide)) (NI.cons (by decide)) e
    have h2 := List.append_cancel_left (as := c!"<") h2
    obtain ⟨h3, h4⟩ := args_read hE has hy.1.2 ra h2
    have h4 := List.append_cancel_left (as := c!"<") h4
    obtain ⟨h5, h6⟩ := args_read hE hbs hy.2 rb h4
    rw [h1, h3, h5]; exact ⟨rfl, h6⟩

theorem dtorT_rd {E : Env} (hE : E.flags = Flags.default) {key : Text} {w : Text} {as bs : Args} (rd : NmRd E key (.segT w as bs)) :
    NmRd E key (.dtorT w as bs) := by
  intro y hy a b sa sb e
  have nt : ∀ {x : Nm}, x.plain key = true → (∀ s, x ≠ .dtor s) → (∀ w as bs, x ≠ .dtorT w as bs) → ∀ {a r}, x.cpp E ++ a ≠ '~' :: r := by
    intro x hx h1 h2 a r e
    cases x with
    | seg s =>
      obtain ⟨c, r, h1, h2⟩ := Seg.cpp_head (E := E) hx
      rw [Nm.cpp, h1] at e; injection e with e _; rw [e] at h2; exact absurd h2 (by decide)
    | op o =>
      obtain ⟨c, r, h1, h2⟩ := opName_start o (by simpa [Nm.plain] using hx)
      rw [Nm.cpp, h1] at e; injection e with e _; rw [e] at h2; exact absurd h2 (by decide)
    | opT o cs =>
      simp only [Nm.plain, Bool.and_eq_true] at hx
      obtain ⟨c, r, h1, h2⟩ := opName_start o (by simpa using hx.1)
      rw [Nm.cpp, h1] at e; injection e with e _; rw [e] at h2; exact absurd h2 (by decide)
    | lit t => simp [Nm.cpp] at e
    | dtor t => exact h1 t rfl
    | dtorT w as bs => exact h2 w as bs rfl
    | segT w as bs =>
      simp only [Nm.plain, Bool.and_eq_true] at hx
      obtain ⟨c, r, h1, h2⟩ := Seg.cpp_head (E := E) (key := key) (s := .tm w as) (by rw [Seg.plain, hx.1.1, hx.1.2]; rfl)
      rw [Nm.cpp, h1] at e; injection e with e _; rw [e] at h2; exact absurd h2 (by decide)
    | spc x => obtain ⟨r, hr⟩ := x.stem_head; simp [Nm.cpp, hr] at e
  rw [show (Nm.dtorT w as bs).cpp E = c!"~" ++ (Nm.segT w as bs).cpp E from rfl, List.append_assoc] at e
  cases y with
  | dtor t =>
    rw [show (Nm.dtor t).cpp E = c!"~" ++ (Nm.seg t).cpp E from rfl, List.append_assoc] at e
    have := (rd (.seg t) hy a b sa sb (List.append_cancel_left e)).1
    simp at this
  | dtorT v cs ds =>
    rw [show (Nm.dtorT v cs ds).cpp E = c!"~" ++ (Nm.segT v cs ds).cpp E from rfl, List.append_assoc] at e
    have h := rd (.segT v cs ds) hy a b sa sb (List.append_cancel_left e)
    have h1 := h.1
    simp only [Nm.segT.injEq] at h1
    rw [h1.1, h1.2.1, h1.2.2]; exact ⟨rfl, h.2⟩
  | _ => exact absurd e.symm (nt hy (by simp) (by simp))

theorem seg_rd {E : Env} (hE : E.flags = Flags.default) {key : Text} {s : Seg} (hs : s.plain key = true)
    (ha : ∀ t as, s = .tm t as → ∀ x ∈ as.toList, ArgRd E key x) (hd : ∀ n d, s = .loc n d → DeclRd E key d) : NmRd E key (.seg s) := by
  intro y hy a b sa sb e
  have sa : SegStop a := sa
  cases y with
  | op o => exact absurd e (seg_not_nm hE hs (by simp) (by simp) sa)
  | opT o as => exact absurd e (seg_not_nm hE hs (by simp) (by simp) sa)
  | dtorT w as bs => exact absurd e (seg_not_nm hE hs (by simp) (by simp) sa)
  | segT w as bs =>
    simp only [Nm.plain, Bool.and_eq_true] at hy
    rw [Nm.cpp, Nm.cpp, List.append_assoc (Seg.cpp E _)] at e
    exact absurd e (seg_not_segT hE hs sa hy.1.1 hy.1.2 (.inl ha))
  | lit t => exact absurd e (seg_not_nm hE hs (by simp) (by simp) sa)
  | dtor t => exact absurd e (seg_not_nm hE hs (by simp) (by simp) sa)
  | spc x => exact absurd e (seg_not_nm hE hs (by simp) (by simp) sa)
  | seg t =>
    have sb : SegStop b := sb
    suffices h : s = t ∧ a = b by rw [h.1]; exact ⟨rfl, h.2⟩
    simp only [Nm.cpp] at e
    simp only [Nm.plain] at hy
    have qt : ∀ {w c r : Text}, ident w = true → w ++ c ≠ '`' :: r := fun h => ident_quote h
    cases s with
    | id w =>
      simp only [Seg.plain] at hs
      cases t with
      | id w' =>
        simp only [Seg.plain] at hy
        rw [Seg.cpp, Seg.cpp] at e
        obtain ⟨h1, h2⟩ := word_read (ident_idc hs) (ident_idc hy) sa.1 sb.1 e
        rw [h1]; exact ⟨rfl, h2⟩
      | tm w' as =>
        simp only [Seg.plain, Bool.and_eq_true] at hy
        simp only [Seg.cpp, List.append_assoc] at e
        obtain ⟨h1, h2⟩ := word_read (ident_idc hs) (ident_idc hy.1) sa.1 (NI.cons (by decide)) e
        rw [h2] at sa; exact absurd rfl sa.2
      | anon k => rw [Seg.cpp, Seg.cpp] at e; exact absurd e (qt hs)
      | loc n d => simp only [Seg.cpp, List.append_assoc] at e; exact absurd e (qt hs)
    | tm w as =>
      have hs0 := hs
      simp only [Seg.plain, Bool.and_eq_true] at hs
      cases t with
      | id w' =>
        simp only [Seg.plain] at hy
        simp only [Seg.cpp, List.append_assoc] at e
        obtain ⟨h1, h2⟩ := word_read (ident_idc hs.1) (ident_idc hy) (NI.cons (by decide)) sb.1 e
        rw [← h2] at sb; exact absurd rfl sb.2
      | tm w' as' =>
        simp only [Seg.plain, Bool.and_eq_true] at hy
        simp only [Seg.cpp, List.append_assoc] at e
        obtain ⟨h1, h2⟩ := word_read (ident_idc hs.1) (ident_idc hy.1) (NI.cons (by decide)) (NI.cons (by decide)) e
        have h2 := List.append_cancel_left (as := c!"<") h2
        obtain ⟨h3, h4⟩ := args_read hE hs.2 hy.2 (ha w as rfl) h2
        rw [h1, h3]; exact ⟨rfl, h4⟩
      | anon k => simp only [Seg.cpp, List.append_assoc] at e; exact absurd e (qt hs.1)
      | loc n d => simp only [Seg.cpp, List.append_assoc] at e; exact absurd e (qt hs.1)
    | anon k =>
      cases t with
      | id w' => simp only [Seg.plain] at hy; rw [Seg.cpp, Seg.cpp] at e; exact absurd e.symm (qt hy)
      | tm w' as' =>
        simp only [Seg.plain, Bool.and_eq_true] at hy
        simp only [Seg.cpp, List.append_assoc] at e; exact absurd e.symm (qt hy.1)
      | anon k' =>
        simp [Seg.plain] at hs hy
        rw [hs, hy]
        rw [Seg.cpp, Seg.cpp] at e
        exact ⟨rfl, List.append_cancel_left e⟩
      | loc n d =>
        simp only [Seg.plain] at hy
        simp only [Seg.cpp, List.append_assoc] at e
        exact absurd e (anon_loc hE hy)
    | loc n d =>
      cases t with
      | id w' => simp only [Seg.plain] at hy; simp only [Seg.cpp, List.append_assoc] at e; exact absurd e.symm (qt hy)
      | tm w' as' =>
        simp only [Seg.plain, Bool.and_eq_true] at hy
        simp only [Seg.cpp, List.append_assoc] at e; exact absurd e.symm (qt hy.1)
      | anon k' =>
        simp only [Seg.plain] at hs
        simp only [Seg.cpp, List.append_assoc] at e
        exact absurd e.symm (anon_loc hE hs)
      | loc n' d' =>
        simp only [Seg.plain] at hs hy
        simp only [Seg.cpp, List.append_assoc, List.append_cancel_left_eq] at e
        obtain ⟨h1, e⟩ := hd n d rfl d' hy _ _ (Stop.cons (by decide)) (Stop.cons (by decide)) e
        have e := List.append_cancel_left (as := c!"'::`") e
        obtain ⟨h2, e⟩ := nat_read (NI.cons (by decide)) (NI.cons (by decide)) e
        rw [h1, h2]; exact ⟨rfl, by simpa using e⟩

/-! ### The induction -/

theorem nms_rd {E : Env} {key : Text} {p : Path} (h : ∀ s ∈ p.segs, NmRd E key (.seg s)) : NmsRd E key p.nms := by
  intro x hx
  simp only [Path.nms, List.mem_map, List.mem_reverse] at hx
  obtain ⟨s, hs, rfl⟩ := hx
  exact h s hs

/-- All parts of a function type are read back. -/
def SigParts (E : Env) (key : Text) : Sig → Prop
  | .mk _ ret ps _ _ => TyParts E key ret ∧ ParamsRd E key ps

section
variable {E : Env} (hE : E.flags = Flags.default) {key : Text}
include hE

mutual
theorem Ty.parts : ∀ t : Ty, t.plain key = true → TyParts E key t
  | .prim k c v, _ => ⟨by simp [Ty.bk, BK.Rd], by simp [Ty.lays], by simp [Ty.lays]⟩
  | .tag k p c v, h => by
    simp only [Ty.plain, Bool.and_eq_true] at h
    exact ⟨by rw [Ty.bk]; exact nms_rd (Path.rds p h.2), by simp [Ty.lays], by simp [Ty.lays]⟩
  | .ptr k u to, h => by
    simp only [Ty.plain, Bool.and_eq_true] at h
    obtain ⟨h1, h2, h3⟩ := Ty.parts to h.2
    refine ⟨by rw [Ty.bk]; exact h1, ?_, ?_⟩
    · intro l hl
      simp only [Ty.lays, List.mem_append, List.mem_singleton] at hl
      rcases hl with hl | rfl
      · exact h2 l hl
      · exact fun x hx => by simp [Path.nms, Path.segs] at hx
    · intro l hl
      simp only [Ty.lays, List.mem_append, List.mem_singleton] at hl
      rcases hl with hl | rfl
      · exact h3 l hl
      · trivial
  | .fptr k s, h => by
    rw [Ty.plain] at h
    have hs := Sig.rdParts s h
    obtain ⟨cc, ret, ps, va, ne⟩ := s
    obtain ⟨⟨h1, h2, h3⟩, hps⟩ := hs
    refine ⟨by rw [Ty.bk, Sig.bk]; exact h1, ?_, ?_⟩
    · intro l hl
      simp only [Ty.lays, Sig.lays, List.mem_append, List.mem_singleton] at hl
      rcases hl with hl | rfl
      · exact h2 l hl
      · exact fun x hx => by simp [Path.nms, Path.segs] at hx
    · intro l hl
      simp only [Ty.lays, Sig.lays, List.mem_append, List.mem_singleton] at hl
      rcases hl with hl | rfl
      · exact h3 l hl
      · exact hps
  | .aptr k c v dims el, h => by
    simp only [Ty.plain, Bool.and_eq_true] at h
    obtain ⟨h1, h2, h3⟩ := Ty.parts el h.2
    refine ⟨by rw [Ty.bk]; exact h1, ?_, ?_⟩
    · intro l hl
      simp only [Ty.lays, List.mem_append, List.mem_singleton] at hl
      rcases hl with hl | rfl
      · exact h2 l hl
      · exact fun x hx => by simp [Path.nms, Path.segs] at hx
    · intro l hl
      simp only [Ty.lays, List.mem_append, List.mem_singleton] at hl
      rcases hl with hl | rfl
      · exact h3 l hl
      · trivial
  | .mptr k u cls to, h => by
    simp only [Ty.plain, Bool.and_eq_true] at h
    obtain ⟨h1, h2, h3⟩ := Ty.parts to h.2
    refine ⟨by rw [Ty.bk]; exact h1, ?_, ?_⟩
    · intro l hl
      simp only [Ty.lays, List.mem_append, List.mem_singleton] at hl
      rcases hl with hl | rfl
      · exact h2 l hl
      · exact nms_rd (Path.rds cls h.1.1.2)
    · intro l hl
      simp only [Ty.lays, List.mem_append, List.mem_singleton] at hl
      rcases hl with hl | rfl
      · exact h3 l hl
      · trivial
  | .mfptr k cls q s, h => by
    simp only [Ty.plain, Bool.and_eq_true] at h
    have hs := Sig.rdParts s h.2
    obtain ⟨cc, ret, ps, va, ne⟩ := s
    obtain ⟨⟨h1, h2, h3⟩, hps⟩ := hs
    refine ⟨by rw [Ty.bk, Sig.bk]; exact h1, ?_, ?_⟩
    · intro l hl
      simp only [Ty.lays, Sig.lays, List.mem_append, List.mem_singleton] at hl
      rcases hl with hl | rfl
      · exact h2 l hl
      · exact nms_rd (Path.rds cls h.1.2)
    · intro l hl
      simp only [Ty.lays, Sig.lays, List.mem_append, List.mem_singleton] at hl
      rcases hl with hl | rfl
      · exact h3 l hl
      · exact hps
theorem Sig.rdParts : ∀ s : Sig, s.plain key = true → SigParts E key s
  | .mk cc ret ps va ne, h => by
    simp only [Sig.plain, Bool.and_eq_true] at h
    exact ⟨Ty.parts ret h.1.2, params_read hE h.2 (Tys.rds ps h.2)⟩
theorem Tys.rds : ∀ ts : Tys, ts.plain key = true → ∀ t ∈ ts.toList, TyParts E key t
  | .nil, _, t, ht => by simp [Tys.toList] at ht
  | .cons s p, h, t, ht => by
    simp only [Tys.plain, Bool.and_eq_true] at h
    simp only [Tys.toList, List.mem_cons] at ht
    rcases ht with ht | ht
    · rw [ht]; exact Ty.parts s h.1.2
    · exact Tys.rds p h.2 t ht
theorem Path.rds : ∀ p : Path, p.plain key = true → ∀ s ∈ p.segs, NmRd E key (.seg s)
  | .nil, _, s, hs => by simp [Path.segs] at hs
  | .cons s p, h, t, ht => by
    simp only [Path.plain, Bool.and_eq_true] at h
    simp only [Path.segs, List.mem_cons] at ht
    rcases ht with ht | ht
    · rw [ht]; exact Seg.rd s h.1
    · exact Path.rds p h.2 t ht
theorem Seg.rd : ∀ s : Seg, s.plain key = true → NmRd E key (.seg s)
  | .id s, h => seg_rd hE h (by simp) (by simp)
  | .tm s as, h => by
    have h1 := h
    simp only [Seg.plain, Bool.and_eq_true] at h1
    have h2 := Args.rds as h1.2
    exact seg_rd hE h (fun t bs e => by injection e with _ e; rw [← e]; exact h2) (by simp)
  | .anon k, h => seg_rd hE h (by simp) (by simp)
  | .loc n d, h => by
    have h1 := h
    simp only [Seg.plain] at h1
    have h2 := decl_read hE h1 (Decl.rd d h1)
    exact seg_rd hE h (by simp) (fun m c e => by injection e with _ e; rw [← e]; exact h2)
theorem Args.rds : ∀ as : Args, as.plain key = true → ∀ x ∈ as.toList, ArgRd E key x
  | .nil, _, x, hx => by simp [Args.toList] at hx
  | .ty t as, h, x, hx => by
    rw [Args.plain, Bool.and_eq_true] at h
    simp only [Args.toList, List.mem_cons] at hx
    rcases hx with hx | hx
    · rw [hx]; exact arg_read hE h.1 (Ty.parts t h.1)
    · exact Args.rds as h.2 x hx
  | .int neg n as, h, x, hx => by
    rw [Args.plain] at h
    simp only [Args.toList, List.mem_cons] at hx
    rcases hx with hx | hx
    · rw [hx]; exact arg_read hE rfl trivial
    · exact Args.rds as h x hx
  | .pack as, h, x, hx => by simp [Args.plain] at h
  | .fn s as, h, x, hx => by
    rw [Args.plain, Bool.and_eq_true] at h
    simp only [Args.toList, List.mem_cons] at hx
    rcases hx with hx | hx
    · rw [hx]
      have h1 := Sig.rdParts s h.1
      exact arg_read hE h.1 (by cases s; exact h1)
    · exact Args.rds as h.2 x hx
  | .mfn q s as, h, x, hx => by
    rw [Args.plain, Bool.and_eq_true] at h
    simp only [Args.toList, List.mem_cons] at hx
    rcases hx with hx | hx
    · rw [hx]
      have h1 := h.1
      simp only [Bool.and_eq_true] at h1
      have h2 := Sig.rdParts s h1.2
      exact arg_read hE h.1 (by cases s; exact h2)
    · exact Args.rds as h.2 x hx
  | .arr c v dims el as, h, x, hx => by
    rw [Args.plain, Bool.and_eq_true] at h
    simp only [Args.toList, List.mem_cons] at hx
    rcases hx with hx | hx
    · rw [hx]
      have h1 := h.1
      simp only [Bool.and_eq_true] at h1
      exact arg_read hE h.1 (Ty.parts el h1.2)
    · exact Args.rds as h.2 x hx
  | .tmpl p as, h, x, hx => by
    rw [Args.plain, Bool.and_eq_true] at h
    simp only [Args.toList, List.mem_cons] at hx
    rcases hx with hx | hx
    · rw [hx]
      have h1 := h.1
      simp only [Bool.and_eq_true] at h1
      exact arg_read hE h.1 (nms_rd (Path.rds p h1.2))
    · exact Args.rds as h.2 x hx
  | .addr d as, h, x, hx => by
    rw [Args.plain, Bool.and_eq_true] at h
    simp only [Args.toList, List.mem_cons] at hx
    rcases hx with hx | hx
    · rw [hx]; exact arg_read hE h.1 (decl_read hE h.1 (Decl.rd d h.1))
    · exact Args.rds as h.2 x hx
  | .ref d as, h, x, hx => by
    rw [Args.plain, Bool.and_eq_true] at h
    simp only [Args.toList, List.mem_cons] at hx
    rcases hx with hx | hx
    · rw [hx]; exact arg_read hE h.1 (Decl.rd d h.1)
    · exact Args.rds as h.2 x hx
  | .memFn d offs as, h, x, hx => by
    rw [Args.plain, Bool.and_eq_true] at h
    simp only [Args.toList, List.mem_cons] at hx
    rcases hx with hx | hx
    · rw [hx]
      have h1 := h.1
      simp only [Bool.and_eq_true] at h1
      exact arg_read hE h.1 (decl_read hE h1.2 (Decl.rd d h1.2))
    · exact Args.rds as h.2 x hx
  | .memData offs as, h, x, hx => by
    rw [Args.plain, Bool.and_eq_true] at h
    simp only [Args.toList, List.mem_cons] at hx
    rcases hx with hx | hx
    · rw [hx]; exact arg_read hE h.1 trivial
    · exact Args.rds as h.2 x hx
theorem Head.rd : ∀ h : Head, h.plain key = true → NmRd E key h.nm
  | .id s, h => seg_rd hE (s := .id s) (by simpa only [Head.plain, Seg.plain] using h) (by simp) (by simp)
  | .tm s as, h => seg_rd hE (s := .tm s as) (by simpa only [Head.plain, Seg.plain] using h) (fun t bs e => by
      simp only [Head.plain, Bool.and_eq_true] at h
      have h := Args.rds as h.2
      injection e with _ e; rw [← e]; exact h) (by simp)
  | .op o .none, h => op_rd hE o
  | .op o (.some as), h => by
    simp only [Head.plain, Targs.plain, Bool.and_eq_true] at h
    exact opT_rd hE o h.2 (Args.rds as h.2)
  | .lit s, h => by
    simp only [Head.plain, Bool.and_eq_true] at h
    exact lit_rd hE h.2
theorem Targs.rds : ∀ ta : Targs, ta.plain key = true → ∀ bs, ta = .some bs → bs.plain key = true ∧ ∀ x ∈ bs.toList, ArgRd E key x
  | .none, _, _, e => by simp at e
  | .some as, h, bs, e => by
    simp only [Targs.plain] at h
    have h2 := Args.rds as h
    injection e with e; rw [← e]; exact ⟨h, h2⟩
theorem Seg.targs : ∀ s : Seg, s.plain key = true → ∀ w as, s = .tm w as → ∀ x ∈ as.toList, ArgRd E key x
  | .tm w as, h, w', bs, e => by
    simp only [Seg.plain, Bool.and_eq_true] at h
    have h2 := Args.rds as h.2
    injection e with _ e; rw [← e]; exact h2
  | .id _, _, _, _, e => by simp at e
  | .anon _, _, _, _, e => by simp at e
  | .loc .., _, _, _, e => by simp at e
theorem Decl.rd : ∀ d : Decl, d.plain key = true → d.phrase.Rd E key
  | .var st name scope ty, h => by
    simp only [Decl.plain, Bool.and_eq_true] at h
    refine ⟨Ty.parts ty h.2, nms_rd fun s hs => ?_⟩
    simp only [Path.segs, List.mem_cons] at hs
    rcases hs with rfl | hs
    · have := Head.rd name h.1.1.2
      cases name <;> simp [Head.isName] at h <;> exact this
    · exact Path.rds scope h.1.2 s hs
  | .fn k name scope s, h => by
    simp only [Decl.plain, Bool.and_eq_true] at h
    have hs := Sig.rdParts s h.2
    have hn := Head.rd name h.1.1
    have hsc := Path.rds scope h.1.2
    obtain ⟨cc, ret, ps, va, ne⟩ := s
    refine ⟨hs.1, ?_, hs.2, by simp⟩
    intro x hx
    simp only [List.mem_append, List.mem_singleton] at hx
    rcases hx with hx | rfl
    · exact nms_rd hsc x hx
    · exact hn
  | .structor dt targs k s scope cc ps va ne, h => by
    simp only [Decl.plain, Bool.and_eq_true] at h
    refine ⟨?_, params_read hE h.2 (Tys.rds ps h.2), by simp⟩
    intro x hx
    simp only [List.mem_append, List.mem_singleton] at hx
    rcases hx with (hx | rfl) | rfl
    · exact nms_rd (Path.rds scope h.1.1.2) x hx
    · exact Seg.rd s h.1.1.1.2
    · have h1 := Seg.rd s h.1.1.1.2
      have h2 := Targs.rds targs h.1.1.1.1.1
      have h3 := Seg.targs s h.1.1.1.2
      have h4 := h.1.1.1.1.2
      have h5 := h.1.1.1.2
      cases targs with
      | none =>
        cases dt
        · exact h1
        · exact dtor_rd hE h1
      | some bs =>
        obtain ⟨h6, h7⟩ := h2 bs rfl
        cases s with
        | id w =>
          simp only [Seg.plain] at h5
          have h8 := seg_rd hE (key := key) (s := .tm w bs) (by rw [Seg.plain, h5, h6]; rfl) (fun t cs e => by injection e with _ e; rw [← e]; exact h7) (by simp)
          cases dt
          · exact h8
          · exact dtor_rd hE h8
        | tm w as =>
          simp only [Seg.plain, Bool.and_eq_true] at h5
          have h8 := segT_rd hE h5.1 h5.2 h6 (h3 w as rfl) h7
          cases dt
          · exact h8
          · exact dtorT_rd hE h8
        | anon | loc => simp [Targs.isNone, Seg.isNamed] at h4
  | .conv targs k cls s, h => by
    simp only [Decl.plain, Bool.and_eq_true] at h
    have hs := Sig.rdParts s h.2
    have hc := Path.rds cls h.1.2
    have ht := Targs.rds targs h.1.1.1.1
    have h1 := h.1.1.1.1
    obtain ⟨cc, ret, ps, va, ne⟩ := s
    refine ⟨hs.1, fun x hx => nms_rd hc x hx, hs.2, ?_⟩
    intro ta e
    have e : targs = ta := by injection e
    rw [← e]; exact targs_read hE h1 ht
end

theorem Decl.cpp_inj {d d' : Decl} (h : d.plain key = true) (h' : d'.plain key = true) (e : d.cpp E = d'.cpp E) : d = d' :=
  (decl_read hE h (Decl.rd hE d h) d' h' [] [] (by simp [Stop]) (by simp [Stop]) (by rw [e])).1

theorem Ty.cpp_inj {t t' : Ty} (h : t.plain key = true) (h' : t'.plain key = true) (e : t.cpp E = t'.cpp E) : t = t' :=
  (ty_read hE h h' (Ty.parts hE t h) (a := []) (b := []) (by simp [Stop]) (by simp [Stop]) (by rw [e])).1

theorem Seg.cpp_inj {s s' : Seg} (h : s.plain key = true) (h' : s'.plain key = true) (e : s.cpp E = s'.cpp E) : s = s' := by
  have := (Seg.rd hE s h (.seg s') h' [] [] ⟨NI.nil, by simp⟩ ⟨NI.nil, by simp⟩ (by simp only [Nm.cpp]; rw [e])).1
  injection this

end

end Undname.Spec.Cxx
