/-
  How types, declarations and template arguments start; conversions and the names of operators.
-/
import Verif.Proof.ReadTyped

namespace Undname.Spec.Cxx

/-! ### How texts start -/

def startWords : List Text :=
  allPrims.map primName ++ allTags.map (fun k => tagName k ++ c!" ") ++
    [c!"[thunk]: ", c!"extern \"C\" ", c!"private: ", c!"protected: ", c!"public: "] ++ convLetters.map cword

def Start (X : Text) : Prop := ∃ w ∈ startWords, ∃ r, X = w ++ r

theorem Start.ext {X : Text} (h : Start X) (r : Text) : Start (X ++ r) := by
  obtain ⟨w, hw, s, rfl⟩ := h
  exact ⟨w, hw, s ++ r, List.append_assoc ..⟩

theorem start_table : ∀ w ∈ startWords, (decide (3 ≤ w.length) && !([c!"adj", c!"vto", c!"new", c!"del", c!"co_"].contains (w.take 3)) &&
    !(['<', '=', '(', ':', '`', '"', '*', '&', ' ', '>'].contains (w.headD ' '))) = true := by decide +kernel

theorem Start.facts {X : Text} (h : Start X) : X.take 3 ∉ [c!"adj", c!"vto", c!"new", c!"del", c!"co_"] ∧
    ∃ c r, X = c :: r ∧ c ∉ ['<', '=', '(', ':', '`', '"', '*', '&', ' ', '>'] := by
  obtain ⟨w, hw, r, rfl⟩ := h
  have := start_table w hw
  simp only [Bool.and_eq_true, decide_eq_true_eq, Bool.not_eq_true'] at this
  obtain ⟨⟨h1, h2⟩, h3⟩ := this
  refine ⟨?_, ?_⟩
  · rw [List.take_append_of_le_length h1]
    intro h
    rw [← List.contains_iff_mem] at h
    rw [h] at h2; simp at h2
  · cases w with
    | nil => simp at h1
    | cons c w =>
      refine ⟨c, w ++ r, rfl, fun h => ?_⟩
      rw [← List.contains_iff_mem] at h
      simp only [List.headD_cons] at h3
      rw [h] at h3; simp at h3

section
variable {E : Env} (hE : E.flags = Flags.default)
include hE

theorem Ty.left_start : ∀ t : Ty, Start (t.left E)
  | .prim k c v => by
    rw [Ty.left]
    exact Start.ext ⟨primName k, by simp only [startWords, List.mem_append]; exact .inl (.inl (.inl (List.mem_map_of_mem (mem_prims k)))), [], by simp⟩ _
  | .tag k p c v => by
    rw [Ty.left, dflt_tag hE, part_yes]
    exact .ext (.ext ⟨tagName k ++ c!" ", by simp only [startWords, List.mem_append]; exact .inl (.inl (.inr (List.mem_map.mpr ⟨k, mem_tags k, rfl⟩))), [], by simp⟩ _) _
  | .ptr k u to => by rw [Ty.left, sp_eq]; exact (((Ty.left_start to).ext _).ext _).ext _
  | .fptr k (.mk cc ret ps va ne) => by
    rw [Ty.left, Sig.left, dflt_ptrRet hE, part_yes]
    exact ((((Ty.left_start ret).ext _).ext _).ext _).ext _
  | .aptr k c v dims el => by rw [Ty.left, sp_eq]; exact ((((Ty.left_start el).ext _).ext _).ext _).ext _
  | .mptr k u cls to => by rw [Ty.left, sp_eq]; exact (((((Ty.left_start to).ext _).ext _).ext _).ext _).ext _
  | .mfptr k cls q (.mk cc ret ps va ne) => by
    rw [Ty.left, Sig.left, dflt_ptrRet hE, part_yes]
    exact ((((((Ty.left_start ret).ext _).ext _).ext _).ext _).ext _).ext _

theorem Ty.cpp_start (t : Ty) : Start (t.cpp E) := (Ty.left_start hE t).ext _

theorem access_start (a : Access) : Start (accessName a) := by
  refine ⟨accessName a, ?_, [], by simp⟩
  have : ∀ a ∈ [Access.priv, .prot, .publ], accessName a ∈ startWords := by decide +kernel
  exact this a (by cases a <;> simp)

theorem Kind.start (k : Kind) {X : Text} (h : Start X) : Start (k.cpp E ++ X) := by
  have ac := dflt_access hE
  have th : Start (c!"[thunk]: ") := ⟨c!"[thunk]: ", by simp [startWords], [], by simp⟩
  cases k with
  | free b =>
    cases b
    · simpa [Kind.cpp, part, dflt_member hE] using h
    · refine Start.ext ⟨c!"extern \"C\" ", by simp [startWords], [], ?_⟩ _
      simp [Kind.cpp, part, dflt_member hE]
  | static a => rw [Kind.cpp, ac, part_yes]; exact ((access_start hE a).ext _).ext _
  | member a v q => rw [Kind.cpp, ac, part_yes]; exact ((access_start hE a).ext _).ext _
  | thunk a adj q =>
    have : ∃ r, Kind.cpp E (.thunk a adj q) = c!"[thunk]: " ++ r := by
      rw [Kind.cpp, dflt_name hE]
      exact ⟨_, rfl⟩
    obtain ⟨r, hr⟩ := this
    rw [hr]; exact (th.ext _).ext _

theorem Decl.cpp_start {key : Text} (d : Decl) (h : d.plain key = true) : Start (d.cpp E) := by
  cases d with
  | var st name scope ty =>
    rw [Decl.cpp, dflt_varType hE, if_pos rfl, sp_eq]
    have hs := (((Ty.left_start hE ty).ext (blank E (ty.left E))).ext (showPath (name.cpp E :: scope.names E))).ext (ty.right E)
    cases st with
    | member a => rw [Storage.cpp, dflt_access hE, part_yes]; exact ((access_start hE a).ext _).ext _
    | _ => exact hs
  | fn k name scope s =>
    cases s with
    | mk cc ret ps va ne =>
      rw [Decl.cpp, Sig.ret, dflt_ret hE, part_yes]
      simp only [List.append_assoc]
      exact Kind.start hE k ((Ty.left_start hE ret).ext _)
  | structor dt targs k s scope cc ps va ne =>
    simp only [Decl.plain, Bool.and_eq_true] at h
    rw [Decl.cpp, dflt_conv hE, part_yes, dflt_convCpp hE]
    simp only [List.append_assoc]
    refine Kind.start hE k (Start.ext ⟨cword cc, ?_, [], by rw [List.append_nil]; rfl⟩ _)
    simp only [startWords, List.mem_append]
    exact .inr (List.mem_map_of_mem (by simpa using h.1.2))
  | conv targs k cls s =>
    cases s with
    | mk cc ret ps va ne =>
      rw [Decl.cpp, Sig.ret, dflt_ret hE, part_yes]
      simp only [List.append_assoc]
      exact Kind.start hE k ((Ty.left_start hE ret).ext _)

end

/-! ### Template arguments -/

/-- How lists of template arguments do not start. -/
def ArgsHead (X : Text) : Prop := X.head? ∉ [some '<', some '=', some '(', some ':'] ∧ X.take 4 ∉ [c!"`adj", c!"`vto"]

theorem ArgsHead.of_char {c : Char} {r : Text} (h : c ∉ ['<', '=', '(', ':', '`']) : ArgsHead (c :: r) := by
  simp at h
  refine ⟨by simp [h], ?_⟩
  simp [h]

theorem Start.args {X : Text} (h : Start X) : ArgsHead X := by
  obtain ⟨-, c, r, rfl, h'⟩ := h.facts
  exact .of_char fun hm => h' (by simp at hm ⊢; rcases hm with rfl | rfl | rfl | rfl | rfl <;> simp)

theorem idc_args {w : Text} (h : ident w = true) (r : Text) : ArgsHead (w ++ r) := by
  cases w with
  | nil => exact absurd rfl (ident_ne h)
  | cons d w =>
    have hd := ident_idc h d (by simp)
    refine .of_char fun hm => ?_
    simp at hm
    rcases hm with rfl | rfl | rfl | rfl | rfl <;> revert hd <;> decide

theorem Seg.args {E : Env} (hE : E.flags = Flags.default) {key : Text} {s : Seg} (hs : s.plain key = true) (r : Text) : ArgsHead (s.cpp E ++ r) := by
  cases s with
  | id w => simp only [Seg.plain] at hs; rw [Seg.cpp]; exact idc_args hs _
  | tm w as =>
    simp only [Seg.plain, Bool.and_eq_true] at hs
    rw [Seg.cpp, List.append_assoc, List.append_assoc, List.append_assoc]; exact idc_args hs.1 _
  | anon k => rw [Seg.cpp]; exact ⟨by simp, by simp⟩
  | loc n d =>
    simp only [Seg.plain] at hs
    have ds := ((Decl.cpp_start hE d hs).ext (c!"'::`" ++ (nat n ++ (c!"'" ++ r)))).facts.1
    simp only [Seg.cpp, List.append_assoc]
    refine ⟨by simp, fun hm => ds ?_⟩
    simp at hm ⊢
    rcases hm with h | h <;> simp [h]

theorem nat_args (n : Nat) (r : Text) : ArgsHead (nat n ++ r) := by
  have := nat_idc n
  have hn := nat_ne n
  cases hx : nat n with
  | nil => exact absurd hx hn
  | cons d w =>
    have hd := this d (by rw [hx]; simp)
    refine .of_char fun hm => ?_
    simp at hm
    rcases hm with rfl | rfl | rfl | rfl | rfl <;> revert hd <;> decide

theorem join_first (sep x : Text) (l : List Text) : ∃ r, join sep (x :: l) = x ++ r := by
  cases l with
  | nil => exact ⟨[], by simp [join]⟩
  | cons y l => exact ⟨sep ++ join sep (y :: l), by rw [join]; simp [List.append_assoc]; simp⟩

theorem args_head {E : Env} (hE : E.flags = Flags.default) {key : Text} {as : Args} (h : as.plain key = true) {b : Text} :
    ArgsHead (join c!", " (as.list E) ++ '>' :: b) := by
  have jc := fun (x : Text) (l : List Text) => join_first c!", " x l
  cases as with
  | nil => rw [Args.list]; exact .of_char (by decide)
  | pack as => simp [Args.plain] at h
  | ty t as =>
    obtain ⟨z, hz⟩ := jc _ (Args.list E as); rw [Args.list, hz, List.append_assoc, List.append_assoc]
    exact ((Ty.left_start hE t).ext _).args
  | int neg n as =>
    obtain ⟨z, hz⟩ := jc _ (Args.list E as); rw [Args.list, hz, List.append_assoc, List.append_assoc]
    cases neg
    · exact nat_args n _
    · exact .of_char (by decide)
  | fn s as =>
    cases s with
    | mk cc ret ps va ne =>
      obtain ⟨z, hz⟩ := jc _ (Args.list E as); rw [Args.list, hz, Sig.type, dflt_ret hE, part_yes]
      simp only [List.append_assoc]
      exact ((Ty.left_start hE ret).ext _).args
  | mfn q s as =>
    cases s with
    | mk cc ret ps va ne =>
      obtain ⟨z, hz⟩ := jc _ (Args.list E as); rw [Args.list, hz, Sig.type, dflt_ret hE, part_yes]
      simp only [List.append_assoc]
      exact ((Ty.left_start hE ret).ext _).args
  | arr c v dims el as =>
    obtain ⟨z, hz⟩ := jc _ (Args.list E as); rw [Args.list, hz]
    simp only [List.append_assoc]
    exact ((Ty.left_start hE el).ext _).args
  | tmpl p as =>
    rw [Args.plain, Bool.and_eq_true, Bool.and_eq_true, Bool.not_eq_true'] at h
    have hn := Path.plain_nms h.1.2
    have hne := Path.nms_ne h.1.1
    obtain ⟨z, hz⟩ := jc _ (Args.list E as); rw [Args.list, hz, Path.text_eq]
    cases hm : p.nms with
    | nil => exact absurd hm hne
    | cons y m =>
      have hy : ∃ s, y = .seg s := by
        have : y ∈ p.nms := by rw [hm]; simp
        simp only [Path.nms, List.mem_map] at this
        obtain ⟨s, -, rfl⟩ := this
        exact ⟨s, rfl⟩
      obtain ⟨s, rfl⟩ := hy
      rw [nmText, join_cons, List.append_assoc, List.append_assoc]
      exact Seg.args hE (hn (.seg s) (by rw [hm]; simp)) _
  | addr d as => obtain ⟨z, hz⟩ := jc _ (Args.list E as); rw [Args.list, hz]; exact .of_char (by decide)
  | ref d as =>
    rw [Args.plain, Bool.and_eq_true] at h
    obtain ⟨z, hz⟩ := jc _ (Args.list E as); rw [Args.list, hz, List.append_assoc]
    exact ((Decl.cpp_start hE d h.1).ext _).args
  | memFn d offs as => obtain ⟨z, hz⟩ := jc _ (Args.list E as); rw [Args.list, hz]; exact .of_char (by decide)
  | memData offs as => obtain ⟨z, hz⟩ := jc _ (Args.list E as); rw [Args.list, hz]; exact .of_char (by decide)

/-! ### Operators -/

def allOps : List IFK :=
  [.New, .Delete, .Assign, .RightShift, .LeftShift, .LogicalNot, .Equals, .NotEquals, .ArraySubscript, .Pointer, .Dereference, .Increment,
   .Decrement, .Minus, .Plus, .BitwiseAnd, .MemberPointer, .Divide, .Modulus, .LessThan, .LessThanEqual, .GreaterThan, .GreaterThanEqual, .Comma,
   .Parens, .BitwiseNot, .BitwiseXor, .BitwiseOr, .LogicalAnd, .LogicalOr, .TimesEqual, .PlusEqual, .MinusEqual, .DivEqual, .ModEqual, .RshEqual,
   .LshEqual, .BitwiseAndEqual, .BitwiseOrEqual, .BitwiseXorEqual, .VbaseDtor, .VecDelDtor, .DefaultCtorClosure, .ScalarDelDtor, .VecCtorIter,
   .VecDtorIter, .VecVbaseCtorIter, .VdispMap, .EHVecCtorIter, .EHVecDtorIter, .EHVecVbaseCtorIter, .CopyCtorClosure, .LocalVftableCtorClosure,
   .ArrayNew, .ArrayDelete, .ManVectorCtorIter, .ManVectorDtorIter, .EHVectorCopyCtorIter, .EHVectorVbaseCopyCtorIter, .VectorCopyCtorIter,
   .VectorVbaseCopyCtorIter, .ManVectorVbaseCopyCtorIter, .CoAwait, .Spaceship]
theorem mem_ops (o : IFK) : o ∈ allOps := by cases o <;> decide

theorem op_lit : ∀ o ∈ allOps, ¬opName o <+: c!"operator \"\"" ∧ ¬c!"operator \"\"" <+: opName o := by decide +kernel
theorem op_table2 : ∀ o ∈ allOps, ∀ o' ∈ allOps, opName o <+: opName o' → o = o' ∨
    (((opName o').drop (opName o).length).head?.any (fun c => c ≠ '(' && c ≠ '`' && c ≠ ':' && c ≠ '<') = true ∨
      ((opName o').drop (opName o).length) = c!"<" ∨ (((opName o').drop (opName o).length).drop 1).head? = some '=') := by decide +kernel

/-! ### Conversions -/

/-- The last part of the name of a conversion to a type with text `P`. -/
def convName (E : Env) (ta : Targs) (P : Text) : Text := c!"operator" ++ (ta.cpp E ++ (c!" " ++ P))

theorem op_conv : ∀ o ∈ allOps, (opName o).head? = some '`' ∨ opName o = [] ∨ ∃ s, opName o = c!"operator" ++ s ∧
    (s.head? = some ' ' ∧ (s.drop 1).take 3 ∈ [c!"new", c!"del", c!"co_"] ∨ s = c!"<" ∨ (s.head? = some '<' ∧ (s.drop 1).head? ∈ [some '<', some '=']) ∨
      s.head? ∉ [some ' ', some '<', none]) := by
  have : ∀ o ∈ allOps, (opName o).head? = some '`' ∨ opName o = [] ∨ (opName o = c!"operator" ++ (opName o).drop 8 ∧
    (((opName o).drop 8).head? = some ' ' ∧ (((opName o).drop 8).drop 1).take 3 ∈ [c!"new", c!"del", c!"co_"] ∨ ((opName o).drop 8) = c!"<" ∨
     (((opName o).drop 8).head? = some '<' ∧ (((opName o).drop 8).drop 1).head? ∈ [some '<', some '=']) ∨
      ((opName o).drop 8).head? ∉ [some ' ', some '<', none])) := by decide +kernel
  intro o ho
  rcases this o ho with h | h | h
  · exact .inl h
  · exact .inr (.inl h)
  · exact .inr (.inr ⟨_, h⟩)

theorem Targs.ni (E : Env) (ta : Targs) (X : Text) : NI (ta.cpp E ++ ' ' :: X) := by
  cases ta with
  | none => rw [Targs.cpp]; exact NI.cons (by decide)
  | some as => rw [Targs.cpp, List.append_assoc, List.append_assoc]; exact NI.cons (by decide)

/-- What follows `operator` in a conversion. -/
theorem conv_tail {E : Env} (hE : E.flags = Flags.default) {key : Text} {ta : Targs} (h : ta.plain key = true) {P : Text} (hP : Start P) (a : Text) :
    (∃ X, ta.cpp E ++ ' ' :: (P ++ a) = ' ' :: X ∧ X.take 3 ∉ [c!"new", c!"del", c!"co_"] ∧ X.head? ≠ some '"') ∨
    ∃ X, ta.cpp E ++ ' ' :: (P ++ a) = '<' :: X ∧ ArgsHead X := by
  cases ta with
  | none =>
    obtain ⟨h1, c, r, h2, h3⟩ := (hP.ext a).facts
    refine .inl ⟨_, by rw [Targs.cpp]; rfl, fun h => h1 ?_, ?_⟩
    · simp at h ⊢; rcases h with h | h | h <;> simp [h]
    · rw [h2]; simp at h3 ⊢; exact h3.2.2.2.2.2.1
  | some as =>
    refine .inr ⟨join c!", " (as.list E) ++ '>' :: ' ' :: (P ++ a), ?_, args_head hE h⟩
    rw [Targs.cpp]; simp

theorem op_ne_conv {E : Env} (hE : E.flags = Flags.default) {key : Text} {ta : Targs} (h : ta.plain key = true) {P : Text} (hP : Start P) {a : Text}
    {o : IFK} (ho : opName o ≠ []) {r : Text} (hr : (r.head? ∈ [some '(', some ':'] ∨ r.take 4 ∈ [c!"`adj", c!"`vto"]) ∨ ∃ X, r = '<' :: X)
    (e : convName E ta P ++ a = opName o ++ r) : False := by
  rw [convName] at e
  simp only [List.append_assoc] at e
  rcases op_conv o (mem_ops o) with h1 | h1 | ⟨s, hs, h1⟩
  · cases ho' : opName o with
    | nil => exact ho ho'
    | cons c w => rw [ho'] at h1 e; simp at h1; subst h1; simp at e
  · exact ho h1
  · rw [hs, List.append_assoc] at e
    have e := List.append_cancel_left e
    have e : ta.cpp E ++ ' ' :: (P ++ a) = s ++ r := e
    rcases conv_tail hE h hP a with ⟨X, hX, n3, -⟩ | ⟨X, hX, n1, n2⟩
    · rw [hX] at e
      rcases h1 with ⟨h1, h2⟩ | rfl | ⟨h1, -⟩ | h1
      · cases s with
        | nil => simp at h1
        | cons c s =>
          simp at h1; subst h1
          injection e with _ e
          have e : X = s ++ r := e
          rw [List.drop_succ_cons, List.drop_zero] at h2
          have : X.take 3 = s.take 3 := by
            rw [e, List.take_append_of_le_length]
            refine Nat.le_of_not_lt fun hl => ?_
            have hk : (s.take 3).length = 3 := by
              simp only [List.mem_cons, List.not_mem_nil, or_false] at h2
              rcases h2 with h | h | h <;> rw [h] <;> rfl
            rw [List.length_take] at hk; omega
          rw [this] at n3; exact n3 h2
      · simp at e
      · cases s with
        | nil => simp at h1
        | cons c s => simp at h1; subst h1; simp at e
      · cases s with
        | nil => simp at h1
        | cons c s => simp at h1 e; exact h1.1 e.1.symm
    · rw [hX] at e
      rcases h1 with ⟨h1, -⟩ | rfl | ⟨h1, h2⟩ | h1
      · cases s with
        | nil => simp at h1
        | cons c s => simp at h1; subst h1; simp at e
      · injection e with _ e
        have e : X = r := e
        subst e
        rcases hr with (hr | hr) | ⟨Y, rfl⟩
        · exact n1 (by simp only [List.mem_cons, List.not_mem_nil, or_false] at hr ⊢; rcases hr with h | h <;> simp [h])
        · exact n2 hr
        · exact n1 (by simp)
      · match s, h1, h2 with
        | c :: d :: s, h1, h2 =>
          simp at h1; subst h1
          injection e with _ e
          rw [e] at n1
          simp at h2 n1
          rcases h2 with rfl | rfl
          · exact n1.1 rfl
          · exact n1.2.1 rfl
      · cases s with
        | nil => simp at h1
        | cons c s => simp at h1 e; exact h1.2 e.1.symm

/-- The name of a conversion is no other name. -/
theorem conv_not_nm {E : Env} (hE : E.flags = Flags.default) {key : Text} {ta : Targs} (h : ta.plain key = true) {P : Text} (hP : Start P) {a : Text}
    {y : Nm} (hy : y.plain key = true) {r : Text} (hr : y.St r) : convName E ta P ++ a ≠ y.cpp E ++ r := by
  intro e
  have wd : ∀ {Y : Text}, WStart Y → convName E ta P ++ a ≠ Y := by
    intro Y hY e
    rw [convName] at e
    simp only [List.append_assoc] at e
    cases hY with
    | @word w r h1 h2 =>
      obtain ⟨h3, -⟩ := word_read (w := c!"operator") (by decide) (ident_idc h1) (Targs.ni E ta (P ++ a)) h2 e
      exact ident_reserved h1 (by rw [← h3]; decide)
    | star => simp at e
    | amp => simp at e
    | quote => simp at e
  have tl : ∀ {Y : Text}, convName E ta P ++ a ≠ '~' :: Y := by intro Y e; simp [convName] at e
  have qt : ∀ {Y : Text}, convName E ta P ++ a ≠ '`' :: Y := by intro Y e; simp [convName] at e
  cases y with
  | seg s => exact wd (Seg.start (E := E) hy hr.1) e
  | op o => exact op_ne_conv hE h hP (by simpa [Nm.plain] using hy) (.inl hr) e
  | opT o as =>
    simp only [Nm.plain, Bool.and_eq_true] at hy
    rw [Nm.cpp, List.append_assoc] at e
    exact op_ne_conv hE h hP (by simpa using hy.1) (.inr ⟨_, rfl⟩) e
  | lit s =>
    rw [Nm.cpp, convName] at e
    simp only [List.append_assoc] at e
    have e := List.append_cancel_left (as := c!"operator") (bs := ta.cpp E ++ ' ' :: (P ++ a)) (cs := c!" \"\"" ++ (s ++ r)) e
    rcases conv_tail hE h hP a with ⟨X, hX, -, n⟩ | ⟨X, hX, -⟩
    · rw [hX] at e; injection e with _ e; rw [e] at n; simp at n
    · rw [hX] at e; simp at e
  | dtor s => exact tl e
  | segT w as bs =>
    simp only [Nm.plain, Bool.and_eq_true] at hy
    rw [Nm.cpp, List.append_assoc] at e
    have hs : (Seg.tm w as).plain key = true := by rw [Seg.plain, hy.1.1, hy.1.2]; rfl
    exact wd (Seg.start (E := E) hs (NI.cons (by decide))) e
  | dtorT w as bs => exact tl e
  | spc x =>
    obtain ⟨z, hz⟩ := x.stem_head
    rw [Nm.cpp, hz] at e
    exact qt e

theorem conv_end {E : Env} (hE : E.flags = Flags.default) {key : Text} {ta : Targs} (h : ta.plain key = true) {P : Text} (hP : Start P) {a : Text} :
    PathEnd E key (c!"::" ++ (convName E ta P ++ a)) := by
  intro y r hy hr e
  exact conv_not_nm hE h hP hy hr (List.append_cancel_left e)

end Undname.Spec.Cxx
