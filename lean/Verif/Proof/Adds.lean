/-
  Which declarations print something.
-/
import Verif.Proof.Grow
import Verif.Spec.Denotes

namespace Undname.Spec

/-- Something is appended. -/
def Adds (f : Text → Text) : Prop := ∀ w, w.length < (f w).length

theorem Grow.le_out {p : Pr} (h : Grow p) (w : Text) : w.length ≤ (p.out w).length := (h.out w).length_le
theorem len_out (E : Env) (t : T) (w : Text) : w.length ≤ ((T.pr E t).out w).length := ((pr_grow t).out w).length_le
theorem len_pre (E : Env) (t : T) (b : Bool) (w : Text) : w.length ≤ ((T.pr E t).pre b w).length := ((pr_grow t).pre b w).length_le
theorem len_post (E : Env) (t : T) (b : Bool) (w : Text) : w.length ≤ ((T.pr E t).post b w).length := ((pr_grow t).post b w).length_le
theorem len_tail (E : Env) (t : T) (s : Text) (w : Text) : w.length ≤ ((T.pr E t).tail s w).length := ((pr_grow t).tail s w).length_le
theorem len_sp (E : Env) (w : Text) : w.length ≤ (sp E w).length := (sp_grow w).length_le

section
variable {E : Env}

theorem targs_adds {a : T} (w : Text) : w.length < (targsOut (T.pr E a.one) w).length := by
  unfold targsOut
  have : (T.pr E a.one).some = true := rfl
  rw [if_pos this]
  have h := len_out E a.one (w ++ c!"<")
  simp only [List.length_append, List.length_cons, List.length_nil] at h ⊢
  omega

theorem targs_le (a : T) (w : Text) : w.length ≤ (targsOut (T.pr E a) w).length := (targs_grow (pr_grow a) w).length_le

/-- A list whose last element prints something. -/
theorem snoc_adds {i : T} (h : Adds (T.pr E i).out) (s : Text) (ps : T) :
    Adds ((T.pr E (ps.snoc i)).seq s) ∧ Adds ((T.pr E (ps.snoc i)).tail s) := by
  have base : Adds ((T.pr E (.cons i .nil)).seq s) ∧ Adds ((T.pr E (.cons i .nil)).tail s) := by
    refine ⟨h, fun w => ?_⟩
    have := h (w ++ s)
    show w.length < ((T.pr E i).out (w ++ s)).length
    simp only [List.length_append] at this
    omega
  induction ps with
  | cons a as _ iha =>
    refine ⟨fun w => ?_, fun w => ?_⟩
    · exact Nat.lt_of_le_of_lt (len_out E a w) (iha.2 _)
    · have := len_out E a (w ++ s)
      refine Nat.lt_of_le_of_lt ?_ (iha.2 ((T.pr E a).out (w ++ s)))
      simp only [List.length_append] at this
      omega
  | _ => exact base

/-- A list with two elements and a separator. -/
theorem snoc_adds_sep (s : Text) (hs : s ≠ []) (p ps i : T) : Adds ((T.pr E ((ps.snoc p).snoc i)).seq s) := by
  have hl : 0 < s.length := List.length_pos_iff.2 hs
  have tl : ∀ (as i : T) w, w.length < ((T.pr E (as.snoc i)).tail s w).length := by
    intro as i w
    have key : ∀ a b : T, w.length < ((T.pr E (.cons a b)).tail s w).length := by
      intro a b
      have h1 := len_out E a (w ++ s)
      have h2 := len_tail E b s ((T.pr E a).out (w ++ s))
      show w.length < ((T.pr E b).tail s ((T.pr E a).out (w ++ s))).length
      simp only [List.length_append] at h1
      omega
    cases as <;> exact key _ _
  have hc : ∃ a as, ps.snoc p = .cons a as := by cases ps <;> exact ⟨_, _, rfl⟩
  obtain ⟨a, as, e⟩ := hc
  rw [e]
  intro w
  exact Nat.lt_of_le_of_lt (len_out E a w) (tl as i _)

theorem snoc_adds_of_ne {ps : T} (s : Text) (hs : s ≠ []) (i : T) (h : ∃ ps' p : T, ps = ps'.snoc p) :
    Adds ((T.pr E (ps.snoc i)).seq s) := by
  obtain ⟨ps', p, rfl⟩ := h
  exact snoc_adds_sep s hs p ps' i

theorem named_adds {s : Text} (h : s ≠ []) (a : T) : Adds (T.pr E (.named s a)).out := by
  intro w
  have := targs_le (E := E) a (w ++ s)
  have hl : 0 < s.length := List.length_pos_iff.2 h
  show w.length < (targsOut (T.pr E a) (w ++ s)).length
  simp only [List.length_append] at this
  omega

theorem opName_ne (o : IFK) : opName o ≠ [] := by cases o <;> simp [opName]

theorem op_adds (o : IFK) (a : T) : Adds (T.pr E (.op (some o) a)).out := by
  intro w
  have := targs_le (E := E) a (w ++ opName o)
  have hl : 0 < (opName o).length := List.length_pos_iff.2 (opName_ne o)
  show w.length < (targsOut (T.pr E a) (w ++ opName o)).length
  simp only [List.length_append] at this
  omega

theorem lit_adds (s : Text) (a : T) : Adds (T.pr E (.lit s a)).out := by
  intro w
  have := targs_le (E := E) a (w ++ c!"operator \"\"" ++ s)
  show w.length < (targsOut (T.pr E a) (w ++ c!"operator \"\"" ++ s)).length
  simp only [List.length_append, List.length_cons] at this
  omega

theorem conv_adds (a t : T) : Adds (T.pr E (.conv a t)).out := by
  intro w
  have h1 := targs_le (E := E) a (w ++ c!"operator")
  have h2 := len_out E t (targsOut (T.pr E a) (w ++ c!"operator") ++ c!" ")
  show w.length < ((T.pr E t).out (targsOut (T.pr E a) (w ++ c!"operator") ++ c!" ")).length
  simp only [List.length_append, List.length_cons] at h1 h2
  omega

/-- Template instantiations print at least the brackets. -/
theorem withArgs_adds {i as : T} (h : (i.withArgs as).isPlain = true) : Adds (T.pr E (i.withArgs as)).out := by
  cases i
  case named s t =>
    intro w
    exact Nat.lt_of_le_of_lt (by simp only [List.length_append]; omega) (targs_adds (E := E) (a := .arr as) (w ++ s))
  case op o t =>
    intro w
    cases o with
    | none =>
      exact Nat.lt_of_le_of_lt (by simp only [List.length_append]; omega) (targs_adds (E := E) (a := .arr as) (w ++ []))
    | some o =>
      exact Nat.lt_of_le_of_lt (by simp only [List.length_append]; omega) (targs_adds (E := E) (a := .arr as) (w ++ opName o))
  case lit s t =>
    intro w
    exact Nat.lt_of_le_of_lt (by simp only [List.length_append]; omega) (targs_adds (E := E) (a := .arr as) (w ++ c!"operator \"\"" ++ s))
  all_goals cases h

/-! ### Names -/

theorem uname_adds {i : T} {x : Text} {tb' : Tbl} (h : Gram E .uname {} i x tb') : Adds (T.pr E i).out := by
  cases h with
  | uBack h1 h2 => cases h2
  | uName hn => exact named_adds hn.ne _
  | uTmpl ht hp _ =>
    cases ht with
    | tmpl _ _ => exact withArgs_adds hp
    | tmplTmpl _ _ => exact withArgs_adds hp

/-- The texts of operators without a name. -/
def NoOp (x : Text) : Prop := (∃ c ∈ underNone, x = ['?', '_', c]) ∨ ∃ c ∈ dunderNone, x = ['?', '_', '_', c]

theorem sname_adds {i : T} {x : Text} {tb' : Tbl} (h : Gram E .sname {} i x tb') (hp : i.isPlain = true) :
    Adds (T.pr E i).out ∨ NoOp x ∧ tb' = {} := by
  cases h with
  | sBack h1 h2 => cases h2
  | sFull h =>
    cases h with
    | fName hn => exact .inl (named_adds hn.ne _)
    | fOp _ => exact .inl (op_adds _ _)
    | fOpUnder _ => exact .inl (op_adds _ _)
    | fOpDunder _ => exact .inl (op_adds _ _)
    | fOpNone hc => exact .inr ⟨.inl ⟨_, hc, rfl⟩, rfl⟩
    | fOpNone2 hc => exact .inr ⟨.inr ⟨_, hc, rfl⟩, rfl⟩
    | fLit _ _ => exact .inl (lit_adds _ _)
    | fCtor => cases hp
    | fDtor => cases hp
    | fConv => cases hp
  | sTmpl h =>
    cases h with
    | tmpl _ _ => exact .inl (withArgs_adds hp)
    | tmplTmpl _ _ => exact .inl (withArgs_adds hp)

theorem scopes_cases {ps : T} {x : Text} {tb tb' : Tbl} (h : Gram E .scopes tb ps x tb') :
    (ps = .nil ∧ x = c!"@" ∧ tb' = tb) ∨ ∃ qs p : T, ps = qs.snoc p := by
  cases h with
  | scNil => exact .inl ⟨rfl, rfl, rfl⟩
  | scCons _ _ => exact .inr ⟨_, _, rfl⟩
  | scOdd _ _ _ _ _ => exact .inr ⟨_, _, rfl⟩
  | scLocalHash _ _ _ _ _ => exact .inr ⟨_, _, rfl⟩

theorem one_adds {i : T} (h : Adds (T.pr E i).out) : Adds (T.pr E (.qname (T.one i))).out := (snoc_adds h c!"::" .nil).1

theorem qname_adds {t : T} (h : Adds ((T.pr E t).seq c!"::")) : Adds (T.pr E (.qname t)).out := h

/-- The qualified name of a symbol prints something, or it is an operator without a name outside all scopes. -/
theorem symName_adds {i ps : T} {x y : Text} {tb1 tb2 : Tbl} (h : Gram E .sname {} i x tb1) (hp : i.isPlain = true)
    (hs : Gram E .scopes tb1 ps y tb2) :
    Adds (T.pr E (.qname (ps.snoc i))).out ∨ NoOp x ∧ y = c!"@" ∧ tb2 = {} := by
  rcases sname_adds h hp with h1 | ⟨h1, rfl⟩
  · exact .inl (snoc_adds h1 _ _).1
  · rcases scopes_cases hs with ⟨_, hy, htb⟩ | hne
    · exact .inr ⟨h1, hy, htb⟩
    · exact .inl (snoc_adds_of_ne _ (by simp) _ hne)

/-! ### Types -/

/-- A type prints something before or after the declared name. -/
def TyAdds (E : Env) (t : T) : Prop := Adds ((T.pr E t).pre false) ∨ Adds ((T.pr E t).post false)

theorem primName_ne (k : PrimitiveKind) : primName k ≠ [] := by cases k <;> simp [primName]

theorem prim_adds (q : CV) (k : PrimitiveKind) : TyAdds E (.prim q k) := by
  refine .inl fun w => ?_
  have := List.length_pos_iff.2 (primName_ne k)
  show w.length < (w ++ primName k ++ q.after E).length
  simp only [List.length_append]; omega

theorem tag_adds {n : T} (q : CV) (k : TagKind) (h : Adds (T.pr E n).out) : TyAdds E (.tag q k n) := by
  refine .inl fun w => ?_
  have := h (w ++ (if (!E.flags.no_tag_specifier && !E.flags.name_only) = true then tagName k ++ c!" " else []))
  show w.length < ((T.pr E n).out (w ++ (if (!E.flags.no_tag_specifier && !E.flags.name_only) = true then tagName k ++ c!" " else [])) ++ q.after E).length
  simp only [List.length_append] at this ⊢
  omega

theorem ptr_adds (q : CV) (a : PointerAffinity) (c t : T) : TyAdds E (.ptr q a c t) := by
  refine .inl fun w => ?_
  have ha : 0 < (affName a).length := by cases a <;> simp [affName]
  obtain ⟨v, h1, h2⟩ : ∃ v, (T.pr E (.ptr q a c t)).pre false w = v ++ affName a ++ q.sep E ∧ w.length ≤ v.length := by
    refine ⟨_, rfl, ?_⟩
    have h1 := len_pre E t true w
    have h2 := len_sp E ((T.pr E t).pre true w)
    generalize hv : sp E ((T.pr E t).pre true w) ++
      (if (!E.flags.no_ms_keywords && q.u) = true then msWord E c!"unaligned" ++ c!" " else []) = v
    have h3 : w.length ≤ v.length := by subst hv; simp only [List.length_append]; omega
    have h4 := (open_grow (E := E) t v).length_le
    split
    · have h5 := len_out E c (openParen E t v)
      simp only [List.length_append]; omega
    · omega
  rw [h1]
  simp only [List.length_append]; omega

theorem bounds_ne (d : List Nat) : bounds d ≠ [] := by cases d <;> simp [bounds]

theorem array_adds (q : CV) (d : List Nat) (e : T) : TyAdds E (.array q d e) := by
  refine .inr fun w => ?_
  have h := len_post E e false (w ++ bounds d)
  have hb := List.length_pos_iff.2 (bounds_ne d)
  show w.length < ((T.pr E e).post false (w ++ bounds d)).length
  simp only [List.length_append] at h
  omega

theorem params_adds {f : Sig} {p : T} (w : Text) : w.length < (paramsOut f (T.pr E p) w).length := by
  unfold paramsOut
  dsimp only
  have h0 : w.length ≤ (if (T.pr E p).some = true then (T.pr E p).out (w ++ c!"(") else w ++ c!"(" ++ c!"void").length := by
    split
    · have := len_out E p (w ++ c!"(")
      simp only [List.length_append] at this
      omega
    · simp only [List.length_append]; omega
  generalize (if (T.pr E p).some = true then (T.pr E p).out (w ++ c!"(") else w ++ c!"(" ++ c!"void") = v at h0 ⊢
  split
  · split
    · simp only [List.length_append, List.length_cons]; omega
    · simp only [List.length_append, List.length_cons]; omega
  · simp only [List.length_append, List.length_cons, List.length_nil]; omega

theorem sigPost_adds {f : Sig} {r p : T} (hb : f.kind.bare = false) (hn : E.flags.name_only = false) (w : Text) :
    w.length < (sigPost E f (T.pr E r) (T.pr E p) false w).length := by
  unfold sigPost
  dsimp only
  have hc : ((false || !E.flags.name_only) && !f.kind.bare) = true := by rw [hb, hn]; rfl
  rw [if_pos hc]
  have h := params_adds (E := E) (f := f) (p := p) w
  split
  · refine Nat.lt_of_lt_of_le ?_ (len_post E r false _)
    simp only [List.length_append]; omega
  · simp only [List.length_append]; omega

theorem sig_adds {f : Sig} {r p : T} (hb : f.kind.bare = false) (hn : E.flags.name_only = false) : TyAdds E (.sig f r p) :=
  .inr fun w => sigPost_adds hb hn w

theorem fty_form {b : Bool} {t : T} {x : Text} {tb tb' : Tbl} (h : Gram E (.fty b) tb t x tb') :
    ∃ f r p, t = .sig f r p ∧ f.kind = {} := by
  cases h with
  | fn _ _ _ _ => exact ⟨_, _, _, rfl, rfl⟩
  | fnThis _ _ _ _ _ _ _ => exact ⟨_, _, _, rfl, rfl⟩

theorem qtn_adds {t : T} {x : Text} {tb' : Tbl} (h : Gram E .qtn {} t x tb') : Adds (T.pr E t).out := by
  cases h with
  | qtnOdd _ _ _ => exact (snoc_adds (named_adds (by simp) _) _ _).1
  | qtn h _ => exact (snoc_adds (uname_adds h) _ _).1

/-- A type at the beginning prints something, with any qualifiers. -/
theorem ty_adds (hn : E.flags.name_only = false) {t : T} {x : Text} {tb' : Tbl} (h : Gram E .ty {} t x tb') (q : CV) :
    TyAdds E (t.setQ q) := by
  cases h with
  | prim k => exact prim_adds _ _
  | tag k h => exact tag_adds _ _ (qtn_adds h)
  | ptr _ _ _ _ => exact ptr_adds _ _ _ _
  | ptrRefMember _ _ _ _ _ => exact ptr_adds _ _ _ _
  | ptrFn _ _ => exact ptr_adds _ _ _ _
  | ptrMember _ _ _ _ _ => exact ptr_adds _ _ _ _
  | ptrMemberFn _ _ _ => exact ptr_adds _ _ _ _
  | array _ _ _ _ => exact array_adds _ _ _
  | arrayQ _ _ _ _ _ => exact array_adds _ _ _
  | fnType h =>
    obtain ⟨f, r, p, rfl, hk⟩ := fty_form h
    exact sig_adds (by show f.kind.bare = false; rw [hk]) hn
  | fnTypeThis h =>
    obtain ⟨f, r, p, rfl, hk⟩ := fty_form h
    exact sig_adds (by show f.kind.bare = false; rw [hk]) hn
  | custom h => exact .inl (uname_adds h)
  | customOdd _ _ => exact .inl (named_adds (E := E) (List.cons_ne_nil _ _) .nil)

/-! ### Symbols -/

theorem var_of_name {sc : Option StorageClass} {n t : T} (h : Adds (T.pr E n).out) : Adds (T.pr E (.var sc n t)).out := by
  intro w
  show w.length < (if (!E.flags.no_variable_type && !E.flags.name_only && (T.pr E t).some) = true then
        (T.pr E t).post false ((T.pr E n).out (sp E ((T.pr E t).pre false (w ++ storageText E sc))))
      else (T.pr E n).out (w ++ storageText E sc)).length
  have hw : w.length ≤ (w ++ storageText E sc).length := by simp only [List.length_append]; omega
  split
  · have h1 := len_pre E t false (w ++ storageText E sc)
    have h2 := len_sp E ((T.pr E t).pre false (w ++ storageText E sc))
    have h3 := h (sp E ((T.pr E t).pre false (w ++ storageText E sc)))
    have h4 := len_post E t false ((T.pr E n).out (sp E ((T.pr E t).pre false (w ++ storageText E sc))))
    omega
  · have := h (w ++ storageText E sc)
    omega

theorem var_of_type {sc : Option StorageClass} {n t : T} (h : TyAdds E t) (h1 : E.flags.no_variable_type = false)
    (h2 : E.flags.name_only = false) : Adds (T.pr E (.var sc n t.one)).out := by
  intro w
  show w.length < (if (!E.flags.no_variable_type && !E.flags.name_only && true) = true then
        (T.pr E t).post false ((T.pr E n).out (sp E ((T.pr E t).pre false (w ++ storageText E sc))))
      else (T.pr E n).out (w ++ storageText E sc)).length
  have hw : w.length ≤ (w ++ storageText E sc).length := by simp only [List.length_append]; omega
  have hc : (!E.flags.no_variable_type && !E.flags.name_only && true) = true := by rw [h1, h2]; rfl
  rw [if_pos hc]
  have e1 := len_pre E t false (w ++ storageText E sc)
  have e2 := len_sp E ((T.pr E t).pre false (w ++ storageText E sc))
  have e3 := len_out E n (sp E ((T.pr E t).pre false (w ++ storageText E sc)))
  have e4 := len_post E t false ((T.pr E n).out (sp E ((T.pr E t).pre false (w ++ storageText E sc))))
  rcases h with h | h
  · have := h (w ++ storageText E sc); omega
  · have := h ((T.pr E n).out (sp E ((T.pr E t).pre false (w ++ storageText E sc)))); omega

theorem fn_len {n sg : T} (w : Text) : w.length ≤ ((T.pr E sg).pre false w).length ∧
    ((T.pr E sg).pre false w).length ≤ ((T.pr E n).out (sp E ((T.pr E sg).pre false w))).length ∧
    ((T.pr E n).out (sp E ((T.pr E sg).pre false w))).length ≤ ((T.pr E (.fn n sg)).out w).length := by
  have h1 := len_pre E sg false w
  have h2 := len_sp E ((T.pr E sg).pre false w)
  have h3 := len_out E n (sp E ((T.pr E sg).pre false w))
  have h4 := len_post E sg false ((T.pr E n).out (sp E ((T.pr E sg).pre false w)))
  exact ⟨h1, Nat.le_trans h2 h3, h4⟩

theorem fn_of_name {n sg : T} (h : Adds (T.pr E n).out) : Adds (T.pr E (.fn n sg)).out := by
  intro w
  have h1 := len_pre E sg false w
  have h2 := len_sp E ((T.pr E sg).pre false w)
  have h3 := h (sp E ((T.pr E sg).pre false w))
  have h4 := (fn_len (n := n) (sg := sg) (E := E) w).2.2
  omega

theorem fn_of_sig {n sg : T} (h : TyAdds E sg) : Adds (T.pr E (.fn n sg)).out := by
  intro w
  obtain ⟨h1, h2, h3⟩ := fn_len (n := n) (sg := sg) (E := E) w
  rcases h with h | h
  · have := h w; omega
  · have h4 : ((T.pr E n).out (sp E ((T.pr E sg).pre false w))).length < ((T.pr E (.fn n sg)).out w).length := h _
    omega

theorem sigPre_bare {r : T} {f : Sig} (he : f.kind.externC = true) (h1 : E.flags.no_member_type = false)
    (hn : E.flags.name_only = false) (w : Text) : w.length < (sigPre E f (T.pr E r) false w).length := by
  unfold sigPre
  dsimp only
  have hc : (!E.flags.no_member_type && !E.flags.name_only) = true := by rw [h1, hn]; rfl
  rw [if_pos hc, if_pos he]
  generalize hv : (w ++ (if (!E.flags.no_access_specifier && !E.flags.name_only) = true then
    (match f.kind.access with | Option.some a => accessName a | none => []) else []) ++
      ((if f.kind.isStatic then c!"static " else []) ++ (if f.kind.isVirtual then c!"virtual " else []) ++ c!"extern \"C\" ")) = v
  have h1 : w.length < v.length := by
    subst hv
    simp only [List.length_append, List.length_cons]; omega
  generalize ht : (if (!E.flags.no_return_type && (false || !E.flags.name_only) && (T.pr E r).some) = true then
    (T.pr E r).pre false v ++ c!" " else v) = u
  have h2 : w.length < u.length := by
    subst ht
    split
    · have := len_pre E r false v
      simp only [List.length_append]; omega
    · exact h1
  split
  · split
    · have := len_sp E u
      simp only [List.length_append]; omega
    · exact h2
  · exact h2

theorem class_not_bare : ∀ p ∈ classCodes, p.2.1.bare = false := by decide

theorem fenc_adds (h1 : E.flags.no_member_type = false) (hn : E.flags.name_only = false) {sg : T} {x : Text} {tb tb' : Tbl}
    (h : Gram E .fenc tb sg x tb') : TyAdds E sg := by
  cases h with
  | fenc extC hc _ _ =>
    have hb := class_not_bare _ hc
    split
    · exact sig_adds hb hn
    · rename_i f r ps y code k ak z adj _ _ _
      refine .inr fun w => Nat.lt_of_le_of_lt ?_ (sigPost_adds (f := { f with kind := { k with externC := extC } }) hb hn (w ++ adj.text))
      simp only [List.length_append]; omega
  | fencBare _ => exact .inl fun w => sigPre_bare (f := { kind := { externC := true, bare := true } }) (r := .nil) rfl h1 hn w

/-- A declaration prints something, or it is that of an operator without a name outside all scopes. -/
theorem decl_adds {t : T} {x : Text} {tb' : Tbl} (h : Gram E .decl {} t x tb') :
    Adds (T.pr E t).out ∨ (∃ o r, NoOp o ∧ x = o ++ '@' :: r) ∧
      (E.flags.name_only = false → E.flags.no_variable_type = false → E.flags.no_member_type = false → Adds (T.pr E t).out) := by
  have sep : c!"::" ≠ [] := by simp
  cases h with
  | var h hp hs _ ht _ _ =>
    rcases symName_adds h hp hs with h1 | ⟨h1, rfl, rfl⟩
    · exact .inl (var_of_name h1)
    · refine .inr ⟨⟨_, _, h1, by simp only [List.append_assoc, List.cons_append, List.nil_append]; rfl⟩, fun hn hv _ => ?_⟩
      exact var_of_type (ty_adds hn ht _) hv hn
  | varPtr e h hp hs _ ht _ =>
    rcases symName_adds h hp hs with h1 | ⟨h1, rfl, rfl⟩
    · exact .inl (var_of_name h1)
    · refine .inr ⟨⟨_, _, h1, by simp only [List.append_assoc, List.cons_append, List.nil_append]; rfl⟩, fun hn hv _ => ?_⟩
      exact var_of_type (ptr_adds _ _ _ _) hv hn
  | varMemberPtr e h hp hs _ ht _ _ =>
    rcases symName_adds h hp hs with h1 | ⟨h1, rfl, rfl⟩
    · exact .inl (var_of_name h1)
    · refine .inr ⟨⟨_, _, h1, by simp only [List.append_assoc, List.cons_append, List.nil_append]; rfl⟩, fun hn hv _ => ?_⟩
      exact var_of_type (ptr_adds _ _ _ _) hv hn
  | varStructor _ _ _ _ _ _ _ => exact .inl (var_of_name (snoc_adds_sep _ sep _ _ _))
  | varStructorPtr _ _ _ _ _ _ _ => exact .inl (var_of_name (snoc_adds_sep _ sep _ _ _))
  | varStructorMemberPtr _ _ _ _ _ _ _ _ => exact .inl (var_of_name (snoc_adds_sep _ sep _ _ _))
  | func h hp hs hf =>
    rcases symName_adds h hp hs with h1 | ⟨h1, rfl, rfl⟩
    · exact .inl (fn_of_name h1)
    · refine .inr ⟨⟨_, _, h1, by simp only [List.append_assoc, List.cons_append, List.nil_append]; rfl⟩, fun hn _ hm => ?_⟩
      exact fn_of_sig (fenc_adds hm hn hf)
  | structor _ _ _ _ => exact .inl (fn_of_name (snoc_adds_sep _ sep _ _ _))
  | conv _ _ _ => exact .inl (fn_of_name (snoc_adds (conv_adds _ _) _ _).1)
  | convThunk _ _ _ => exact .inl (fn_of_name (snoc_adds (conv_adds _ _) _ _).1)

theorem names_ne : (∀ p ∈ tableCodes, p.2 ≠ []) ∧ ∀ p ∈ untypedCodes, p.2 ≠ [] := by decide

theorem guardId_adds (th : Bool) (n : Nat) : Adds (T.pr E (.guardId th n)).out := by
  intro w
  show w.length < (w ++ (if th then c!"`local static thread guard'" else c!"`local static guard'") ++
        (if n = 0 then [] else c!"{" ++ nat n ++ c!"}")).length
  cases th <;> simp only [List.length_append, List.length_cons, if_true, Bool.false_eq_true, if_false] <;> omega

theorem same_adds {n : T} (h : Adds (T.pr E n).out) : Adds (T.pr E (.same n)).out := h

theorem table_adds {q : CV} {n t : T} (h : Adds (T.pr E n).out) : Adds (T.pr E (.table q n t)).out := by
  intro w
  show w.length < (if (T.pr E t).some = true then
      (T.pr E t).out ((T.pr E n).out (w ++ (if E.flags.name_only = true then [] else q.before E)) ++ c!"{for `") ++ c!"'}"
    else (T.pr E n).out (w ++ (if E.flags.name_only = true then [] else q.before E))).length
  have h1 := h (w ++ (if E.flags.name_only = true then [] else q.before E))
  rw [List.length_append] at h1
  split
  · have h2 := len_out E t ((T.pr E n).out (w ++ (if E.flags.name_only = true then [] else q.before E)) ++ c!"{for `")
    rw [List.length_append] at h2 ⊢
    omega
  · omega

theorem hash_adds {s : Text} (h : s ≠ []) : Adds (T.pr E (hashT s)).out :=
  same_adds (one_adds (named_adds h .nil))

/-- A symbol prints something, or it is an operator without a name outside all scopes. -/
theorem sym_adds {t : T} {x : Text} {tb' : Tbl} (h : Gram E .sym {} t x tb') :
    Adds (T.pr E t).out ∨ (∃ o r, NoOp o ∧ x = '?' :: o ++ '@' :: r) ∧
      (E.flags.name_only = false → E.flags.no_variable_type = false → E.flags.no_member_type = false → Adds (T.pr E t).out) := by
  cases h with
  | sym h _ =>
    rcases decl_adds h with h | ⟨⟨o, r, h1, rfl⟩, h2⟩
    · exact .inl h
    · exact .inr ⟨⟨o, r, h1, rfl⟩, h2⟩
  | hashLocator _ => exact .inl (hash_adds (by simp [hashed]))
  | narrow _ _ _ _ _ =>
    refine .inl fun w => ?_
    simp only [T.pr, Pr.ofText, List.length_append, List.length_cons]; omega
  | wide _ _ _ _ _ =>
    refine .inl fun w => ?_
    simp only [T.pr, Pr.ofText, List.length_append, List.length_cons]; omega
  | table hc _ _ _ => exact .inl (table_adds (snoc_adds (named_adds (names_ne.1 _ hc) _) _ _).1)
  | tableFor hc _ _ _ _ => exact .inl (table_adds (snoc_adds (named_adds (names_ne.1 _ hc) _) _ _).1)
  | vcall cc _ _ =>
    refine .inl (fn_of_name (snoc_adds (fun w => ?_) _ _).1)
    simp only [T.pr, Pr.ofText, List.length_append, List.length_cons]; omega
  | untyped hc _ => exact .inl (var_of_name (snoc_adds (named_adds (names_ne.2 _ hc) _) _ _).1)
  | baseDescr _ _ _ _ _ _ _ _ _ =>
    refine .inl (var_of_name (snoc_adds (fun w => ?_) _ _).1)
    simp only [T.pr, Pr.ofText, List.length_append, List.length_cons]; omega
  | guardVar th vis _ _ _ => exact .inl (same_adds (snoc_adds (guardId_adds _ _) _ _).1)
  | @dynVar _ sc n t _ _ _ _ _ d known _ _ _ =>
    refine .inl (fn_of_name (one_adds fun w => ?_))
    have h1 := len_out E (.var sc n t)
      (w ++ (if d then c!"`dynamic atexit destructor for " else c!"`dynamic initializer for ") ++ c!"`")
    show w.length < ((T.pr E (.var sc n t)).out (w ++ (if d then c!"`dynamic atexit destructor for " else
      c!"`dynamic initializer for ") ++ c!"`") ++ c!"''").length
    simp only [List.length_append, List.length_cons] at h1 ⊢
    omega
  | @dynFn _ n _ _ _ d _ _ =>
    refine .inl (fn_of_name (one_adds fun w => ?_))
    have h1 := len_out E n
      (w ++ (if d then c!"`dynamic atexit destructor for " else c!"`dynamic initializer for ") ++ c!"'")
    show w.length < ((T.pr E n).out (w ++ (if d then c!"`dynamic atexit destructor for " else
      c!"`dynamic initializer for ") ++ c!"'") ++ c!"''").length
    simp only [List.length_append, List.length_cons] at h1 ⊢
    omega

theorem symEnd_adds {t : T} {x : Text} {tb' : Tbl} (h : Gram E .symEnd {} t x tb') :
    Adds (T.pr E t).out ∨ (∃ r, x = '.' :: r) ∧ (E.flags.name_only = false → Adds (T.pr E t).out) := by
  cases h with
  | guardEnd th vis _ => exact .inl (same_adds (snoc_adds (guardId_adds _ _) _ _).1)
  | @typeinfo _ t _ _ _ =>
    refine .inr ⟨⟨_, rfl⟩, fun hn w => ?_⟩
    show w.length < (if E.flags.name_only = true then (T.pr E t).out w else
      sp E ((T.pr E t).out w) ++ c!"`RTTI Type Descriptor Name'").length
    rw [if_neg (by rw [hn]; simp)]
    have h1 := len_out E t w
    have h2 := len_sp E ((T.pr E t).out w)
    simp only [List.length_append, List.length_cons]; omega
  | rttiType _ => exact .inl (var_of_name (one_adds (named_adds (List.cons_ne_nil _ _) .nil)))

theorem Adds.text_ne {t : T} (h : Adds (T.pr E t).out) : t.text E ≠ [] := by
  have := h []
  exact List.length_pos_iff.1 this

end

end Undname.Spec
