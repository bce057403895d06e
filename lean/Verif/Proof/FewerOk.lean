/-
  A well-formed symbol of a compiler stays well-formed with more suppression flags; the texts of all symbols.
-/
import Verif.Proof.Fewer

namespace Undname.Spec.Cxx

/-- The text does not end in an open parenthesis. -/
def Shut (w : Text) : Prop := w.getLast? ≠ some '('

theorem Shut.nil : Shut [] := by simp [Shut]

theorem Shut.append {a b : Text} (ha : Shut a) (hb : Shut b) : Shut (a ++ b) := by
  unfold Shut at *
  rw [List.getLast?_append]
  cases h : b.getLast? with
  | none => simpa using ha
  | some c => rw [h] at hb; simpa using hb

theorem Shut.last {a b : Text} (hb : Shut b) (h : b ≠ []) : Shut (a ++ b) := by
  unfold Shut at *
  rwa [getLast?_app h]

theorem Shut.part {b : Bool} {t : Text} (h : Shut t) : Shut (part b t) := by
  cases b
  · exact .nil
  · exact h

theorem msWord_shut {E : Env} {s : Text} (hs : s ≠ []) (h : Shut s) : Shut (msWord E s) := by
  unfold Shut at *
  rwa [msWord_last hs]

theorem cvAfter_shut (c v : Bool) : Shut (Spec.Ty.cvAfter c v) := by
  revert c v
  unfold Shut
  decide

theorem thisCpp_shut {E : Env} (q : This) : Shut (q.cpp E) := by
  unfold This.cpp
  refine (cvAfter_shut _ _).append (.part (.append (.part ?_) (.part ?_)))
  · exact .last (msWord_shut (by simp) (by simp [Shut])) (msWord_ne (by simp))
  · exact .last (msWord_shut (by simp) (by simp [Shut])) (msWord_ne (by simp))

theorem refCpp_shut (q : This) : Shut q.refCpp := by
  unfold This.refCpp
  split <;> simp [Shut]

theorem bounds_shut (d : List Nat) : Shut (bounds d) := by
  cases d with
  | nil => simp [bounds, Shut]
  | cons d ds =>
    rw [bounds]
    exact .last (by simp [Shut]) (by simp)

section
variable (E : Env)

mutual
theorem Ty.right_shut : (t : Ty) → Shut (t.right E)
  | .prim k c v => by rw [Ty.right]; exact .nil
  | .tag k p c v => by rw [Ty.right]; exact .nil
  | .ptr k u to => by
    have h := to.right_shut
    rw [Ty.right]; exact h
  | .fptr k s => by
    have h := s.right_shut {}
    have h2 := s.params_shut
    rw [Ty.right]
    exact (Shut.append (by simp [Shut]) h2).append h
  | .aptr k c v dims el => by
    have h := el.right_shut
    rw [Ty.right]
    exact (Shut.append (by simp [Shut]) (bounds_shut _)).append h
  | .mptr k u cls to => by
    have h := to.right_shut
    rw [Ty.right]; exact h
  | .mfptr k cls q s => by
    have h := s.right_shut q
    have h2 := s.params_shut
    rw [Ty.right]
    exact (Shut.append (by simp [Shut]) h2).append h
theorem Sig.right_shut : (s : Sig) → (q : This) → Shut (s.right E q)
  | .mk cc ret ps variadic noexc, q => by
    have h := ret.right_shut
    rw [Sig.right]
    refine (((Shut.part (thisCpp_shut q)).append (.part ?_)).append (.part (refCpp_shut q))).append (.part h)
    simp [Shut]
theorem Sig.params_shut : (s : Sig) → Shut (s.params E)
  | .mk cc ret ps variadic noexc => by
    rw [Sig.params]
    exact .last (by simp [Shut]) (by simp)
end

end

/-- An open parenthesis at the end of the second text is there in the first. -/
def OpenLe (w w' : Text) : Prop := w'.getLast? = some '(' → w.getLast? = some '('

theorem Shut.openLe {w w' : Text} (h : Shut w') : OpenLe w w' := fun h2 => absurd h2 h

theorem Each.join_open {l l' : List Text} (h : Each OpenLe l l') : OpenLe (Spec.join c!", " l) (Spec.join c!", " l') := by
  induction h with
  | nil => exact id
  | @cons a a' l l' h t ih =>
    cases t with
    | nil => exact h
    | @cons b b' m m' h2 t2 =>
      intro h3
      have h3 : (a' ++ c!", " ++ Spec.join c!", " (b' :: m')).getLast? = some '(' := h3
      show (a ++ c!", " ++ Spec.join c!", " (b :: m)).getLast? = some '('
      have e : (Spec.join c!", " (b' :: m')).getLast? = some '(' := by
        rw [List.getLast?_append] at h3
        cases e : (Spec.join c!", " (b' :: m')).getLast? with
        | none =>
          rw [e, List.getLast?_append] at h3
          exact absurd h3 (by simp)
        | some c => rw [e] at h3; simpa using h3
      rw [List.getLast?_append, ih e]
      rfl

section
variable {E E' : Env} (H : FlagsLe E E')
include H

theorem Ty.open_le (t : Ty) : OpenLe (t.left E ++ t.right E) (t.left E' ++ t.right E') := by
  have key : ∀ k : PK, ∀ x : Text, Shut (x ++ k.cpp E') := fun k x => .last (pk_open k) (pk_ne k)
  cases t with
  | prim k c v =>
    rw [Ty.right, Ty.right, List.append_nil, List.append_nil]
    exact (Ty.left_le H _).opn
  | tag k p c v =>
    rw [Ty.right, Ty.right, List.append_nil, List.append_nil]
    exact (Ty.left_le H _).opn
  | ptr k u to =>
    refine (Shut.append ?_ (Ty.right_shut E' _)).openLe
    rw [Ty.left]; exact key _ _
  | fptr k s =>
    refine (Shut.append ?_ (Ty.right_shut E' _)).openLe
    rw [Ty.left]; exact key _ _
  | aptr k c v dims el =>
    refine (Shut.append ?_ (Ty.right_shut E' _)).openLe
    rw [Ty.left]; exact key _ _
  | mptr k u cls to =>
    refine (Shut.append ?_ (Ty.right_shut E' _)).openLe
    rw [Ty.left]; exact key _ _
  | mfptr k cls q s =>
    refine (Shut.append ?_ (Ty.right_shut E' _)).openLe
    rw [Ty.left]; exact key _ _

theorem Tys.open_le : (ts : Tys) → Each OpenLe (ts.list E) (ts.list E')
  | .nil => by rw [Tys.list, Tys.list]; exact .nil
  | .cons t ts => by
    have h := ts.open_le
    rw [Tys.list, Tys.list]
    exact .cons (t.open_le H) h

theorem variadicOk_le {ps : Tys} {v : Bool} (h : variadicOk (ps.list E) v) : variadicOk (ps.list E') v :=
  fun hv h2 => h hv ((ps.open_le H).join_open h2)

omit H in
theorem Fits.le {w w' : Text} (h : Fits w) (hs : S w w') : Fits w' := Nat.lt_of_le_of_lt (utf8Len_sublist hs) h

set_option linter.unusedSectionVars false in
mutual
theorem Ty.ok_le : (t : Ty) → t.Ok E → t.Ok E'
  | .prim k c v => by rw [Ty.Ok, Ty.Ok]; exact id
  | .tag k p c v => by
    have h := p.isType_le
    rw [Ty.Ok, Ty.Ok]; exact h
  | .ptr k u to => by
    have h := to.ok_le
    rw [Ty.Ok, Ty.Ok]; exact h
  | .fptr k s => by
    have h := s.ok_le
    rw [Ty.Ok, Ty.Ok]; exact fun ⟨a, b⟩ => ⟨a, h b⟩
  | .aptr k c v dims el => by
    have h := el.ok_le
    rw [Ty.Ok, Ty.Ok]; exact fun ⟨a, b, c⟩ => ⟨a, b, h c⟩
  | .mptr k u cls to => by
    have h := to.ok_le
    have hp := cls.isType_le
    rw [Ty.Ok, Ty.Ok]; exact fun ⟨a, b, c, d⟩ => ⟨a, hp b, c, h d⟩
  | .mfptr k cls q s => by
    have h := s.ok_le
    have hp := cls.isType_le
    rw [Ty.Ok, Ty.Ok]; exact fun ⟨a, b, c⟩ => ⟨a, hp b, h c⟩
theorem Sig.ok_le : (s : Sig) → s.Ok E → s.Ok E'
  | .mk cc ret ps variadic noexc => by
    have h := ret.ok_le
    have h2 := ps.ok_le
    rw [Sig.Ok, Sig.Ok]
    exact fun ⟨a, b, c, d⟩ => ⟨a, h b, h2 c, variadicOk_le H d⟩
theorem Tys.ok_le : (ts : Tys) → ts.Ok E → ts.Ok E'
  | .nil => by rw [Tys.Ok, Tys.Ok]; exact id
  | .cons t ts => by
    have h := t.ok_le
    have h2 := ts.ok_le
    rw [Tys.Ok, Tys.Ok]
    exact fun ⟨a, b, c, d⟩ => ⟨a, b, h c, h2 d⟩
theorem Path.ok_le : (p : Path) → p.Ok E → p.Ok E'
  | .nil => by rw [Path.Ok, Path.Ok]; exact id
  | .cons s p => by
    have h := s.ok_le
    have h2 := p.ok_le
    rw [Path.Ok, Path.Ok]
    exact fun ⟨a, b⟩ => ⟨h a, h2 b⟩
theorem Path.isType_le : (p : Path) → p.IsType E → p.IsType E'
  | .nil => by rw [Path.IsType, Path.IsType]; exact id
  | .cons s p => by
    have h := s.ok_le
    have h2 := p.ok_le
    rw [Path.IsType, Path.IsType]
    exact fun ⟨a, b, c⟩ => ⟨a, h b, h2 c⟩
theorem Seg.ok_le : (s : Seg) → s.Ok E → s.Ok E'
  | .id s => by rw [Seg.Ok, Seg.Ok]; exact id
  | .tm s as => by
    have h := as.ok_le
    rw [Seg.Ok, Seg.Ok]
    exact fun ⟨a, b, c⟩ => ⟨a, Fits.le b (Seg.cpp_le H _).1, h c⟩
  | .anon key => by rw [Seg.Ok, Seg.Ok]; exact id
  | .loc n d => by
    have h := d.ok_le
    rw [Seg.Ok, Seg.Ok]
    exact fun ⟨a, b, c⟩ => ⟨a, Fits.le b (Seg.cpp_le H _).1, h c⟩
theorem Args.ok_le : (as : Args) → as.Ok E → as.Ok E'
  | .nil => by rw [Args.Ok, Args.Ok]; exact id
  | .ty t as => by
    have h := t.ok_le
    have h3 := as.ok_le
    rw [Args.Ok, Args.Ok]; exact fun ⟨a, b⟩ => ⟨h a, h3 b⟩
  | .int neg n as => by
    have h3 := as.ok_le
    rw [Args.Ok, Args.Ok]; exact fun ⟨a, b⟩ => ⟨a, h3 b⟩
  | .pack as => by
    have h3 := as.ok_le
    rw [Args.Ok, Args.Ok]; exact h3
  | .fn s as => by
    have h := s.ok_le
    have h3 := as.ok_le
    rw [Args.Ok, Args.Ok]; exact fun ⟨a, b⟩ => ⟨h a, h3 b⟩
  | .mfn q s as => by
    have h := s.ok_le
    have h3 := as.ok_le
    rw [Args.Ok, Args.Ok]; exact fun ⟨a, b⟩ => ⟨h a, h3 b⟩
  | .arr c v dims el as => by
    have h := el.ok_le
    have h3 := as.ok_le
    rw [Args.Ok, Args.Ok]; exact fun ⟨a, b, c, d⟩ => ⟨a, b, h c, h3 d⟩
  | .tmpl p as => by
    have h := p.isType_le
    have h3 := as.ok_le
    rw [Args.Ok, Args.Ok]; exact fun ⟨a, b⟩ => ⟨h a, h3 b⟩
  | .addr d as => by
    have h := d.ok_le
    have h3 := as.ok_le
    rw [Args.Ok, Args.Ok]; exact fun ⟨a, b, c⟩ => ⟨a, h b, h3 c⟩
  | .ref d as => by
    have h := d.ok_le
    have h3 := as.ok_le
    rw [Args.Ok, Args.Ok]; exact fun ⟨a, b⟩ => ⟨h a, h3 b⟩
  | .memFn d offs as => by
    have h := d.ok_le
    have h3 := as.ok_le
    rw [Args.Ok, Args.Ok]; exact fun ⟨a, b, c⟩ => ⟨a, h b, h3 c⟩
  | .memData offs as => by
    have h3 := as.ok_le
    rw [Args.Ok, Args.Ok]; exact fun ⟨a, b⟩ => ⟨a, h3 b⟩
theorem Targs.ok_le : (ta : Targs) → ta.Ok E → ta.Ok E'
  | .none => by rw [Targs.Ok, Targs.Ok]; exact id
  | .some as => by
    have h := as.ok_le
    rw [Targs.Ok, Targs.Ok]; exact h
theorem Head.ok_le : (h : Head) → h.Ok E → h.Ok E'
  | .id s => by rw [Head.Ok, Head.Ok]; exact id
  | .tm s as => by
    have h := as.ok_le
    rw [Head.Ok, Head.Ok]; exact fun ⟨a, b⟩ => ⟨a, h b⟩
  | .op o ta => by
    have h := ta.ok_le
    rw [Head.Ok, Head.Ok]; exact h
  | .lit s => by rw [Head.Ok, Head.Ok]; exact id
theorem Decl.ok_le : (d : Decl) → d.Ok E → d.Ok E'
  | .var st name scope ty => by
    have h1 := name.ok_le
    have h2 := scope.ok_le
    have h3 := ty.ok_le
    rw [Decl.Ok, Decl.Ok]; exact fun ⟨a, b, c⟩ => ⟨h1 a, h2 b, h3 c⟩
  | .fn k name scope s => by
    have h1 := name.ok_le
    have h2 := scope.ok_le
    have h3 := s.ok_le
    rw [Decl.Ok, Decl.Ok]; exact fun ⟨a, b, c, d⟩ => ⟨a, h1 b, h2 c, h3 d⟩
  | .structor dtor targs k s scope cc ps variadic noexc => by
    have h1 := targs.ok_le
    have h2 := s.ok_le
    have h3 := scope.ok_le
    have h4 := ps.ok_le
    rw [Decl.Ok, Decl.Ok]
    exact fun ⟨⟨a, b, c⟩, d, e, f, g, i⟩ => ⟨⟨a, b, variadicOk_le H c⟩, h1 d, e, h2 f, h3 g, h4 i⟩
  | .conv targs k cls s => by
    have h1 := targs.ok_le
    have h2 := cls.ok_le
    have h3 := s.ok_le
    rw [Decl.Ok, Decl.Ok]
    exact fun ⟨a, b, c, d⟩ => ⟨a, h1 b, h2 c, h3 d⟩
end

/-! ### Symbols -/

theorem Sym.ok_le {y : Sym} (h : y.Ok E) : y.Ok E' := by
  cases y with
  | decl d => exact Decl.ok_le H d h
  | table t cls c v target => exact ⟨Path.ok_le H _ h.1, h.2.imp id (Path.isType_le H _)⟩
  | baseDescriptor nv vb vt fl cls => exact ⟨h.1, Path.ok_le H _ h.2⟩
  | baseArray cls => exact Path.ok_le H cls h
  | hierarchy cls => exact Path.ok_le H cls h
  | vcall cls n cc => exact ⟨h.1, h.2.1, Path.ok_le H _ h.2.2⟩
  | guard th vis scope n => exact ⟨h.1, Path.ok_le H _ h.2⟩
  | initVar dt st name scope ty k s => exact ⟨Decl.ok_le H _ h.1, h.2.1, Sig.ok_le H _ h.2.2⟩
  | initName dt name scope k s => exact Decl.ok_le H (Decl.fn k (.id name) scope s) h

theorem EndSym.ok_le {y : EndSym} (h : y.Ok E) : y.Ok E' := by
  cases y with
  | typeDescriptor t => exact Ty.ok_le H t h
  | typeName t => exact Ty.ok_le H t h
  | guard th vis scope => exact Path.ok_le H scope h

theorem Sym.cpp_le (y : Sym) : S (y.cpp E) (y.cpp E') := by
  have r : ∀ t : Text, S t t := fun t => List.Sublist.refl t
  cases y with
  | decl d => exact Decl.cpp_le H d
  | table t cls c v target =>
    refine ((part_le (le_name H) (r _)).append (Each.cons (P := S) (r _) (Path.names_le H cls).1).path).append ?_
    split
    · exact r _
    · exact ((r _).append (Path.names_le H target).1.path).append (r _)
  | baseDescriptor nv vb vt fl cls => exact (Each.cons (P := S) (r _) (Path.names_le H cls).1).path
  | baseArray cls => exact (Each.cons (P := S) (r _) (Path.names_le H cls).1).path
  | hierarchy cls => exact (Each.cons (P := S) (r _) (Path.names_le H cls).1).path
  | vcall cls n cc =>
    exact ((part_le (le_name H) (r _)).append (le_convBlank H _ _ (le_conv H) cc)).append
      (Each.cons (P := S) (((r _).append (part_le (le_name H) (r _))).append (r _)) (Path.names_le H cls).1).path
  | guard th vis scope n => exact (Each.cons (P := S) (r _) (Path.names_le H scope).1).path
  | initVar dt st name scope ty k s =>
    exact ((((((le_kind H k).append (Sig.ret_le H s)).append (Sig.conv_le H s)).append
      (((r _).append (Decl.cpp_le H _)).append (r _))).append (r _)).append (part_le (le_params H) (Sig.params_le H s))).append (Sig.right_le H s _)
  | initName dt name scope k s =>
    exact ((((((le_kind H k).append (Sig.ret_le H s)).append (Sig.conv_le H s)).append
      (((r _).append (Each.cons (P := S) (r _) (Path.names_le H scope).1).path).append (r _))).append (r _)).append
      (part_le (le_params H) (Sig.params_le H s))).append (Sig.right_le H s _)

omit H in
theorem filter_sp (E : Env) (w : Text) : (Spec.sp E w).filter (· ≠ ' ') = w.filter (· ≠ ' ') := by
  unfold Spec.sp
  split
  · split
    · simp
    · rfl
  · rfl

/-- For names of types up to blanks. -/
theorem EndSym.cpp_le (y : EndSym) :
    ((y.cpp E').filter (· ≠ ' ')).Sublist ((y.cpp E).filter (· ≠ ' ')) ∧ ((∀ t, y ≠ .typeName t) → S (y.cpp E) (y.cpp E')) := by
  have r : ∀ t : Text, S t t := fun t => List.Sublist.refl t
  cases y with
  | typeDescriptor t =>
    have : S ((EndSym.typeDescriptor t).cpp E) ((EndSym.typeDescriptor t).cpp E') := by
      show S (if shows.varType E then _ else _) (if shows.varType E' then _ else _)
      cases h : shows.varType E' with
      | true =>
        rw [le_varType H h, if_pos rfl, if_pos rfl]
        exact (((Ty.left_le H t).sp H).append (r _)).append (Ty.right_le H t)
      | false =>
        cases shows.varType E with
        | true => exact (List.sublist_append_right _ _).trans (List.sublist_append_left _ _)
        | false => exact r _
    exact ⟨this.filter _, fun _ => this⟩
  | typeName t =>
    refine ⟨?_, fun h => absurd rfl (h t)⟩
    have h0 : ((t.cpp E').filter (· ≠ ' ')).Sublist ((t.cpp E).filter (· ≠ ' ')) := List.Sublist.filter _ ((Ty.left_le H t).sub.append (Ty.right_le H t))
    show ((if E'.flags.name_only then _ else _ : Text).filter _).Sublist ((if E.flags.name_only then _ else _ : Text).filter _)
    have hn := H.name
    cases h1 : E.flags.name_only with
    | true => rw [hn h1]; exact h0
    | false =>
      split
      · rw [if_neg (by simp), List.filter_append, filter_sp]
        exact h0.trans (List.sublist_append_left _ _)
      · rw [if_neg (by simp), List.filter_append, List.filter_append, filter_sp, filter_sp]
        exact h0.append (r _)
  | guard th vis scope =>
    have : S ((EndSym.guard th vis scope).cpp E) ((EndSym.guard th vis scope).cpp E') := (Each.cons (P := S) (r _) (Path.names_le H scope).1).path
    exact ⟨this.filter _, fun _ => this⟩

end

end Undname.Spec.Cxx
