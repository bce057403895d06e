/-
  Pairs of trees that print a text and a subsequence of it.
-/
import Verif.Proof.Thin
import Verif.Spec.Denotes

namespace Undname.Spec

/-- The kinds of trees that occur in names without template instantiations. -/
inductive Kd where
  | ty | piece | pieces | name | optName | optTy | tys | params

/-- Two trees that differ only in the names of local scopes, which are shorter in the second. -/
inductive Tw : Kd → T → T → Prop where
  | prim (q k) : Tw .ty (.prim q k) (.prim q k)
  | tag (q k) {n n'} : Tw .name n n' → Tw .ty (.tag q k n) (.tag q k n')
  | ptr (q a) {c c' t t'} : Tw .optName c c' → Tw .ty t t' → Tw .ty (.ptr q a c t) (.ptr q a c' t')
  | array (q d) {e e'} : Tw .ty e e' → Tw .ty (.array q d e) (.array q d e')
  | sig (f) {r r' p p'} : Tw .optTy r r' → Tw .params p p' → Tw .ty (.sig f r p) (.sig f r' p')
  | custom {i i'} : Tw .piece i i' → Tw .ty (.custom i) (.custom i')
  | piece {s s' : Text} : s'.Sublist s → s'.getLast? = s.getLast? → Tw .piece (.named s .nil) (.named s' .nil)
  | pNil : Tw .pieces .nil .nil
  | pCons {a a' l l'} : Tw .piece a a' → Tw .pieces l l' → Tw .pieces (.cons a l) (.cons a' l')
  | qname {l l'} : Tw .pieces l l' → Tw .name (.qname l) (.qname l')
  | onNil : Tw .optName .nil .nil
  | onOne {n n'} : Tw .name n n' → Tw .optName (.cons n .nil) (.cons n' .nil)
  | otNil : Tw .optTy .nil .nil
  | otOne {n n'} : Tw .ty n n' → Tw .optTy (.cons n .nil) (.cons n' .nil)
  | tNil : Tw .tys .nil .nil
  | tCons {a a' l l'} : Tw .ty a a' → Tw .tys l l' → Tw .tys (.cons a l) (.cons a' l')
  | psNil : Tw .params .nil .nil
  | psOne {l l'} : Tw .tys l l' → Tw .params (.cons (.arr l) .nil) (.cons (.arr l') .nil)

section
variable {E E' : Env}

/-- Names. -/
structure NameM (E E' : Env) (n n' : T) : Prop where
  rel : ∀ w w', R E w w' → R E ((T.pr E n).out w) ((T.pr E' n').out w')
  sub : ∀ w w', S w w' → S ((T.pr E n).out w) ((T.pr E' n').out w')

/-- Types. -/
structure TyM (E E' : Env) (t t' : T) : Prop where
  pre : ∀ fp w w', R E w w' → R E ((T.pr E t).pre fp w) ((T.pr E' t').pre fp w')
  post : ∀ b fp w w', R3 b w w' → R3 b ((T.pr E t).post fp w) ((T.pr E' t').post fp w')
  paren : needsParens t' = needsParens t
  opn : ∀ w w', R E w w' → R E (openParen E t w) (openParen E' t' w')
  out : ∀ w, (T.pr E t).out w = (T.pr E t).post false ((T.pr E t).pre false w)
  out' : ∀ w, (T.pr E' t').out w = (T.pr E' t').post false ((T.pr E' t').pre false w)

theorem TyM.full {t t' : T} (h : TyM E E' t t') {w w' : Text} (hw : R E w w') : R3 true ((T.pr E t).out w) ((T.pr E' t').out w') := by
  rw [h.out, h.out']
  exact h.post _ _ _ _ ((h.pre _ _ _ hw).r3 _)

/-- Lists of names. -/
structure PsM (E E' : Env) (l l' : T) : Prop where
  seq : ∀ w w', R E w w' → R E ((T.pr E l).seq c!"::" w) ((T.pr E' l').seq c!"::" w')
  seqS : ∀ w w', S w w' → S ((T.pr E l).seq c!"::" w) ((T.pr E' l').seq c!"::" w')
  tail : ∀ w w', R E w w' → R E ((T.pr E l).tail c!"::" w) ((T.pr E' l').tail c!"::" w')
  tailS : ∀ w w', S w w' → S ((T.pr E l).tail c!"::" w) ((T.pr E' l').tail c!"::" w')

/-- Lists of types. -/
structure TsM (E E' : Env) (l l' : T) : Prop where
  seq : ∀ w w', R E w w' → R3 true ((T.pr E l).seq c!", " w) ((T.pr E' l').seq c!", " w')
  tail : ∀ w w', R3 true w w' → R3 true ((T.pr E l).tail c!", " w) ((T.pr E' l').tail c!", " w')

structure OptNameM (E E' : Env) (n n' : T) : Prop where
  some : (T.pr E' n').some = (T.pr E n).some
  out : ∀ w w', R E w w' → R E ((T.pr E n).out w) ((T.pr E' n').out w')

def KdM (E E' : Env) : Kd → T → T → Prop
  | .ty => TyM E E'
  | .piece | .name => NameM E E'
  | .pieces => PsM E E'
  | .optName => OptNameM E E'
  | .optTy => RetM E E'
  | .tys => TsM E E'
  | .params => ParM E E'

theorem named_out (E : Env) (s : Text) (w : Text) : (T.pr E (.named s .nil)).out w = w ++ s := rfl

theorem open_conv (H : FlagsLe E E') (o : Option CallingConv) {w w' : Text} (h : R E w w') :
    R E (if (!E.flags.no_calling_convention && !E.flags.no_ms_keywords) = true then
        match o with | some cc => sp E (w ++ c!"(") ++ convName E cc ++ c!" " | none => w ++ c!"(" else w ++ c!"(")
      (if (!E'.flags.no_calling_convention && !E'.flags.no_ms_keywords) = true then
        match o with | some cc => sp E' (w' ++ c!"(") ++ convName E' cc ++ c!" " | none => w' ++ c!"(" else w' ++ c!"(") := by
  have h0 : R E (w ++ c!"(") (w' ++ c!"(") := R.fix' h.sub (by simp)
  cases o with
  | none => simpa using h0
  | some cc =>
    have ha := H.cc
    have hm := H.ms
    obtain ⟨hc1, hc2⟩ := convName_thin H cc
    by_cases c2 : (!E'.flags.no_calling_convention && !E'.flags.no_ms_keywords) = true
    · have c1 : (!E.flags.no_calling_convention && !E.flags.no_ms_keywords) = true := by
        revert c2 ha hm
        cases E.flags.no_calling_convention <;> cases E.flags.no_ms_keywords <;> simp +contextual
      rw [if_pos c1, if_pos c2]
      exact R.fix' (List.Sublist.append (h0.sp H).sub hc1) (by simp)
    · rw [if_neg c2]
      split
      · exact R.drop (List.Sublist.trans (h0.sub.grow (sp_grow _)) (List.sublist_append_left _ _)) rfl
      · exact h0

theorem tw_sound (H : FlagsLe E E') {k : Kd} {t t' : T} (h : Tw k t t') : KdM E E' k t t' := by
  induction h with
  | prim q k =>
    refine ⟨fun fp w w' h => ?_, fun _ _ _ _ h => h, rfl, fun _ _ h => h, fun _ => rfl, fun _ => rfl⟩
    exact (h.tail (List.Sublist.refl (primName k)) rfl).after H q
  | @tag q k n n' _ ih =>
    refine ⟨fun fp w w' h => ?_, fun _ _ _ _ h => h, rfl, fun _ _ h => h, fun _ => rfl, fun _ => rfl⟩
    refine R.after H (ih.rel _ _ ?_) q
    have hn := H.name
    have ha := H.tag
    by_cases c2 : (!E'.flags.no_tag_specifier && !E'.flags.name_only) = true
    · have c1 : (!E.flags.no_tag_specifier && !E.flags.name_only) = true := by
        revert c2 hn ha
        cases E.flags.no_tag_specifier <;> cases E.flags.name_only <;> simp +contextual
      rw [if_pos c1, if_pos c2]
      exact h.tail (List.Sublist.refl _) rfl
    · rw [if_neg c2, List.append_nil]
      split
      · exact R.drop h.sub (getLast?_app (by simp))
      · simpa using h
  | @ptr q a c c' t t' _ _ ihc iht =>
    refine ⟨fun fp w w' h => ?_, fun b fp w w' h => ?_, rfl, fun _ _ h => h, fun _ => rfl, fun _ => rfl⟩
    · show R E ((if (T.pr E c).some = true then (T.pr E c).out (openParen E t (sp E ((T.pr E t).pre true w) ++
            (if (!E.flags.no_ms_keywords && q.u) = true then msWord E c!"unaligned" ++ c!" " else []))) ++ c!"::"
          else openParen E t (sp E ((T.pr E t).pre true w) ++
            (if (!E.flags.no_ms_keywords && q.u) = true then msWord E c!"unaligned" ++ c!" " else []))) ++ affName a ++ q.sep E)
        ((if (T.pr E' c').some = true then (T.pr E' c').out (openParen E' t' (sp E' ((T.pr E' t').pre true w') ++
            (if (!E'.flags.no_ms_keywords && q.u) = true then msWord E' c!"unaligned" ++ c!" " else []))) ++ c!"::"
          else openParen E' t' (sp E' ((T.pr E' t').pre true w') ++
            (if (!E'.flags.no_ms_keywords && q.u) = true then msWord E' c!"unaligned" ++ c!" " else []))) ++ affName a ++ q.sep E')
      have h1 := (iht.pre true _ _ h).sp H
      have h2 : R E (sp E ((T.pr E t).pre true w) ++
            (if (!E.flags.no_ms_keywords && q.u) = true then msWord E c!"unaligned" ++ c!" " else []))
          (sp E' ((T.pr E' t').pre true w') ++
            (if (!E'.flags.no_ms_keywords && q.u) = true then msWord E' c!"unaligned" ++ c!" " else [])) := by
        have hm := H.ms
        by_cases c2 : (!E'.flags.no_ms_keywords && q.u) = true
        · have c1 : (!E.flags.no_ms_keywords && q.u) = true := by
            revert c2 hm
            cases E.flags.no_ms_keywords <;> simp +contextual
          rw [if_pos c1, if_pos c2]
          obtain ⟨m1, m2⟩ := msWord_thin H (s := c!"unaligned") (by simp)
          refine h1.tail (List.Sublist.append m1 (List.Sublist.refl _)) ?_
          rw [getLast?_app (by simp), getLast?_app (by simp)]
        · rw [if_neg c2, List.append_nil]
          split
          · exact R.drop h1.sub (getLast?_app (by simp))
          · simpa using h1
      have h3 := iht.opn _ _ h2
      refine R.aff H ?_ a q
      rw [ihc.some]
      split
      · exact List.Sublist.append (ihc.out _ _ h3).sub (List.Sublist.refl _)
      · exact h3.sub
    · refine iht.post _ _ _ _ ?_
      rw [iht.paren]
      split
      · exact h.app (List.Sublist.refl _) (by decide)
      · simpa using h
  | @array q d e e' _ ih =>
    refine ⟨fun fp w w' h => (ih.pre _ _ _ h).after H q, fun b fp w w' h => ?_, rfl, fun _ _ h => ?_, fun _ => rfl, fun _ => rfl⟩
    · refine ih.post _ _ _ _ (h.app (List.Sublist.refl _) ?_)
      cases d with
      | nil => decide
      | cons d ds => unfold bounds; rw [getLast?_app (by simp)]; decide
    · exact R.fix' h.sub (by simp)
  | @sig f r r' p p' _ _ ihr ihp =>
    refine ⟨fun fp w w' h => sigPre_thin H ihr f fp h, fun b fp w w' h => sigPost_thin H ihr ihp f fp b h, rfl, fun w w' h => ?_,
      fun _ => rfl, fun _ => rfl⟩
    exact open_conv H f.conv h
  | custom _ ih => exact ⟨fun _ => ih.rel, fun _ _ _ _ h => h, rfl, fun _ _ h => h, fun _ => rfl, fun _ => rfl⟩
  | piece h1 h2 => exact ⟨fun w w' h => h.tail h1 h2, fun w w' h => List.Sublist.append h h1⟩
  | pNil => exact ⟨fun _ _ h => h, fun _ _ h => h, fun _ _ h => h, fun _ _ h => h⟩
  | pCons _ _ iha ih =>
    exact ⟨fun w w' h => ih.tail _ _ (iha.rel _ _ h), fun w w' h => ih.tailS _ _ (iha.sub _ _ h),
      fun w w' h => ih.tail _ _ (iha.rel _ _ (h.tail (List.Sublist.refl _) rfl)),
      fun w w' h => ih.tailS _ _ (iha.sub _ _ (List.Sublist.append h (List.Sublist.refl _)))⟩
  | qname _ ih => exact ⟨ih.seq, ih.seqS⟩
  | onNil => exact ⟨rfl, fun _ _ h => h⟩
  | onOne _ ih => exact ⟨rfl, ih.rel⟩
  | otNil => exact ⟨rfl, fun _ _ h => h, fun _ _ _ h => h⟩
  | otOne _ ih => exact ⟨rfl, ih.pre _, fun b => ih.post b _⟩
  | tNil => exact ⟨fun _ _ h => h.r3 _, fun _ _ h => h⟩
  | tCons _ _ iha ih =>
    exact ⟨fun w w' h => ih.tail _ _ (iha.full h), fun w w' h => ih.tail _ _ (iha.full (R.fix' h.sub (by simp)))⟩
  | psNil => exact ⟨rfl, fun _ _ h => h.r3 _⟩
  | psOne _ ih => exact ⟨rfl, ih.seq⟩

end

end Undname.Spec
