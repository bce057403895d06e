/-
  The trees a name denotes under different flags differ only in the names of local scopes.
-/
import Verif.Proof.Thin2
import Verif.Proof.Twin

namespace Undname.Spec

/-! ### Pairs of trees -/

theorem Tw.refl_piece (s : Text) : Tw .piece (.named s .nil) (.named s .nil) := .piece (List.Sublist.refl _) rfl

theorem Tw.addQ {t t' : T} (h : Tw .ty t t') (q : CV) : Tw .ty (t.addQ q) (t'.addQ q) := by
  cases h with
  | prim q' k => exact .prim _ _
  | tag q' k h => exact .tag _ _ h
  | ptr q' a h1 h2 => exact .ptr _ _ h1 h2
  | array q' d h => exact .array _ _ h
  | sig f h1 h2 => exact .sig _ h1 h2
  | custom h => exact .custom h

theorem Tw.setQ {t t' : T} (h : Tw .ty t t') (q : CV) : Tw .ty (t.setQ q) (t'.setQ q) := by
  cases h with
  | prim q' k => exact .prim _ _
  | tag q' k h => exact .tag _ _ h
  | ptr q' a h1 h2 => exact .ptr _ _ h1 h2
  | array q' d h => exact .array _ _ h
  | sig f h1 h2 => exact .sig _ h1 h2
  | custom h => exact .custom h

theorem Tw.isPtr {t t' : T} (h : Tw .ty t t') : t'.isPtr = t.isPtr := by cases h <;> rfl

theorem Tw.isPlain {t t' : T} (h : Tw .piece t t') : t'.isPlain = true := by cases h; rfl

theorem Tw.snoc {l l' a a' : T} (h : Tw .pieces l l') (ha : Tw .piece a a') : Tw .pieces (l.snoc a) (l'.snoc a') := by
  generalize hk : Kd.pieces = k at h
  induction h with
  | pNil => exact .pCons ha .pNil
  | pCons h1 _ _ ih => exact .pCons h1 (ih rfl)
  | _ => cases hk

theorem Tw.snoc_inv {ps c L : T} (h : Tw .pieces (ps.snoc c) L) : ∃ ps' c' : T, L = ps'.snoc c' ∧ Tw .piece c c' := by
  have base : ∀ L, Tw .pieces (.cons c .nil) L → ∃ ps' c' : T, L = ps'.snoc c' ∧ Tw .piece c c' := by
    intro L h
    cases h with
    | pCons h1 h2 => cases h2; exact ⟨.nil, _, rfl, h1⟩
  induction ps generalizing L with
  | cons a as _ ih =>
    cases h with
    | pCons h1 h2 =>
      obtain ⟨ps', c', rfl, hc⟩ := ih h2
      exact ⟨.cons _ ps', c', rfl, hc⟩
  | _ => exact base _ h

/-- Signatures of functions. -/
inductive Sg2 : T → T → Prop where
  | sig (f) {r r' p p'} : Tw .optTy r r' → Tw .params p p' → Sg2 (.sig f r p) (.sig f r' p')
  | thunk (f adj) {r r' p p'} : Tw .optTy r r' → Tw .params p p' → Sg2 (.thunk f adj r p) (.thunk f adj r' p')

section
variable {E E' : Env}

theorem Sg2.pre (H : FlagsLe E E') {s s' : T} (h : Sg2 s s') {w w' : Text} (hw : R E w w') :
    R E ((T.pr E s).pre false w) ((T.pr E' s').pre false w') := by
  cases h with
  | sig f hr hp => exact sigPre_thin H (tw_sound H hr) f false hw
  | thunk f adj hr hp =>
    refine sigPre_thin H (tw_sound H hr) f false ?_
    have hn := H.name
    unfold thunkPrefix
    cases h1 : E.flags.name_only with
    | true => rw [hn h1]; simpa using hw
    | false =>
      cases h2 : E'.flags.name_only with
      | true => simpa using R.drop (a := c!"[thunk]: ") hw.sub rfl
      | false => exact hw.tail (List.Sublist.refl _) rfl

theorem Sg2.post (H : FlagsLe E E') {s s' : T} (h : Sg2 s s') {w w' : Text} (hw : S w w') :
    S ((T.pr E s).post false w) ((T.pr E' s').post false w') := by
  cases h with
  | sig f hr hp => exact (sigPost_thin H (tw_sound H hr) (tw_sound H hp) f false false hw.r3).sub
  | thunk f adj hr hp =>
    refine (sigPost_thin H (tw_sound H hr) (tw_sound H hp) f false false (S.r3 ?_)).sub
    exact List.Sublist.append hw (List.Sublist.refl _)

/-- Names of symbols. -/
def NmM (E E' : Env) (n n' : T) : Prop := ∀ w w', S w w' → S ((T.pr E n).out w) ((T.pr E' n').out w')

theorem snoc_nm (H : FlagsLe E E') {ps ps' i i' : T} (h : Tw .pieces ps ps') (hi : NmM E E' i i') :
    NmM E E' (.qname (ps.snoc i)) (.qname (ps'.snoc i')) := by
  have key : (∀ w w', S w w' → S ((T.pr E (ps.snoc i)).seq c!"::" w) ((T.pr E' (ps'.snoc i')).seq c!"::" w')) ∧
      ∀ w w', S w w' → S ((T.pr E (ps.snoc i)).tail c!"::" w) ((T.pr E' (ps'.snoc i')).tail c!"::" w') := by
    generalize hk : Kd.pieces = k at h
    induction h with
    | pNil => exact ⟨hi, fun w w' h => hi _ _ (List.Sublist.append h (List.Sublist.refl _))⟩
    | pCons h1 _ _ ih =>
      have ha : NameM E E' _ _ := tw_sound H h1
      obtain ⟨_, i2⟩ := ih rfl
      exact ⟨fun w w' h => i2 _ _ (ha.sub _ _ h), fun w w' h => i2 _ _ (ha.sub _ _ (List.Sublist.append h (List.Sublist.refl _)))⟩
    | _ => cases hk
  exact key.1

/-- Identifiers that do not depend on flags. -/
inductive Id1 : T → Prop where
  | named (s) : Id1 (.named s .nil)
  | op (o) : Id1 (.op o .nil)
  | lit (s) : Id1 (.lit s .nil)
  | structor (d) : Id1 (.structor d .nil .nil)
  | conv : Id1 (.conv .nil .nil)

theorem app_nm {i i' : T} (a : Text) (h : ∀ w, (T.pr E i).out w = w ++ a) (h' : ∀ w, (T.pr E' i').out w = w ++ a) : NmM E E' i i' := by
  intro w w' hw
  rw [h, h']
  exact List.Sublist.append hw (List.Sublist.refl _)

theorem Id1.nm {i : T} (h : Id1 i) : NmM E E' i i := by
  cases h with
  | named s => exact app_nm s (fun _ => rfl) (fun _ => rfl)
  | op o => exact app_nm _ (fun _ => rfl) (fun _ => rfl)
  | lit s => exact app_nm (c!"operator \"\"" ++ s) (fun w => (List.append_assoc ..)) (fun w => (List.append_assoc ..))
  | structor d => exact app_nm _ (fun _ => rfl) (fun _ => rfl)
  | conv => exact app_nm (c!"operator" ++ c!" ") (fun w => (List.append_assoc ..)) (fun w => (List.append_assoc ..))

theorem structor_nm (H : FlagsLe E E') {c c' : T} (h : Tw .piece c c') (d : Bool) :
    NmM E E' (.structor d c.one .nil) (.structor d c'.one .nil) := by
  intro w w' hw
  have ha : NameM E E' _ _ := tw_sound H h
  exact ha.sub _ _ (List.Sublist.append hw (List.Sublist.refl _))

theorem conv_nm (H : FlagsLe E E') {r r' : T} (h : Tw .ty r r') : NmM E E' (.conv .nil r.one) (.conv .nil r'.one) := by
  intro w w' hw
  have ha : TyM E E' _ _ := tw_sound H h
  exact (ha.full (R.fix' (List.Sublist.append hw (List.Sublist.refl _)) (by simp))).sub

theorem qname1_nm {i i' : T} (h : NmM E E' i i') : NmM E E' (.qname (T.one i)) (.qname (T.one i')) := h

/-- Declarations. -/
inductive Dc (E E' : Env) : T → T → Prop where
  | var (sc) {n n' t t'} : NmM E E' n n' → Tw .optTy t t' → Dc E E' (.var sc n t) (.var sc n' t')
  | fn {n n' s s'} : NmM E E' n n' → Sg2 s s' → Dc E E' (.fn n s) (.fn n' s')

/-- Symbols. -/
def SymM (E E' : Env) (t t' : T) : Prop := ∀ w w', R E w w' → S ((T.pr E t).out w) ((T.pr E' t').out w')

theorem NmM.same {n n' : T} (h : NmM E E' n n') : SymM E E' (.same n) (.same n') := fun w w' hw => h w w' hw.sub

theorem storage_thin (H : FlagsLe E E') (sc : Option StorageClass) {w w' : Text} (h : R E w w') :
    R E (w ++ storageText E sc) (w' ++ storageText E' sc) := by
  have hn := H.name
  have ha := H.acc
  have hm := H.mem
  unfold storageText
  cases storageAccess sc with
  | none => simpa using h
  | some a =>
    dsimp only
    by_cases c2 : (!E'.flags.no_access_specifier && !E'.flags.name_only) = true
    · have c1 : (!E.flags.no_access_specifier && !E.flags.name_only) = true := by
        revert c2 hn ha
        cases E.flags.no_access_specifier <;> cases E.flags.name_only <;> simp +contextual
      rw [if_pos c1, if_pos c2]
      by_cases d2 : (!E'.flags.no_member_type && !E'.flags.name_only) = true
      · have d1 : (!E.flags.no_member_type && !E.flags.name_only) = true := by
          revert d2 hn hm
          cases E.flags.no_member_type <;> cases E.flags.name_only <;> simp +contextual
        rw [if_pos d1, if_pos d2]
        exact h.tail (List.Sublist.refl _) rfl
      · rw [if_neg d2, List.append_nil, ← List.append_assoc]
        have h1 : R E (w ++ accessName a) (w' ++ accessName a) := h.tail (List.Sublist.refl _) rfl
        split
        · exact R.drop h1.sub rfl
        · simpa using h1
    · rw [if_neg c2, List.nil_append]
      by_cases d2 : (!E'.flags.no_member_type && !E'.flags.name_only) = true
      · have d1 : (!E.flags.no_member_type && !E.flags.name_only) = true := by
          revert d2 hn hm
          cases E.flags.no_member_type <;> cases E.flags.name_only <;> simp +contextual
        rw [if_pos d1, if_pos d2, ← List.append_assoc]
        exact R.fix' (List.Sublist.trans h.sub (List.sublist_append_left _ _)) (by simp)
      · rw [if_neg d2, List.append_nil]
        split <;> split
        · exact R.drop h.sub (by cases a <;> rfl)
        · rw [List.append_nil]; exact R.drop h.sub (by cases a <;> rfl)
        · exact R.drop h.sub rfl
        · simpa using h

theorem Dc.sym (H : FlagsLe E E') {t t' : T} (h : Dc E E' t t') : SymM E E' t t' := by
  intro w w' hw
  cases h with
  | @var sc n n' t t' h1 h2 =>
    have hr : RetM E E' t t' := tw_sound H h2
    have h0 := storage_thin H sc hw
    show S (if (!E.flags.no_variable_type && !E.flags.name_only && (T.pr E t).some) = true then
        (T.pr E t).post false ((T.pr E n).out (sp E ((T.pr E t).pre false (w ++ storageText E sc))))
        else (T.pr E n).out (w ++ storageText E sc))
      (if (!E'.flags.no_variable_type && !E'.flags.name_only && (T.pr E' t').some) = true then
        (T.pr E' t').post false ((T.pr E' n').out (sp E' ((T.pr E' t').pre false (w' ++ storageText E' sc))))
        else (T.pr E' n').out (w' ++ storageText E' sc))
    generalize w ++ storageText E sc = v at h0 ⊢
    generalize w' ++ storageText E' sc = v' at h0 ⊢
    by_cases c2 : (!E'.flags.no_variable_type && !E'.flags.name_only && (T.pr E' t').some) = true
    · have c1 : (!E.flags.no_variable_type && !E.flags.name_only && (T.pr E t).some) = true := by
        have hn := H.name
        have hv := H.var
        rw [hr.some] at c2
        revert c2 hn hv
        cases E.flags.no_variable_type <;> cases E.flags.name_only <;> simp +contextual
      rw [if_pos c1, if_pos c2]
      exact (hr.post false _ _ (S.r3 (h1 _ _ ((hr.pre _ _ h0).sp H).sub))).sub
    · rw [if_neg c2]
      split
      · refine S.grow (h1 _ _ ?_) ((pr_grow t).post _ _)
        exact h0.sub.grow (List.IsPrefix.trans ((pr_grow t).pre _ _) (sp_grow _))
      · exact h1 _ _ h0.sub
  | fn h1 h2 => exact h2.post H (h1 _ _ ((h2.pre H hw).sp H).sub)

theorem empty_R : R E [] [] := ⟨List.Sublist.refl _, fun h => .inl h, fun h => h⟩

theorem SymM.text {t t' : T} (h : SymM E E' t t') : S (t.text E) (t'.text E') := h [] [] empty_R

theorem local_thin {s s' : T} (h : S (s.text E) (s'.text E')) (n : Nat) :
    Tw .piece (.named (localName E s n) .nil) (.named (localName E' s' n) .nil) := by
  unfold localName
  refine .piece ?_ ?_
  · refine List.Sublist.append (List.Sublist.append (List.Sublist.append (List.Sublist.append ?_ h) ?_) ?_) ?_ <;>
      exact List.Sublist.refl _
  · rw [getLast?_app (by simp), getLast?_app (by simp)]

theorem utf8Len_sublist {a b : Text} (h : a.Sublist b) : utf8Len a ≤ utf8Len b := by
  induction h with
  | slnil => exact Nat.le_refl _
  | cons _ _ ih => exact Nat.le_trans ih (Nat.le_add_left _ _)
  | cons_cons _ _ ih => exact Nat.add_le_add_left ih _

theorem Fits.thin {a b : Text} (h : Fits a) (hs : S a b) : Fits b := Nat.lt_of_le_of_lt (utf8Len_sublist hs) h

theorem local_fits {s s' : T} (h : S (s.text E) (s'.text E')) {n : Nat} (hf : Fits (localName E s n)) : Fits (localName E' s' n) := by
  cases local_thin h n with
  | piece h1 _ => exact hf.thin h1

theorem hash_nm (s : Text) : S ((hashT s).text E) ((hashT s).text E') := List.Sublist.refl _

theorem str_thin (k : CharKind) (s : Text) (cut : Bool) {w w' : Text} (h : S w w') :
    S ((T.pr E (.str k s cut)).out w) ((T.pr E' (.str k s cut)).out w') := by
  refine List.Sublist.append (List.Sublist.append (List.Sublist.append (List.Sublist.append (List.Sublist.append h ?_) ?_) ?_) ?_) ?_ <;>
    exact List.Sublist.refl _

theorem table_thin (H : FlagsLe E E') (q : CV) {n n' c c' : T} (hn : NmM E E' n n') (hc : Tw .optName c c') :
    SymM E E' (.table q n c) (.table q n' c') := by
  intro w w' hw
  have h0 : S (w ++ (if E.flags.name_only = true then [] else q.before E)) (w' ++ (if E'.flags.name_only = true then [] else q.before E')) := by
    refine List.Sublist.append hw.sub ?_
    have := H.name
    cases h1 : E.flags.name_only with
    | true => rw [this h1]; exact List.Sublist.refl _
    | false =>
      split
      · exact List.nil_sublist _
      · exact before_thin H q
  have h1 := hn _ _ h0
  cases hc with
  | onNil => exact h1
  | onOne hc =>
    have hc : NameM E E' _ _ := tw_sound H hc
    exact List.Sublist.append (hc.sub _ _ (List.Sublist.append h1 (List.Sublist.refl _))) (List.Sublist.refl _)

theorem vcall_nm (H : FlagsLe E E') (n : Nat) : NmM E E' (.vcall n) (.vcall n) := by
  intro w w' hw
  refine List.Sublist.append (List.Sublist.append (List.Sublist.append (List.Sublist.append hw ?_) ?_) ?_) ?_
  · exact List.Sublist.refl _
  · exact List.Sublist.refl _
  · have := H.name
    cases h1 : E.flags.name_only with
    | true => rw [this h1]; exact List.Sublist.refl _
    | false =>
      split
      · exact List.nil_sublist _
      · exact List.Sublist.refl _
  · exact List.Sublist.refl _

theorem base_nm {nv : Nat} {vb : Int} {vt fl : Nat} : NmM E E' (.baseDescr nv vb vt fl) (.baseDescr nv vb vt fl) :=
  app_nm (c!"`RTTI Base Class Descriptor at (" ++ nat nv ++ c!", " ++ sint vb ++ c!", " ++ nat vt ++
        c!", " ++ nat fl ++ c!")'") (fun w => by simp [T.pr, Pr.ofText]) (fun w => by simp [T.pr, Pr.ofText])

theorem guard_nm {th : Bool} {i : Nat} : NmM E E' (.guardId th i) (.guardId th i) :=
  app_nm ((if th then c!"`local static thread guard'" else c!"`local static guard'") ++
        (if i = 0 then [] else c!"{" ++ nat i ++ c!"}")) (fun w => (List.append_assoc ..)) (fun w => (List.append_assoc ..))

theorem dynVar_nm {v v' : T} (d : Bool) (h : SymM E E' v v') : NmM E E' (.dynVar d v) (.dynVar d v') := by
  intro w w' hw
  refine List.Sublist.append (h _ _ (R.fix' (List.Sublist.append hw (List.Sublist.refl _)) (by simp))) (List.Sublist.refl _)

theorem dynFn_nm {v v' : T} (d : Bool) (h : NmM E E' v v') : NmM E E' (.dynFn d v) (.dynFn d v') := by
  intro w w' hw
  refine List.Sublist.append (h _ _ (List.Sublist.append (List.Sublist.append hw (List.Sublist.refl _)) (List.Sublist.refl _))) (List.Sublist.refl _)

/-! ### Tables -/

inductive PW : List T → List T → Prop where
  | nil : PW [] []
  | cons {a a' l l'} : Tw .ty a a' → PW l l' → PW (a :: l) (a' :: l')

theorem PW.length {l l' : List T} (h : PW l l') : l'.length = l.length := by
  induction h with
  | nil => rfl
  | cons _ _ ih => simp [ih]

theorem PW.snoc {l l' : List T} {a a' : T} (h : PW l l') (ha : Tw .ty a a') : PW (l ++ [a]) (l' ++ [a']) := by
  induction h with
  | nil => exact .cons ha .nil
  | cons h1 _ ih => exact .cons h1 ih

theorem PW.get {l l' : List T} (h : PW l l') {i : Nat} {t : T} (hi : l[i]? = some t) : ∃ t', l'[i]? = some t' ∧ Tw .ty t t' := by
  induction h generalizing i with
  | nil => cases hi
  | cons h1 _ ih =>
    cases i with
    | zero => cases hi; exact ⟨_, rfl, h1⟩
    | succ i => exact ih hi

structure TR (tb tb2 : Tbl) : Prop where
  names : tb2.names = tb.names
  params : PW tb.params tb2.params

theorem TR.empty : TR {} {} := ⟨rfl, .nil⟩

theorem TR.note {tb tb2 : Tbl} (h : TR tb tb2) (s : Text) : TR (tb.note s) (tb2.note s) := by
  unfold Tbl.note
  rw [h.names]
  split
  · exact ⟨by dsimp only, h.params⟩
  · exact h

theorem TR.noteParam {tb tb2 : Tbl} (h : TR tb tb2) {t t' : T} (ht : Tw .ty t t') : TR (tb.noteParam t) (tb2.noteParam t') := by
  unfold Tbl.noteParam
  rw [h.params.length]
  split
  · exact ⟨h.names, h.params.snoc ht⟩
  · exact h

/-! ### Names without template instantiations -/

theorem _root_.Undname.NoT.l {a b : Text} (h : NoT (a ++ b)) : NoT a := fun hi => h (hi.trans ⟨[], b, by simp⟩)
theorem _root_.Undname.NoT.r {a b : Text} (h : NoT (a ++ b)) : NoT b := fun hi => h (hi.trans ⟨a, [], by simp⟩)
theorem _root_.Undname.NoT.tl {a : Char} {b : Text} (h : NoT (a :: b)) : NoT b := fun hi => h (hi.trans ⟨[a], [], by simp⟩)

/-- How the trees are related. -/
def Pair (E E' : Env) : Cat → T → T → Prop
  | .ty | .tyR | .fty _ => Tw .ty
  | .ret => Tw .optTy
  | .plist => Tw .tys
  | .params _ => Tw .params
  | .uname | .piece => Tw .piece
  | .scopes => Tw .pieces
  | .qtn => Tw .name
  | .fid | .sname => fun t t2 => t2 = t ∧ Id1 t
  | .fenc => Sg2
  | .decl => Dc E E'
  | .sym => SymM E E'
  | .symEnd => fun t t2 => SymM E E' t t2 ∨ ∃ u u2, t = .typeDescr u ∧ t2 = .typeDescr u2 ∧ Tw .ty u u2
  | _ => fun _ _ => True

def Twinned (E E' : Env) (tb' tb2 : Tbl) (t : T) (x : Text) : Cat → Prop
  | .tmpl => False
  | .targs | .targ _ | .targN _ _ => True
  | cat => ∃ t2 tb2', Gram E' cat tb2 t2 x tb2' ∧ Pair E E' cat t t2 ∧ TR tb' tb2'

theorem gram_thin (H : FlagsLe E E') {cat : Cat} {tb tb' : Tbl} {t : T} {x : Text} (h : Gram E cat tb t x tb') (hx : NoT x) (tb2 : Tbl)
    (ht : TR tb tb2) : Twinned E E' tb' tb2 t x cat := by
  induction h generalizing tb2 with
  | prim k => exact ⟨_, _, .prim k, .prim _ _, ht⟩
  | tag k _ ih =>
    obtain ⟨n2, _, g, p, r⟩ := ih hx.r _ ht
    exact ⟨_, _, .tag k g, .tag _ _ p, r⟩
  | ptr e h1 h2 _ ih =>
    obtain ⟨n2, _, g, p, r⟩ := ih hx.r.tl _ ht
    exact ⟨_, _, .ptr e h1 h2 g, .ptr _ _ .onNil (p.addQ _), r⟩
  | ptrRefMember e h1 h2 h3 _ ih =>
    obtain ⟨n2, _, g, p, r⟩ := ih hx.r.tl _ ht
    exact ⟨_, _, .ptrRefMember e h1 h2 h3 g, .ptr _ _ .onNil (p.addQ _), r⟩
  | ptrFn h1 _ ih =>
    obtain ⟨n2, _, g, p, r⟩ := ih hx.r.tl _ ht
    exact ⟨_, _, .ptrFn h1 g, .ptr _ _ .onNil p, r⟩
  | ptrMember e h1 h2 _ _ ihn ih =>
    obtain ⟨n2, _, gn, pn, rn⟩ := ihn hx.l.r.tl _ ht
    obtain ⟨t2, _, g, p, r⟩ := ih hx.r _ rn
    exact ⟨_, _, .ptrMember e h1 h2 gn g, .ptr _ _ (.onOne pn) (p.setQ _), r⟩
  | ptrMemberFn h1 _ _ ihn ih =>
    obtain ⟨n2, _, gn, pn, rn⟩ := ihn hx.l.r.tl _ ht
    obtain ⟨t2, _, g, p, r⟩ := ih hx.r _ rn
    exact ⟨_, _, .ptrMemberFn h1 gn g, .ptr _ _ (.onOne pn) p, r⟩
  | array h1 h2 h3 _ ih =>
    obtain ⟨n2, _, g, p, r⟩ := ih hx.r _ ht
    exact ⟨_, _, .array h1 h2 h3 g, .array _ _ p, r⟩
  | arrayQ h1 h2 h3 h4 _ ih =>
    obtain ⟨n2, _, g, p, r⟩ := ih hx.r.tl _ ht
    exact ⟨_, _, .arrayQ h1 h2 h3 h4 g, .array _ _ p, r⟩
  | fnType _ ih =>
    obtain ⟨n2, _, g, p, r⟩ := ih hx.r _ ht
    exact ⟨_, _, .fnType g, p, r⟩
  | fnTypeThis _ ih =>
    obtain ⟨n2, _, g, p, r⟩ := ih hx.r _ ht
    exact ⟨_, _, .fnTypeThis g, p, r⟩
  | custom _ ih =>
    obtain ⟨n2, _, g, p, r⟩ := ih hx.l.tl _ ht
    exact ⟨_, _, .custom g, .custom p, r⟩
  | customOdd h1 h2 => exact ⟨_, _, .customOdd h1 h2, .custom (.refl_piece _), ht.note _⟩
  | resPlain _ h2 ih =>
    obtain ⟨n2, _, g, p, r⟩ := ih hx _ ht
    exact ⟨_, _, .resPlain g h2, p, r⟩
  | resQual h1 _ ih =>
    obtain ⟨n2, _, g, p, r⟩ := ih hx.tl.tl _ ht
    exact ⟨_, _, .resQual h1 g, p.addQ _, r⟩
  | retNone => exact ⟨_, _, .retNone, .otNil, ht⟩
  | retSome _ ih =>
    obtain ⟨n2, _, g, p, r⟩ := ih hx _ ht
    exact ⟨_, _, .retSome g, .otOne p, r⟩
  | pNil => exact ⟨_, _, .pNil, .tNil, ht⟩
  | pBack h1 h2 _ ih =>
    obtain ⟨t2, e2, p2⟩ := ht.params.get h2
    obtain ⟨n2, _, g, p, r⟩ := ih hx.r _ ht
    exact ⟨_, _, .pBack h1 e2 g, .tCons p2 p, r⟩
  | pLetter _ h2 _ iht ih =>
    obtain ⟨t2, _, g2, p2, r2⟩ := iht hx.l _ ht
    obtain ⟨n2, _, g, p, r⟩ := ih hx.r _ r2
    exact ⟨_, _, .pLetter g2 h2 g, .tCons p2 p, r⟩
  | pType _ h2 _ iht ih =>
    obtain ⟨t2, _, g2, p2, r2⟩ := iht hx.l _ ht
    obtain ⟨n2, _, g, p, r⟩ := ih hx.r _ (r2.noteParam p2)
    exact ⟨_, _, .pType g2 h2 g, .tCons p2 p, r⟩
  | pVoid => exact ⟨_, _, .pVoid, .psNil, ht⟩
  | pFixed _ h2 ih =>
    obtain ⟨n2, _, g, p, r⟩ := ih hx.l _ ht
    exact ⟨_, _, .pFixed g h2, .psOne p, r⟩
  | pVariadic _ h2 ih =>
    obtain ⟨n2, _, g, p, r⟩ := ih hx.l _ ht
    exact ⟨_, _, .pVariadic g h2, .psOne p, r⟩
  | fn cc noexc _ _ ihr ih =>
    obtain ⟨r2, _, gr, pr, rr⟩ := ihr hx.l.l.tl _ ht
    obtain ⟨n2, _, g, p, r⟩ := ih hx.l.r _ rr
    exact ⟨_, _, .fn cc noexc gr g, .sig _ pr p, r⟩
  | fnThis e rf cc noexc h1 _ _ ihr ih =>
    obtain ⟨r2, _, gr, pr, rr⟩ := ihr hx.l.l.r.tl.tl _ ht
    obtain ⟨n2, _, g, p, r⟩ := ih hx.l.r _ rr
    exact ⟨_, _, .fnThis e rf cc noexc h1 gr g, .sig _ pr p, r⟩
  | uBack h1 h2 => exact ⟨_, _, .uBack h1 (by rw [ht.names]; exact h2), .refl_piece _, ht⟩
  | uName h1 => exact ⟨_, _, .uName h1, .refl_piece _, ht.note _⟩
  | uTmpl _ _ _ ih => exact (ih hx _ ht).elim
  | fName h1 => exact ⟨_, _, .fName h1, ⟨rfl, .named _⟩, ht.note _⟩
  | fOp h1 => exact ⟨_, _, .fOp h1, ⟨rfl, .op _⟩, ht⟩
  | fOpUnder h1 => exact ⟨_, _, .fOpUnder h1, ⟨rfl, .op _⟩, ht⟩
  | fOpDunder h1 => exact ⟨_, _, .fOpDunder h1, ⟨rfl, .op _⟩, ht⟩
  | fOpNone h1 => exact ⟨_, _, .fOpNone h1, ⟨rfl, .op _⟩, ht⟩
  | fOpNone2 h1 => exact ⟨_, _, .fOpNone2 h1, ⟨rfl, .op _⟩, ht⟩
  | fLit h1 h2 => exact ⟨_, _, .fLit h1 h2, ⟨rfl, .lit _⟩, ht⟩
  | fCtor => exact ⟨_, _, .fCtor, ⟨rfl, .structor _⟩, ht⟩
  | fDtor => exact ⟨_, _, .fDtor, ⟨rfl, .structor _⟩, ht⟩
  | fConv => exact ⟨_, _, .fConv, ⟨rfl, .conv⟩, ht⟩
  | tmpl _ _ _ _ => exact absurd (List.infix_refl _) hx.l.l
  | tmplTmpl _ _ _ _ => exact absurd (List.infix_refl _) hx.l.l
  | sBack h1 h2 => exact ⟨_, _, .sBack h1 (by rw [ht.names]; exact h2), ⟨rfl, .named _⟩, ht⟩
  | sFull _ ih =>
    obtain ⟨n2, _, g, p, r⟩ := ih hx _ ht
    exact ⟨_, _, .sFull g, p, r⟩
  | sTmpl _ ih => exact (ih hx _ ht).elim
  | scName _ ih =>
    obtain ⟨n2, _, g, p, r⟩ := ih hx _ ht
    exact ⟨_, _, .scName g, p, r⟩
  | scAnon h1 => exact ⟨_, _, .scAnon h1, .refl_piece _, ht.note _⟩
  | scLocal h1 _ h3 ih =>
    obtain ⟨n2, _, g, p, r⟩ := ih hx.r.tl _ ht
    have p : SymM E E' _ _ := p
    exact ⟨_, _, .scLocal h1 g (local_fits p.text h3), local_thin p.text _, r⟩
  | scNil => exact ⟨_, _, .scNil, .pNil, ht⟩
  | scCons _ _ ih1 ih2 =>
    obtain ⟨_, _, g1, p1, r1⟩ := ih1 hx.l _ ht
    obtain ⟨_, _, g2, p2, r2⟩ := ih2 hx.r _ r1
    exact ⟨_, _, .scCons g1 g2, p2.snoc p1, r2⟩
  | scOdd h1 h2 h3 h4 _ ih =>
    obtain ⟨n2, _, g, p, r⟩ := ih hx.r.tl _ (ht.note _)
    exact ⟨_, _, .scOdd h1 h2 h3 h4 g, p.snoc (.refl_piece _), r⟩
  | scLocalHash h1 h2 h3 h4 _ ih =>
    obtain ⟨n2, _, g, p, r⟩ := ih hx.r _ ht
    exact ⟨_, _, .scLocalHash h1 h2 h3 (local_fits (hash_nm _) h4) g, p.snoc (local_thin (hash_nm _) _), r⟩
  | qtnOdd h1 h2 _ ih =>
    obtain ⟨n2, _, g, p, r⟩ := ih hx.r.tl _ (ht.note _)
    exact ⟨_, _, .qtnOdd h1 h2 g, .qname (p.snoc (.refl_piece _)), r⟩
  | qtn _ _ ih1 ih2 =>
    obtain ⟨_, _, g1, p1, r1⟩ := ih1 hx.l _ ht
    obtain ⟨_, _, g2, p2, r2⟩ := ih2 hx.r _ r1
    exact ⟨_, _, .qtn g1 g2, .qname (p2.snoc p1), r2⟩
  | taNil => trivial
  | taPack => trivial
  | taCons => trivial
  | taAuto => trivial
  | taConsN => trivial
  | taAutoN => trivial
  | nNull => trivial
  | nHash => trivial
  | nHashRef => trivial
  | aHash => trivial
  | aTypeAuto => trivial
  | aType => trivial
  | aTypeB => trivial
  | aTypeC => trivial
  | aName => trivial
  | aInt => trivial
  | aNull => trivial
  | aSym => trivial
  | aRef => trivial
  | aData => trivial
  | fenc extC h1 h2 _ ih =>
    obtain ⟨n2, _, g, p, r⟩ := ih hx.r _ ht
    cases p with
    | sig f pr pp =>
      refine ⟨_, _, .fenc extC h1 h2 g, ?_, r⟩
      show Sg2 _ _
      split
      · exact .sig _ pr pp
      · exact .thunk _ _ pr pp
  | fencBare extC => exact ⟨_, _, .fencBare extC, .sig _ .otNil .psNil, ht⟩
  | var _ h2 _ h4 _ h6 h7 ih1 ih2 ih3 =>
    obtain ⟨i2, _, g1, ⟨rfl, p1⟩, r1⟩ := ih1 hx.l.l.l _ ht
    obtain ⟨_, _, g2, p2, r2⟩ := ih2 hx.l.l.r _ r1
    obtain ⟨_, _, g3, p3, r3⟩ := ih3 hx.l.r.tl _ r2
    exact ⟨_, _, .var g1 h2 g2 h4 g3 (by rw [p3.isPtr]; exact h6) h7, .var _ (snoc_nm H p2 p1.nm) (.otOne (p3.setQ _)), r3⟩
  | varPtr e _ h2 _ h4 _ h7 ih1 ih2 ih3 =>
    obtain ⟨i2, _, g1, ⟨rfl, p1⟩, r1⟩ := ih1 hx.l.l.l.l _ ht
    obtain ⟨_, _, g2, p2, r2⟩ := ih2 hx.l.l.l.r _ r1
    obtain ⟨_, _, g3, p3, r3⟩ := ih3 hx.l.l.r.tl _ r2
    cases p3 with
    | ptr _ _ pc pt =>
      cases pc
      exact ⟨_, _, .varPtr e g1 h2 g2 h4 g3 h7, .var _ (snoc_nm H p2 p1.nm) (.otOne (.ptr _ _ .onNil (pt.addQ _))), r3⟩
  | varMemberPtr e _ h2 _ h4 _ h7 _ ih1 ih2 ih3 ih4 =>
    obtain ⟨i2, _, g1, ⟨rfl, p1⟩, r1⟩ := ih1 hx.l.l.l.l _ ht
    obtain ⟨_, _, g2, p2, r2⟩ := ih2 hx.l.l.l.r _ r1
    obtain ⟨_, _, g3, p3, r3⟩ := ih3 hx.l.l.r.tl _ r2
    obtain ⟨_, _, g4, p4, r4⟩ := ih4 hx.r.tl _ r3
    cases p3 with
    | ptr _ _ pc pt =>
      cases pc with
      | onOne pc =>
        exact ⟨_, _, .varMemberPtr e g1 h2 g2 h4 g3 h7 g4, .var _ (snoc_nm H p2 p1.nm) (.otOne (.ptr _ _ (.onOne pc) (pt.addQ _))), r4⟩
  | varStructor _ _ h3 h4 _ h6 h7 ih1 ih2 ih3 =>
    obtain ⟨i2, _, g1, ⟨rfl, p1⟩, r1⟩ := ih1 hx.l.l.l _ ht
    obtain ⟨_, _, g2, p2, r2⟩ := ih2 hx.l.l.r _ r1
    obtain ⟨_, _, g3, p3, r3⟩ := ih3 hx.l.r.tl _ r2
    have p2 : Tw .pieces _ _ := p2
    obtain ⟨ps', c', rfl, pc⟩ := p2.snoc_inv
    cases p1
    exact ⟨_, _, .varStructor g1 g2 pc.isPlain h4 g3 (by rw [p3.isPtr]; exact h6) h7,
      .var _ (snoc_nm H p2 (structor_nm H pc _)) (.otOne (p3.setQ _)), r3⟩
  | varStructorPtr e _ _ h3 h4 _ h7 ih1 ih2 ih3 =>
    obtain ⟨i2, _, g1, ⟨rfl, p1⟩, r1⟩ := ih1 hx.l.l.l.l _ ht
    obtain ⟨_, _, g2, p2, r2⟩ := ih2 hx.l.l.l.r _ r1
    obtain ⟨_, _, g3, p3, r3⟩ := ih3 hx.l.l.r.tl _ r2
    have p2 : Tw .pieces _ _ := p2
    obtain ⟨ps', c', rfl, pc⟩ := p2.snoc_inv
    cases p1
    cases p3 with
    | ptr _ _ po pt =>
      cases po
      exact ⟨_, _, .varStructorPtr e g1 g2 pc.isPlain h4 g3 h7,
        .var _ (snoc_nm H p2 (structor_nm H pc _)) (.otOne (.ptr _ _ .onNil (pt.addQ _))), r3⟩
  | varStructorMemberPtr e _ _ h3 h4 _ h7 _ ih1 ih2 ih3 ih4 =>
    obtain ⟨i2, _, g1, ⟨rfl, p1⟩, r1⟩ := ih1 hx.l.l.l.l _ ht
    obtain ⟨_, _, g2, p2, r2⟩ := ih2 hx.l.l.l.r _ r1
    obtain ⟨_, _, g3, p3, r3⟩ := ih3 hx.l.l.r.tl _ r2
    obtain ⟨_, _, g4, p4, r4⟩ := ih4 hx.r.tl _ r3
    have p2 : Tw .pieces _ _ := p2
    obtain ⟨ps', c', rfl, pc⟩ := p2.snoc_inv
    cases p1
    cases p3 with
    | ptr _ _ po pt =>
      cases po with
      | onOne po =>
        exact ⟨_, _, .varStructorMemberPtr e g1 g2 pc.isPlain h4 g3 h7 g4,
          .var _ (snoc_nm H p2 (structor_nm H pc _)) (.otOne (.ptr _ _ (.onOne po) (pt.addQ _))), r4⟩
  | func _ h2 _ _ ih1 ih2 ih3 =>
    obtain ⟨i2, _, g1, ⟨rfl, p1⟩, r1⟩ := ih1 hx.l.l _ ht
    obtain ⟨_, _, g2, p2, r2⟩ := ih2 hx.l.r _ r1
    obtain ⟨_, _, g3, p3, r3⟩ := ih3 hx.r _ r2
    exact ⟨_, _, .func g1 h2 g2 g3, .fn (snoc_nm H p2 p1.nm) p3, r3⟩
  | structor _ _ h3 _ ih1 ih2 ih3 =>
    obtain ⟨i2, _, g1, ⟨rfl, p1⟩, r1⟩ := ih1 hx.l.l _ ht
    obtain ⟨_, _, g2, p2, r2⟩ := ih2 hx.l.r _ r1
    obtain ⟨_, _, g3, p3, r3⟩ := ih3 hx.r _ r2
    have p2 : Tw .pieces _ _ := p2
    obtain ⟨ps', c', rfl, pc⟩ := p2.snoc_inv
    cases p1
    exact ⟨_, _, .structor g1 g2 pc.isPlain g3, .fn (snoc_nm H p2 (structor_nm H pc _)) p3, r3⟩
  | conv _ _ _ ih1 ih2 ih3 =>
    obtain ⟨i2, _, g1, ⟨rfl, p1⟩, r1⟩ := ih1 hx.l.l _ ht
    obtain ⟨_, _, g2, p2, r2⟩ := ih2 hx.l.r _ r1
    obtain ⟨_, _, g3, p3, r3⟩ := ih3 hx.r _ r2
    cases p1
    cases p3 with
    | sig _ pr pp =>
      cases pr with
      | otOne pr => exact ⟨_, _, .conv g1 g2 g3, .fn (snoc_nm H p2 (conv_nm H pr)) (.sig _ (.otOne pr) pp), r3⟩
  | convThunk _ _ _ ih1 ih2 ih3 =>
    obtain ⟨i2, _, g1, ⟨rfl, p1⟩, r1⟩ := ih1 hx.l.l _ ht
    obtain ⟨_, _, g2, p2, r2⟩ := ih2 hx.l.r _ r1
    obtain ⟨_, _, g3, p3, r3⟩ := ih3 hx.r _ r2
    cases p1
    cases p3 with
    | thunk _ _ pr pp =>
      cases pr with
      | otOne pr => exact ⟨_, _, .convThunk g1 g2 g3, .fn (snoc_nm H p2 (conv_nm H pr)) (.thunk _ _ (.otOne pr) pp), r3⟩
  | sym _ h2 ih =>
    obtain ⟨n2, _, g, p, r⟩ := ih hx.tl _ ht
    exact ⟨_, _, .sym g h2, Dc.sym H p, r⟩
  | hashLocator h1 => exact ⟨_, _, .hashLocator h1, NmM.same (qname1_nm (Id1.named _).nm), ht⟩
  | narrow h1 h2 h3 h4 h5 =>
    exact ⟨_, _, .narrow h1 h2 h3 h4 h5, fun w w' h => str_thin _ _ _ h.sub, ht⟩
  | wide h1 h2 h3 h4 h5 =>
    exact ⟨_, _, .wide h1 h2 h3 h4 h5, fun w w' h => str_thin _ _ _ h.sub, ht⟩
  | table h1 _ h3 h4 ih =>
    obtain ⟨n2, _, g, p, r⟩ := ih hx.l.r _ ht
    exact ⟨_, _, .table h1 g h3 h4, table_thin H _ (snoc_nm H p (Id1.named _).nm) .onNil, r⟩
  | tableFor h1 _ h3 h4 _ ih1 ih2 =>
    obtain ⟨_, _, g1, p1, r1⟩ := ih1 hx.l.r _ ht
    obtain ⟨_, _, g2, p2, r2⟩ := ih2 hx.r.tl.tl _ r1
    exact ⟨_, _, .tableFor h1 g1 h3 h4 g2, table_thin H _ (snoc_nm H p1 (Id1.named _).nm) (.onOne p2), r2⟩
  | vcall cc _ h2 ih =>
    obtain ⟨n2, _, g, p, r⟩ := ih hx.l.l.l.r _ ht
    exact ⟨_, _, .vcall cc g h2, Dc.sym H (.fn (snoc_nm H p (vcall_nm H _)) (.thunk _ _ .otNil .psNil)), r⟩
  | untyped h1 _ ih =>
    obtain ⟨n2, _, g, p, r⟩ := ih hx.l.r _ ht
    exact ⟨_, _, .untyped h1 g, Dc.sym H (.var _ (snoc_nm H p (Id1.named _).nm) .otNil), r⟩
  | baseDescr h1 h2 h3 h4 h5 h6 h7 h8 _ ih =>
    obtain ⟨n2, _, g, p, r⟩ := ih hx.l.r _ ht
    exact ⟨_, _, .baseDescr h1 h2 h3 h4 h5 h6 h7 h8 g, Dc.sym H (.var _ (snoc_nm H p base_nm) .otNil), r⟩
  | guardVar th vis _ h2 h3 ih =>
    obtain ⟨n2, _, g, p, r⟩ := ih hx.l.l.r _ ht
    exact ⟨_, _, .guardVar th vis g h2 h3, (snoc_nm H p guard_nm).same, r⟩
  | dynVar d known _ h2 _ ih1 ih2 =>
    obtain ⟨_, _, g1, p1, r1⟩ := ih1 hx.l.l.r _ ht
    obtain ⟨_, _, g2, p2, r2⟩ := ih2 hx.r _ r1
    have hs : SymM E E' _ _ := Dc.sym H p1
    cases p1 with
    | var _ pn pt => exact ⟨_, _, .dynVar d known g1 h2 g2, Dc.sym H (.fn (qname1_nm (dynVar_nm d hs)) p2), r2⟩
  | dynFn d _ h2 ih =>
    obtain ⟨_, _, g, p, r⟩ := ih hx.r _ ht
    cases p with
    | fn pn ps => exact ⟨_, _, .dynFn d g h2, Dc.sym H (.fn (qname1_nm (dynFn_nm d pn)) ps), r⟩
  | guardEnd th vis _ ih =>
    obtain ⟨n2, _, g, p, r⟩ := ih hx.l.r _ ht
    exact ⟨_, _, .guardEnd th vis g, .inl (snoc_nm H p guard_nm).same, r⟩
  | typeinfo _ ih =>
    obtain ⟨n2, _, g, p, r⟩ := ih hx.tl _ ht
    exact ⟨_, _, .typeinfo g, .inr ⟨_, _, rfl, rfl, p⟩, r⟩
  | rttiType _ ih =>
    obtain ⟨n2, _, g, p, r⟩ := ih hx.l.r _ ht
    exact ⟨_, _, .rttiType g, .inl (Dc.sym H (.var _ (qname1_nm (Id1.named _).nm) (.otOne p))), r⟩

end

end Undname.Spec
