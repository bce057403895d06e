/-
  The language of `Spec/BackRefs.lean`: what is readable is in the grammar, what is not is rejected.
-/
import Verif.Proof.Bad
import Verif.Spec.BackRefs

namespace Undname
open Spec

/-! ### The table of names -/

theorem kept_nil : kept [] = [] := rfl

theorem note_kept {tb : Tbl} {seen : List Text} (h : tb.names = kept seen) (s : Text) :
    (tb.note s).names = kept (seen ++ [s]) := by
  have hm : ∀ a, a ∈ seen.eraseDups ↔ a ∈ seen := fun a => List.mem_eraseDups
  unfold kept at *
  rw [List.eraseDups_append]
  unfold Tbl.note
  by_cases hs : s ∈ seen
  · have e : ([s].removeAll seen).eraseDups = [] := by simp [List.removeAll, hs]
    rw [e, List.append_nil]
    split
    · rename_i hc
      rw [h] at hc
      have hl : seen.eraseDups.length < 10 := by
        have := hc.1
        rw [List.length_take] at this
        omega
      rw [List.take_of_length_le (by omega)] at hc
      exact absurd ((hm s).2 hs) hc.2
    · exact h
  · have e : ([s].removeAll seen).eraseDups = [s] := by simp [List.removeAll, hs]; rfl
    rw [e]
    by_cases hl : seen.eraseDups.length < 10
    · rw [List.take_of_length_le (by omega)] at h
      rw [if_pos (by rw [h]; exact ⟨hl, fun hc => hs ((hm s).1 hc)⟩), List.take_of_length_le (by simp; omega)]
      simp [h]
    · have hl' : tb.names.length = 10 := by rw [h, List.length_take]; omega
      rw [if_neg (by omega), h]
      rw [List.take_append_of_le_length (by omega)]

theorem note_params (tb : Tbl) (s : Text) : (tb.note s).params = tb.params := by
  unfold Tbl.note; split <;> rfl

/-! ### Trees that print the given texts -/

/-- The trees print the texts. -/
def Prints (E : Env) : List T → List Text → Prop := All2 fun t s => ∀ w, (t.pr E).out w = w ++ s

theorem Prints.tail {E : Env} {ts : List T} {ss : List Text} (h : Prints E ts ss) (sep w : Text) :
    ((tl ts).pr E).tail sep w = w ++ ss.flatMap (sep ++ ·) := by
  induction h generalizing w with
  | nil => simp [tl, T.pr, Pr.nil]
  | cons h _ ih => simp only [tl, T.pr, Pr.cons, ih, h]; simp

theorem Prints.seq {E : Env} {ts : List T} {ss : List Text} (h : Prints E ts ss) (sep w : Text) :
    ((tl ts).pr E).seq sep w = w ++ join sep ss := by
  cases h with
  | nil => simp [tl, T.pr, Pr.nil, join]
  | cons h h' => simp only [tl, T.pr, Pr.cons, Prints.tail h', h, join_cons]; simp

theorem Prints.reverse {E : Env} {ts : List T} {ss : List Text} (h : Prints E ts ss) : Prints E ts.reverse ss.reverse := by
  induction h with
  | nil => exact .nil
  | cons h _ ih => rw [List.reverse_cons, List.reverse_cons]; exact All2.snoc ih h

theorem Prints.path {E : Env} {ts : List T} {ss : List Text} (h : Prints E ts ss) (w : Text) :
    ((T.qname (tl ts.reverse)).pr E).out w = w ++ showPath ss := by
  show (T.pr E _).seq _ w = _
  rw [h.reverse.seq]; rfl

theorem rev_snoc (ts : List T) (t : T) : (tl ts.reverse).snoc t = tl (t :: ts).reverse := by
  rw [tl_snoc, List.reverse_cons]

/-! ### Paths -/

variable {E : Env}

/-- What reading a path means for the parser. -/
def PathOk (E : Env) (p : Path) (seen : List Text) (tb : Tbl) : Prop :=
  match p.read seen with
  | .ok (ss, seen') => ∃ ts tb', Prints E ts ss ∧ tb'.names = kept seen' ∧ tb'.params = tb.params ∧
      Gram E .scopes tb (tl ts.reverse) p.mangle tb' ∧ (p ≠ .top → Gram E .qtn tb (.qname (tl ts.reverse)) p.mangle tb')
  | .error e => ∀ rest, BadScopes E tb (p.mangle ++ rest) e ∧ (p ≠ .top → BadQtn E tb (p.mangle ++ rest) e)

def ClassesOk (E : Env) (c : Classes) (seen : List Text) (tb : Tbl) : Prop :=
  match c.read seen with
  | .ok (ss, seen') => ∃ ts tb', Prints E ts ss ∧ tb'.names = kept seen' ∧ tb'.params = tb.params ∧
      Gram E .targs tb (tl ts) c.mangle tb'
  | .error e => ∀ rest, BadTargs E tb (c.mangle ++ rest) e

/-- A good first name, then the rest of the path. -/
theorem path_step {p up : Path} {seen seen1 : List Text} {tb tb1 : Tbl} {i : T} {s x : Text}
    (hr : p.read seen = (do let (names, seen) ← up.read seen1; pure (s :: names, seen)))
    (hm : p.mangle = x ++ up.mangle) (hi : Gram E .uname tb i x tb1) (ho : ∀ w, (i.pr E).out w = w ++ s)
    (hp : tb1.params = tb.params) (hup : PathOk E up seen1 tb1) : PathOk E p seen tb := by
  unfold PathOk at *
  rw [hr, hm]
  cases hu : up.read seen1 with
  | ok r =>
    obtain ⟨ss, seen'⟩ := r
    rw [hu] at hup
    obtain ⟨ts, tb', h1, h2, h3, h4, _⟩ := hup
    refine ⟨i :: ts, tb', .cons ho h1, h2, h3.trans hp, ?_, fun _ => ?_⟩
    · rw [← rev_snoc]; exact .scCons (.scName hi) h4
    · rw [← rev_snoc]; exact .qtn hi h4
  | error e =>
    rw [hu] at hup
    intro rest
    have hM : MUname E _ _ _ _ := gram_reads hi
    have hP : MPiece E _ _ _ _ := gram_reads (Gram.scName hi)
    rw [List.append_assoc]
    exact ⟨bad_scopes_cons hP (hup rest).1, fun _ => bad_qtn_scopes hM (hup rest).1⟩

/-- A bad first name. -/
theorem path_bad {p : Path} {seen : List Text} {tb : Tbl} {e : Error}
    (hr : p.read seen = .error e) (h : ∀ rest, BadUname E tb (p.mangle ++ rest) e) : PathOk E p seen tb := by
  unfold PathOk
  rw [hr]
  exact fun rest => ⟨bad_scopes_piece (h rest), fun _ => bad_qtn_name (h rest)⟩

theorem inst_out {s : Text} {ts : List T} {ss : List Text} (h : Prints E ts ss) (w : Text) :
    ((T.named s (T.one (.arr (tl ts)))).pr E).out w = w ++ (s ++ c!"<" ++ join c!", " ss ++ c!">") := by
  simp only [T.pr, Pr.ofText, T.one, Pr.cons, targsOut]
  rw [h.seq]
  simp

theorem tag_out (hE : Plain E) {ts : List T} {ss : List Text} (h : Prints E ts ss) (w : Text) :
    ((T.tag {} .Class (.qname (tl ts.reverse))).pr E).out w = w ++ (c!"class " ++ showPath ss) := by
  have := h.path
  simp only [T.pr] at this
  simp only [T.pr, Pr.ofType, hE.n2, hE.n10]
  have e : CV.after E {} = [] := rfl
  simp [this, tagName, e]

mutual
theorem path_ok (hE : Plain E) : (p : Path) → p.Ok → (seen : List Text) → (tb : Tbl) → tb.names = kept seen → PathOk E p seen tb
  | .top, _, seen, tb, ht => by
    refine ⟨[], tb, .nil, ht, rfl, .scNil, fun h => absurd rfl h⟩
  | .full s up, h, seen, tb, ht => by
    obtain ⟨hn, hu⟩ := h
    exact path_step (i := leaf s) (by rw [Path.read]) (by rw [Path.mangle]) (.uName hn) (leaf_out E s) (note_params _ _)
      (path_ok hE up hu _ _ (note_kept ht s))
  | .back d up, h, seen, tb, ht => by
    obtain ⟨hd, hu⟩ := h
    cases hg : (kept seen)[d]? with
    | none =>
      refine path_bad (e := .InvalidBackRef) (by rw [Path.read, hg]) fun rest => ?_
      rw [Path.mangle, List.append_assoc]
      exact bad_back hd (by rw [ht]; exact hg) _
    | some s =>
      exact path_step (i := leaf s) (by rw [Path.read, hg]) (by rw [Path.mangle]) (.uBack hd (by rw [ht]; exact hg))
        (leaf_out E s) rfl (path_ok hE up hu _ _ ht)
  | .inst s args up, h, seen, tb, ht => by
    obtain ⟨hn, ha, hu⟩ := h
    have hargs := classes_ok hE args ha [s] (({} : Tbl).note s) (note_kept (seen := []) rfl s)
    unfold ClassesOk at hargs
    cases hr : args.read [s] with
    | error e =>
      rw [hr] at hargs
      refine path_bad (e := e) (by rw [Path.read, hr]; rfl) fun rest => ?_
      rw [Path.mangle]
      have hM : MFid E {} _ _ _ := gram_reads (Gram.fName hn)
      have := bad_uname_tmpl (x := s ++ c!"@" ++ (args.mangle ++ (up.mangle ++ rest))) (E := E) (tb := tb) (e := e)
        (by simpa using bad_tmpl_args (tb := tb) hM (hargs (up.mangle ++ rest)))
      simpa using this
    | ok r =>
      obtain ⟨ss, seen'⟩ := r
      rw [hr] at hargs
      obtain ⟨ts, tb', h1, h2, h3, h4⟩ := hargs
      have g := tmpl_gram (E := E) hn h4 tb
      have ho := inst_out (E := E) (s := s) h1
      have htext : (T.named s (T.one (.arr (tl ts)))).text E = s ++ c!"<" ++ join c!", " ss ++ c!">" := by
        rw [T.text, ho]; rfl
      by_cases hf : utf8Len (s ++ c!"<" ++ join c!", " ss ++ c!">") < 2 ^ 20
      · refine path_step (up := up) (s := s ++ c!"<" ++ join c!", " ss ++ c!">") (seen1 := seen ++ [s ++ c!"<" ++ join c!", " ss ++ c!">"])
          (by rw [Path.read, hr]; show (if _ then _ else _) = _; rw [if_pos hf])
          (by rw [Path.mangle])
          (.uTmpl g rfl (by rw [htext]; exact hf)) ho (note_params _ _) (path_ok hE up hu _ _ ?_)
        rw [htext]; exact note_kept ht _
      · refine path_bad (e := .Io .OutOfMemory) (by rw [Path.read, hr]; show (if _ then _ else _) = _; rw [if_neg hf]) fun rest => ?_
        rw [Path.mangle]
        have hM : MTmpl E _ _ _ _ := gram_reads g
        have := bad_tmpl_big (y := up.mangle ++ rest) hM rfl (by rw [htext]; exact hf)
        have := bad_uname_tmpl (E := E) (tb := tb) (x := s ++ c!"@" ++ args.mangle ++ (up.mangle ++ rest)) (by simpa using this)
        simpa using this

theorem classes_ok (hE : Plain E) : (c : Classes) → c.Ok → (seen : List Text) → (tb : Tbl) → tb.names = kept seen → ClassesOk E c seen tb
  | .done, _, seen, tb, ht => ⟨[], tb, .nil, ht, rfl, .taNil⟩
  | .cls p more, h, seen, tb, ht => by
    obtain ⟨hp, hok, hmo⟩ := h
    have h1 := path_ok hE p hok seen tb ht
    unfold PathOk at h1
    unfold ClassesOk
    rw [Classes.mangle]
    cases hr : p.read seen with
    | error e =>
      rw [hr] at h1
      rw [Classes.read, hr]
      intro rest
      have := bad_targs_ty (bad_tag .Class ((h1 (more.mangle ++ rest)).2 hp))
      simpa [tagCode] using this
    | ok r =>
      obtain ⟨ss, seen1⟩ := r
      rw [hr] at h1
      obtain ⟨ts, tb1, a1, a2, a3, a4, a5⟩ := h1
      have g : Gram E (.targ false) tb _ (c!"V" ++ p.mangle) tb1 := .aType (.tag .Class (a5 hp))
      have h2 := classes_ok hE more hmo seen1 tb1 a2
      unfold ClassesOk at h2
      cases hr2 : more.read seen1 with
      | error e =>
        rw [hr2] at h2
        have hq : (Classes.cls p more).read seen = .error e := by simp [Classes.read, hr, hr2, bind, Except.bind]
        rw [hq]
        intro rest
        have hM : MTarg E false _ _ _ _ := gram_reads g
        have := bad_targs_cons hM (h2 rest)
        simpa using this
      | ok r2 =>
        obtain ⟨ss2, seen2⟩ := r2
        rw [hr2] at h2
        have hq : (Classes.cls p more).read seen = .ok ((c!"class " ++ showPath ss) :: ss2, seen2) := by
          simp [Classes.read, hr, hr2, bind, Except.bind, pure, Except.pure]
        rw [hq]
        obtain ⟨ts2, tb2, b1, b2, b3, b4⟩ := h2
        refine ⟨_ :: ts2, tb2, .cons (tag_out hE a1) b1, b2, b3.trans a3, ?_⟩
        exact .taCons g b4
end

/-! ### Parameters -/

def ParamsOk (E : Env) (ps : List Param) (seen long : List Text) (tb : Tbl) : Prop :=
  match readParams ps seen long with
  | .ok ss => ∃ ts tb', Prints E ts ss ∧ Gram E .plist tb (tl ts) (ps.flatMap Param.mangle) tb'
  | .error e => ∀ rest, BadPlist E tb (ps.flatMap Param.mangle ++ rest) e

theorem noteParam_take {tb : Tbl} {long : List Text} (h : Prints E tb.params (long.take 10)) {t : T} {s : Text}
    (ht : ∀ w, (t.pr E).out w = w ++ s) : Prints E (tb.noteParam t).params ((long ++ [s]).take 10) := by
  have hl := All2.length h
  rw [List.length_take] at hl
  unfold Tbl.noteParam
  by_cases h10 : long.length < 10
  · rw [if_pos (by omega), List.take_of_length_le (by simp; omega)]
    rw [List.take_of_length_le (by omega)] at h
    exact All2.snoc h ht
  · rw [if_neg (by omega), List.take_append_of_le_length (by omega)]
    exact h

theorem noteParam_names (tb : Tbl) (t : T) : (tb.noteParam t).names = tb.names := by
  unfold Tbl.noteParam; split <;> rfl

theorem All2.get' {α β : Type} {R : α → β → Prop} {as : List α} {bs : List β} (h : All2 R as bs) {i : Nat} {b : β}
    (e : bs[i]? = some b) : ∃ a, as[i]? = some a ∧ R a b := by
  induction h generalizing i with
  | nil => simp at e
  | cons h _ ih =>
    cases i with
    | zero => simp at e; subst e; exact ⟨_, rfl, h⟩
    | succ i => simp at e; simpa using ih e

theorem prim_out (k : PrimitiveKind) (w : Text) : ((T.prim {} k).pr E).out w = w ++ primName k := by
  have e : CV.after E {} = [] := rfl
  simp [T.pr, Pr.ofType, e]

/-- A good first parameter that is a type, then the others. -/
theorem params_step {p : Param} {ps : List Param} {seen long seen1 long1 : List Text} {tb tb1 : Tbl} {t : T} {s : Text}
    (hr : readParams (p :: ps) seen long = (do let ts ← readParams ps seen1 long1; pure (s :: ts)))
    (ho : ∀ w, (t.pr E).out w = w ++ s)
    (hg : ∀ ts x tb', Gram E .plist tb1 ts x tb' → Gram E .plist tb (.cons t ts) (p.mangle ++ x) tb')
    (hb : ∀ x e, BadPlist E tb1 x e → BadPlist E tb (p.mangle ++ x) e)
    (hps : ParamsOk E ps seen1 long1 tb1) : ParamsOk E (p :: ps) seen long tb := by
  unfold ParamsOk at *
  rw [hr, List.flatMap_cons]
  cases hu : readParams ps seen1 long1 with
  | ok ss =>
    rw [hu] at hps
    obtain ⟨ts, tb', h1, h2⟩ := hps
    exact ⟨t :: ts, tb', .cons ho h1, hg _ _ _ h2⟩
  | error e =>
    rw [hu] at hps
    intro rest
    rw [List.append_assoc]
    exact hb _ _ (hps rest)

theorem params_ok (hE : Plain E) : (ps : List Param) → (∀ p ∈ ps, p.Ok) → (seen long : List Text) → (tb : Tbl) →
    tb.names = kept seen → Prints E tb.params (long.take 10) → ParamsOk E ps seen long tb
  | [], _, seen, long, tb, _, _ => ⟨[], tb, .nil, .pNil⟩
  | .prim k :: ps, h, seen, long, tb, hn, hp => by
    have hps := fun p hp => h p (List.mem_cons_of_mem _ hp)
    have g : Gram E .ty tb _ _ tb := .prim k
    have hM : MTy E tb _ _ tb := gram_reads g
    by_cases hl : (primCode k).length = 1
    · refine params_step (tb1 := tb) (long1 := long) (by rw [readParams, if_pos hl]) (prim_out k)
        (fun ts x tb' h => .pLetter g hl h) (fun x e h => bad_plist_letter hM hl h) (params_ok hE ps hps _ _ _ hn hp)
    · refine params_step (tb1 := tb.noteParam _) (long1 := long ++ [primName k]) (by rw [readParams, if_neg hl]) (prim_out k)
        (fun ts x tb' h => .pType g hl h) (fun x e h => bad_plist_type hM hl h) (params_ok hE ps hps _ _ _ ?_ ?_)
      · rw [noteParam_names]; exact hn
      · exact noteParam_take hp (prim_out k)
  | .cls p :: ps, h, seen, long, tb, hn, hp => by
    have hps := fun p hp => h p (List.mem_cons_of_mem _ hp)
    obtain ⟨hne, hok⟩ : p ≠ .top ∧ p.Ok := h (.cls p) (by simp)
    have h1 := path_ok hE p hok seen tb hn
    unfold PathOk at h1
    cases hr : p.read seen with
    | error e =>
      rw [hr] at h1
      unfold ParamsOk
      rw [readParams, hr]
      intro rest
      have := bad_plist_ty (bad_tag .Class ((h1 (ps.flatMap Param.mangle ++ rest)).2 hne))
      simpa [tagCode, Param.mangle] using this
    | ok r =>
      obtain ⟨ss, seen1⟩ := r
      rw [hr] at h1
      obtain ⟨ts, tb1, a1, a2, a3, a4, a5⟩ := h1
      have g : Gram E .ty tb _ (c!"V" ++ p.mangle) tb1 := .tag .Class (a5 hne)
      have hM : MTy E tb _ _ tb1 := gram_reads g
      have hl : (c!"V" ++ p.mangle).length ≠ 1 := by
        have : p.mangle ≠ [] := by cases p <;> simp [Path.mangle, digit]
        simpa using this
      refine params_step (tb1 := tb1.noteParam _) (seen1 := seen1) (long1 := long ++ [c!"class " ++ showPath ss]) (by rw [readParams, hr]; rfl) (tag_out hE a1)
        (fun ts x tb' h => .pType g hl h) (fun x e h => bad_plist_type hM hl h) (params_ok hE ps hps _ _ _ ?_ ?_)
      · rw [noteParam_names]; exact a2
      · exact noteParam_take (by rw [a3]; exact hp) (tag_out hE a1)
  | .back d :: ps, h, seen, long, tb, hn, hp => by
    have hps := fun p hp => h p (List.mem_cons_of_mem _ hp)
    have hd : d < 10 := h (.back d) (by simp)
    cases hg : (long.take 10)[d]? with
    | none =>
      unfold ParamsOk
      rw [readParams, hg]
      intro rest
      rw [List.flatMap_cons, List.append_assoc]
      refine bad_plist_back hd ?_ _
      rw [List.getElem?_eq_none_iff] at hg ⊢
      rw [All2.length hp]; exact hg
    | some s =>
      obtain ⟨t, ht, ho⟩ := All2.get' hp hg
      exact params_step (tb1 := tb) (by rw [readParams, hg]) ho (fun ts x tb' h => .pBack hd ht h)
        (fun x e h => bad_plist_digit hd ht h) (params_ok hE ps hps _ _ _ hn hp)

end Undname
