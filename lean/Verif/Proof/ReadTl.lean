/-
  Reading a type together with what it declares: nothing, a function or array type, a variable, a function.
-/
import Verif.Proof.ReadConv

namespace Undname.Spec.Cxx

/-! ### Thunks -/

def adjText : Option Adj → Text
  | none => []
  | some a => a.cpp

theorem adj_head (x : Option Adj) (r : Text) : (adjText x ++ '(' :: r).head? = some '(' ∨ (adjText x ++ '(' :: r).take 4 ∈ [c!"`adj", c!"`vto"] := by
  cases x with
  | none => simp [adjText]
  | some a => cases a <;> simp [adjText, Adj.cpp]

theorem adj_char {a : Text} (h : a.head? = some '(' ∨ a.take 4 ∈ [c!"`adj", c!"`vto"]) : a.head? ∈ [some '(', some '`'] := by
  rcases h with h | h
  · simp [h]
  · have : (a.take 4).head? = a.head? := by cases a <;> simp
    rw [← this]
    simp only [List.mem_cons, List.not_mem_nil, or_false] at h
    rcases h with h | h <;> rw [h] <;> simp

theorem adj_read {x y : Option Adj} {a b : Text} (e : adjText x ++ '(' :: a = adjText y ++ '(' :: b) : x = y ∧ a = b := by
  have nc : ∀ c r, idc c = false → NI (c :: r) := fun c r h => NI.cons h
  cases x with
  | none =>
    cases y with
    | none => simpa [adjText] using e
    | some y => cases y <;> simp [adjText, Adj.cpp] at e
  | some x =>
    cases y with
    | none => cases x <;> simp [adjText, Adj.cpp] at e
    | some y =>
      cases x with
      | static n =>
        cases y with
        | static n' =>
          simp only [adjText, Adj.cpp, List.append_assoc, List.append_cancel_left_eq] at e
          obtain ⟨h, e⟩ := nat_read (NI.cons (by decide)) (NI.cons (by decide)) e
          rw [h]; exact ⟨rfl, by simpa using e⟩
        | disp | dispex => simp [adjText, Adj.cpp] at e
      | disp d n =>
        cases y with
        | disp d' n' =>
          simp only [adjText, Adj.cpp, List.append_assoc, List.append_cancel_left_eq] at e
          obtain ⟨h, e⟩ := sint_read (NI.cons (by decide)) (NI.cons (by decide)) e
          have e := List.append_cancel_left (as := c!", ") e
          obtain ⟨h2, e⟩ := nat_read (NI.cons (by decide)) (NI.cons (by decide)) e
          rw [h, h2]; exact ⟨rfl, by simpa using e⟩
        | static | dispex => simp [adjText, Adj.cpp] at e
      | dispex p q d n =>
        cases y with
        | dispex p' q' d' n' =>
          simp only [adjText, Adj.cpp, List.append_assoc, List.append_cancel_left_eq] at e
          obtain ⟨h, e⟩ := sint_read (NI.cons (by decide)) (NI.cons (by decide)) e
          have e := List.append_cancel_left (as := c!", ") e
          obtain ⟨h', e⟩ := sint_read (NI.cons (by decide)) (NI.cons (by decide)) e
          have e := List.append_cancel_left (as := c!", ") e
          obtain ⟨h'', e⟩ := sint_read (NI.cons (by decide)) (NI.cons (by decide)) e
          have e := List.append_cancel_left (as := c!", ") e
          obtain ⟨h2, e⟩ := nat_read (NI.cons (by decide)) (NI.cons (by decide)) e
          rw [h, h', h'', h2]; exact ⟨rfl, by simpa using e⟩
        | static | disp => simp [adjText, Adj.cpp] at e

/-! ### Functions after their result type -/

/-- Name, adjustment, parameters and qualifiers of a function. -/
structure FnP where
  cc : Char
  nm : List Nm
  adj : Option Adj
  ps : Tys
  va : Bool
  ne : Bool
  q : This
  /-- of a conversion: its template arguments; the name is without the last part -/
  cv : Option Targs

/-- The last part of the name of a conversion, if it is one. -/
def cvText (E : Env) (P : Text) : Option Targs → Text
  | none => []
  | some ta => c!"::" ++ convName E ta P

/-- From the convention on; the text of the result type is `P`. -/
def FnP.text (E : Env) (P : Text) (f : FnP) : Text :=
  cword f.cc ++ (c!" " ++ (nmText E f.nm ++ (cvText E P f.cv ++ (adjText f.adj ++ (paramsCpp (f.ps.list E) f.va ++ quals E f.q f.ne)))))

/-- Template arguments are read back. -/
def TargsRd (E : Env) (key : Text) (ta : Targs) : Prop := ∀ ta', Targs.plain key ta' = true → ∀ a b,
  ta.cpp E ++ ' ' :: a = ta'.cpp E ++ ' ' :: b → ta = ta' ∧ a = b

structure FnP.Ok (key : Text) (f : FnP) : Prop where
  conv : convLetters.contains f.cc = true
  ne : f.nm ≠ []
  nm : nmsPlain key f.nm
  ps : f.ps.plain key = true
  cv : ∀ ta, f.cv = some ta → ta.plain key = true

structure FnP.Rd (E : Env) (key : Text) (f : FnP) : Prop where
  nm : NmsRd E key f.nm
  ps : ParamsRd E key f.ps
  cv : ∀ ta, f.cv = some ta → TargsRd E key ta

theorem params_cons (ts : List Text) (va : Bool) : ∃ r, paramsCpp ts va = '(' :: r := ⟨_, rfl⟩

theorem Nm.St.of_head {x : Nm} {a : Text} (h0 : a.head? = some '(' ∨ a.take 4 ∈ [c!"`adj", c!"`vto"]) : x.St a := by
  have h := adj_char h0
  have : SegStop a := by
    refine ⟨?_, ?_⟩
    · intro c hc
      rw [hc] at h
      simp at h
      rcases h with rfl | rfl <;> decide
    · rintro e
      rw [e] at h
      simp at h
  cases x with
  | op o => exact h0.imp (fun h => by simp [h]) id
  | spc x =>
    cases x with
    | guard => exact ⟨this, by intro e; rw [e] at h; simp at h⟩
    | _ => exact this
  | _ => exact this

theorem cv_follow {E : Env} (hE : E.flags = Flags.default) {key : Text} {cv : Option Targs} (h : ∀ ta, cv = some ta → ta.plain key = true) {P : Text}
    (hP : Start P) (adj : Option Adj) (r : Text) :
    (∀ x : Nm, x.St (cvText E P cv ++ (adjText adj ++ '(' :: r))) ∧ PathEnd E key (cvText E P cv ++ (adjText adj ++ '(' :: r)) := by
  cases cv with
  | none =>
    refine ⟨fun x => .of_head (adj_head adj r), .of_head ?_⟩
    have := adj_char (adj_head adj r)
    rw [cvText, List.nil_append]; intro h; rw [h] at this; simp at this
  | some ta =>
    rw [cvText, List.append_assoc]
    exact ⟨fun x => .colons x _, conv_end hE (h ta rfl) hP⟩

theorem cvt_read {E : Env} {key : Text} {cv cv' : Option Targs} (h : ∀ ta, cv = some ta → TargsRd E key ta)
    (h' : ∀ ta, cv' = some ta → ta.plain key = true) {P : Text} {x y : Option Adj} {a b : Text}
    (e : cvText E P cv ++ (adjText x ++ '(' :: a) = cvText E P cv' ++ (adjText y ++ '(' :: b)) : cv = cv' ∧ x = y ∧ a = b := by
  have no : ∀ {x : Option Adj} {a b : Text}, adjText x ++ '(' :: a ≠ ':' :: b := by
    intro x a b e
    have := adj_char (adj_head x a)
    rw [e] at this; simp at this
  cases cv with
  | none =>
    cases cv' with
    | none => obtain ⟨h1, h2⟩ := adj_read e; exact ⟨rfl, h1, h2⟩
    | some ta => exact absurd e no
  | some ta =>
    cases cv' with
    | none => exact absurd e.symm no
    | some ta' =>
      simp only [cvText, convName, List.append_assoc] at e
      have e := List.append_cancel_left (List.append_cancel_left e)
      obtain ⟨h1, h2⟩ := h ta rfl ta' (h' ta' rfl) (P ++ (adjText x ++ '(' :: a)) (P ++ (adjText y ++ '(' :: b)) e
      obtain ⟨h3, h4⟩ := adj_read (List.append_cancel_left h2)
      exact ⟨by rw [h1], h3, h4⟩

theorem FnP.read {E : Env} (hE : E.flags = Flags.default) {key : Text} {f g : FnP} (hf : f.Ok key) (hg : g.Ok key) (rd : f.Rd E key)
    {P : Text} (hP : Start P) {a b : Text} (ha : Stop a) (hb : Stop b) (e : f.text E P ++ a = g.text E P ++ b) : f = g ∧ a = b := by
  obtain ⟨cc, nm, adj, ps, va, ne, q, cv⟩ := f
  obtain ⟨cc', nm', adj', ps', va', ne', q', cv'⟩ := g
  simp only [FnP.text, List.append_assoc] at e
  obtain ⟨r, hr⟩ := params_cons (ps.list E) va
  obtain ⟨r', hr'⟩ := params_cons (ps'.list E) va'
  obtain ⟨h1, e⟩ := word_read (cword_idc hf.conv) (cword_idc hg.conv) (NI.cons (by decide)) (NI.cons (by decide)) e
  have h1 := cword_inj hf.conv hg.conv h1
  have e := List.append_cancel_left (as := c!" ") e
  obtain ⟨s1, p1⟩ := cv_follow hE hf.cv hP adj (r ++ (quals E q ne ++ a))
  obtain ⟨s2, p2⟩ := cv_follow hE hg.cv hP adj' (r' ++ (quals E q' ne' ++ b))
  obtain ⟨h2, e⟩ := names_read rd.nm hf.nm hg.nm hf.ne hg.ne
    (fun x _ => by rw [hr]; exact s1 x) (fun x _ => by rw [hr']; exact s2 x)
    (by rw [hr]; exact p1) (by rw [hr']; exact p2) e
  have e0 := e
  rw [hr, hr', List.cons_append, List.cons_append] at e0
  obtain ⟨h8, h3, e0⟩ := cvt_read rd.cv hg.cv e0
  have h3' : adj = adj' := h3
  have h8' : cv = cv' := h8
  rw [h3', h8', List.append_cancel_left_eq, List.append_cancel_left_eq] at e
  obtain ⟨h4, h5, e⟩ := rd.ps va ps' va' hg.ps _ _ e
  obtain ⟨h6, h7, e'⟩ := quals_read hE ha hb e
  simp only at h1 h2 h3 h4 h5 h6 h7 h8
  subst h1 h2 h3 h4 h5 h6 h7 h8
  exact ⟨rfl, e'⟩

/-! ### What a type declares -/

inductive Tl where
  | abs
  /-- a function type -/
  | fn (cc : Char) (ps : Tys) (va ne : Bool) (q : This)
  | arr (dims : List Nat)
  | var (l : List Nm)
  /-- a function -/
  | fnD (f : FnP)

/-- What is between the left and right parts of the type, the left part being `P`. -/
def Tl.mid (E : Env) (P : Text) : Tl → Text
  | .abs => []
  | .fn cc ps va ne q => c!" " ++ (cword cc ++ (paramsCpp (ps.list E) va ++ quals E q ne))
  | .arr dims => bounds dims
  | .var p => blank E P ++ nmText E p
  | .fnD f => c!" " ++ f.text E P

def Tl.Ok (key : Text) : Tl → Prop
  | .abs => True
  | .fn cc ps _ _ _ => convLetters.contains cc = true ∧ ps.plain key = true
  | .arr dims => dims ≠ []
  | .var p => PlaceOk key p
  | .fnD f => f.Ok key

def Tl.Rd (E : Env) (key : Text) : Tl → Prop
  | .fn _ ps _ _ _ => ParamsRd E key ps
  | .var p => NmsRd E key p
  | .fnD f => f.Rd E key
  | _ => True

theorem cword_after {c : Char} (h : convLetters.contains c = true) : cword c ∉ after := by
  have : ∀ c ∈ convLetters, cword c ∉ after := by decide
  exact this c (by simpa using h)

theorem Tl.follow {E : Env} {key : Text} {t : Tl} (h : t.Ok key) (P : Text) {c : Text} (hc : Stop c) : Follow E P (t.mid E P ++ c) := by
  cases t with
  | abs => exact hc.follow
  | fn cc ps va ne q =>
    simp only [Tl.mid, List.append_assoc]
    exact .word (w := cword cc) (cword_idc h.1) (cword_after h.1) (NI.cons (by decide))
  | arr dims =>
    cases dims with
    | nil => exact absurd rfl h
    | cons d ds => rw [Tl.mid, bounds_eq]; exact .char (by decide) (by decide) (by decide) (by decide)
  | var p => rw [Tl.mid, List.append_assoc]; exact .start (h.start hc.ni)
  | fnD f =>
    simp only [Tl.mid, FnP.text, List.append_assoc]
    exact .word (w := cword f.cc) (cword_idc h.conv) (cword_after h.conv) (NI.cons (by decide))

theorem nms_head {E : Env} {key : Text} {l : List Nm} (h : nmsPlain key l) (hn : l ≠ []) :
    ∃ c r, nmText E l = c :: r ∧ (idc c = true ∨ c = '`' ∨ c = '~') := by
  cases l with
  | nil => exact absurd rfl hn
  | cons x l =>
    obtain ⟨c, r, h1, h2⟩ := Nm.cpp_head (E := E) (h x (by simp))
    rw [nmText, join_cons, h1]
    exact ⟨c, _, rfl, h2⟩

theorem Tl.amp {E : Env} {key : Text} {t : Tl} (h : t.Ok key) (P : Text) {c : Text} (hc : Stop c) : (t.mid E P ++ c).head? ≠ some '&' := by
  cases t with
  | abs => exact hc.not (by decide)
  | fn cc ps va ne q => simp [Tl.mid]
  | arr dims =>
    cases dims with
    | nil => exact absurd rfl h
    | cons d ds => rw [Tl.mid, bounds_eq]; simp
  | var p =>
    obtain ⟨x, r, h1, h2⟩ := nms_head (E := E) h.plain h.ne
    rw [Tl.mid, blank]
    split
    · simp
    · rw [h1]; simp; rintro rfl; revert h2; decide
  | fnD f => simp [Tl.mid]

theorem conv_unaligned {c : Char} (h : convLetters.contains c = true) {r s : Text} (hr : NI r) : cword c ++ r ≠ c!"__unaligned " ++ s := by
  intro e
  obtain ⟨h1, -⟩ := word_read (cword_idc h) (w' := c!"__unaligned") (by decide) hr (b := ' ' :: s) (NI.cons (by decide)) e
  have : ∀ c ∈ convLetters, cword c ≠ c!"__unaligned" := by decide
  exact this c (by simpa using h) h1

/-- Conventions differ from further layers. -/
theorem conv_not_lay {E : Env} {key : Text} {P : Text} {l : Lay} (hl : l.Ok key) {c : Char} (h : convLetters.contains c = true) {x r : Text} (hx : NI x) :
    ' ' :: (cword c ++ x) ≠ l.add E P ++ r := by
  intro e
  rw [Lay.add, List.append_assoc, List.append_assoc] at e
  have hA := clsText_start (E := E) hl.plain l.k r
  generalize clsText E l.cls ++ (l.k.cpp E ++ r) = A at e hA
  obtain ⟨s, hs⟩ := cword_head h
  have n0 : ∀ {B : Text}, WStart B → ' ' :: (cword c ++ x) ≠ B := fun hB e =>
    hB.not_head (by decide) (by decide) (by decide) (by decide) e.symm
  cases hst : l.stem with
  | data u =>
    rw [hst] at e
    simp only [Stem.text, List.append_assoc] at e
    by_cases hp : wordEnd E P = true
    · rw [blank_true hp] at e
      simp only [List.cons_append, List.nil_append, List.cons.injEq, true_and] at e
      cases u
      · exact cword_start h hx hA e.symm
      · exact conv_unaligned h hx e
    · rw [blank_false (by simpa using hp)] at e
      cases u
      · exact n0 hA e
      · simp [part] at e
  | fn cc =>
    rw [hst] at e
    simp [Stem.text, hs] at e
  | arr =>
    rw [hst] at e
    simp only [Stem.text, List.append_assoc] at e
    by_cases hp : wordEnd E P = true
    · rw [blank_true hp] at e; simp [hs] at e
    · rw [blank_false (by simpa using hp)] at e; simp at e

theorem Lay.add_head {E : Env} {key : Text} {l : Lay} (hl : l.Ok key) (P r : Text) :
    ∃ c s, l.add E P ++ r = c :: s ∧ (c = ' ' ∨ c = '(' ∨ idc c = true ∨ c = '*' ∨ c = '&' ∨ c = '`') := by
  rw [Lay.add, List.append_assoc, List.append_assoc]
  have hA := clsText_start (E := E) hl.plain l.k r
  generalize clsText E l.cls ++ (l.k.cpp E ++ r) = A at hA
  have bl : ∀ x : Text, ∀ c s, x = c :: s → (c = '(' ∨ idc c = true ∨ c = '*' ∨ c = '&' ∨ c = '`') →
      ∃ c s, blank E P ++ x = c :: s ∧ (c = ' ' ∨ c = '(' ∨ idc c = true ∨ c = '*' ∨ c = '&' ∨ c = '`') := by
    intro x c s h h'
    rw [blank]
    split
    · exact ⟨_, _, rfl, .inl rfl⟩
    · exact ⟨c, s, h, .inr h'⟩
  cases l.stem with
  | data u =>
    rw [Stem.text, List.append_assoc]
    cases u
    · obtain ⟨c, s, h, h'⟩ := hA.head
      exact bl _ c s h (.inr h')
    · exact bl _ '_' _ rfl (.inr (.inl (by decide)))
  | fn cc => exact ⟨_, _, rfl, .inl rfl⟩
  | arr => rw [Stem.text, List.append_assoc]; exact bl _ '(' _ rfl (.inl rfl)

theorem seg_sts {p : Path} {a : Text} (ha : SegStop a) : ∀ x ∈ p.nms, x.St a := by
  intro x hx
  simp only [Path.nms, List.mem_map] at hx
  obtain ⟨s, -, rfl⟩ := hx
  exact ha

theorem PlaceOk.sts {key : Text} {l : List Nm} (h : PlaceOk key l) {a : Text} (ha : Stop a) : ∀ x ∈ l, x.St a := by
  intro x hx
  have h1 := h.place x hx
  cases x with
  | op o => simp [Nm.isPlace] at h1
  | spc x =>
    cases x with
    | guard => exact ⟨ha.seg, ha.not (by decide)⟩
    | _ => exact ha.seg
  | _ => exact ha.seg

theorem Tl.not_lay {E : Env} {key : Text} {t : Tl} (h : t.Ok key) (P : Text) {c : Text} (hc : Stop c) {l : Lay} (hl : l.Ok key)
    (rd : t.Rd E key ∨ NmsRd E key l.cls.nms) (r : Text) : t.mid E P ++ c ≠ l.add E P ++ r := by
  intro e
  obtain ⟨d, s, hd, hd'⟩ := Lay.add_head (E := E) hl P r
  cases t with
  | abs =>
    rw [hd, Tl.mid, List.nil_append] at e
    rw [e, Stop] at hc
    simp at hc
    rcases hc with rfl | rfl | rfl | rfl | rfl <;> revert hd' <;> decide
  | fn cc ps va ne q =>
    simp only [Tl.mid, List.append_assoc] at e
    exact conv_not_lay hl h.1 (NI.cons (by decide)) e
  | arr dims =>
    cases dims with
    | nil => exact absurd rfl h
    | cons x ds => rw [Tl.mid, bounds_eq, hd] at e; simp at e; rw [← e.1] at hd'; revert hd'; decide
  | var p =>
    have hp := h.start (E := E) hc.ni
    obtain ⟨x, y, h1, h2⟩ := nms_head (E := E) h.plain h.ne
    have nb : ∀ z, nmText E p ++ c ≠ '(' :: z := fun z => hp.not_head (by decide) (by decide) (by decide) (by decide)
    rw [Lay.add, Tl.mid] at e
    simp only [List.append_assoc] at e
    cases hst : l.stem with
    | data u =>
      rw [hst] at e
      simp only [Stem.text, List.append_assoc, List.append_cancel_left_eq] at e
      cases u
      · rw [part_no, List.nil_append, clsText] at e
        obtain ⟨z, hz⟩ := PK.cpp_head (E := E) l.k
        by_cases hn : l.cls.isNil = true
        · rw [if_pos hn, hz, h1] at e
          simp at e
          rw [e.1] at h2
          revert h2; cases l.k.isRef <;> decide
        · rw [if_neg hn, List.append_assoc] at e
          have hk := hl.ref (by simpa using hn)
          rw [hk] at hz
          have pe : PathEnd E key (c!"::" ++ (l.k.cpp E ++ r)) := by
            rw [hz]; exact PathEnd.star (by decide) (by decide) (by decide)
          have : c = c!"::" ++ (l.k.cpp E ++ r) := by
            rcases rd with rd | rd
            · exact (names_read rd h.plain (Path.plain_nms hl.plain) h.ne (Path.nms_ne (by simpa using hn))
                (h.sts hc) (seg_sts (SegStop.colons _)) hc.pathEnd pe e).2
            · exact (names_read rd (Path.plain_nms hl.plain) h.plain (Path.nms_ne (by simpa using hn)) h.ne
                (seg_sts (SegStop.colons _)) (h.sts hc) pe hc.pathEnd e.symm).2.symm
          rw [this] at hc
          exact hc.not (c := ':') (by decide) rfl
      · exact unaligned_start hp e
    | fn cc =>
      rw [hst] at e
      simp only [Stem.text] at e
      by_cases hw : wordEnd E P = true
      · rw [blank_true hw] at e
        simp at e
        exact nb _ e
      · rw [blank_false (by simpa using hw)] at e
        simp at e
        exact hp.not_head (by decide) (by decide) (by decide) (by decide) e
    | arr =>
      rw [hst] at e
      simp only [Stem.text, List.append_assoc, List.append_cancel_left_eq] at e
      exact nb _ e
  | fnD f =>
    simp only [Tl.mid, FnP.text, List.append_assoc] at e
    exact conv_not_lay hl h.conv (NI.cons (by decide)) e

theorem Tl.read {E : Env} (hE : E.flags = Flags.default) {key : Text} {t u : Tl} (ht : t.Ok key) (hu : u.Ok key) (rd : t.Rd E key) {P c d : Text}
    (hP : Start P) (hc : Stop c) (hd : Stop d) (e : t.mid E P ++ c = u.mid E P ++ d) : t = u ∧ c = d := by
  have bl : ∀ {c x : Text}, Stop c → c ≠ ' ' :: x := by
    rintro c x hc rfl; exact hc.not (c := ' ') (by decide) rfl
  have br : ∀ {c : Text} {ds : List Nat} {x : Text}, Stop c → ds ≠ [] → c ≠ bounds ds ++ x := by
    intro c ds x hc hds e
    cases ds with
    | nil => exact hds rfl
    | cons y ds => rw [bounds_eq] at e; rw [e] at hc; exact hc.not (c := '[') (by decide) rfl
  have bb : ∀ {x y : Text} {ds : List Nat}, ds ≠ [] → ' ' :: x ≠ bounds ds ++ y := by
    intro x y ds hds e
    cases ds with
    | nil => exact hds rfl
    | cons z ds => rw [bounds_eq] at e; simp at e
  have vs : ∀ {p : List Nm} {c d : Text}, PlaceOk key p → Stop c → Stop d → c ≠ blank E P ++ (nmText E p ++ d) := by
    intro p c d hp hc hd e
    obtain ⟨x, r, h1, h2⟩ := nms_head (E := E) hp.plain hp.ne
    rw [e, blank, Stop] at hc
    split at hc
    · simp at hc
    · rw [h1] at hc
      simp at hc
      rcases hc with rfl | rfl | rfl | rfl | rfl <;> revert h2 <;> decide
  have vb : ∀ {p : List Nm} {ds : List Nat} {c d : Text}, PlaceOk key p → ds ≠ [] → Stop d →
      bounds ds ++ c ≠ blank E P ++ (nmText E p ++ d) := by
    intro p ds c d hp hds hd e
    obtain ⟨x, r, h1, h2⟩ := nms_head (E := E) hp.plain hp.ne
    cases ds with
    | nil => exact hds rfl
    | cons z ds =>
      rw [bounds_eq, blank] at e
      split at e
      · simp at e
      · rw [h1] at e; simp at e; rw [← e.1] at h2; revert h2; decide
  have vc : ∀ {p : List Nm} {cc : Char} {c d : Text}, PlaceOk key p → convLetters.contains cc = true → NI c → Stop d →
      ' ' :: (cword cc ++ c) ≠ blank E P ++ (nmText E p ++ d) := by
    intro p cc c d hp hcc hc hd e
    have hs := hp.start (E := E) hd.ni
    rw [blank] at e
    split at e
    · simp only [List.cons_append, List.nil_append, List.cons.injEq, true_and] at e
      exact cword_start hcc hc hs e.symm
    · exact hs.not_head (by decide) (by decide) (by decide) (by decide) e.symm
  have ff : ∀ {cc : Char} {ps va ne q} {f : FnP} {c d : Text}, convLetters.contains cc = true → f.Ok key →
      Tl.mid E P (.fn cc ps va ne q) ++ c ≠ Tl.mid E P (.fnD f) ++ d := by
    intro cc ps va ne q f c d h1 h2 e
    simp only [Tl.mid, FnP.text, List.append_assoc, List.append_cancel_left_eq] at e
    obtain ⟨h, e⟩ := word_read (cword_idc h1) (cword_idc h2.conv) (NI.cons (by decide)) (NI.cons (by decide)) e
    simp [paramsCpp] at e
  cases t with
  | abs =>
    cases u with
    | abs => exact ⟨rfl, e⟩
    | fn | fnD => exact absurd e (bl hc)
    | arr => exact absurd e (br hc hu)
    | var => simp only [Tl.mid, List.append_assoc, List.nil_append] at e; exact absurd e (vs hu hc hd)
  | fn cc ps va ne q =>
    cases u with
    | abs => exact absurd e.symm (bl hd)
    | fn cc' ps' va' ne' q' =>
      simp only [Tl.mid, List.append_assoc, List.append_cancel_left_eq] at e
      obtain ⟨h1, e⟩ := word_read (cword_idc ht.1) (cword_idc hu.1) (NI.cons (by decide)) (NI.cons (by decide)) e
      have h1 := cword_inj ht.1 hu.1 h1
      obtain ⟨h4, h5, e⟩ := rd va ps' va' hu.2 _ _ e
      obtain ⟨h6, h7, e'⟩ := quals_read hE hc hd e
      subst h1 h4 h5 h6 h7
      exact ⟨rfl, e'⟩
    | arr => simp only [Tl.mid, List.append_assoc] at e; exact absurd e (bb hu)
    | var => simp only [Tl.mid, List.append_assoc] at e; exact absurd e (vc hu ht.1 (NI.cons (by decide)) hd)
    | fnD => exact absurd e (ff ht.1 hu)
  | arr dims =>
    cases u with
    | abs => exact absurd e.symm (br hd ht)
    | fn | fnD => simp only [Tl.mid, List.append_assoc] at e; exact absurd e.symm (bb ht)
    | arr dims' =>
      obtain ⟨h, e⟩ := bounds_read ht hu (hc.not (by decide)) (hd.not (by decide)) e
      rw [h]; exact ⟨rfl, e⟩
    | var => simp only [Tl.mid, List.append_assoc] at e; exact absurd e (vb hu ht hd)
  | var p =>
    cases u with
    | abs => simp only [Tl.mid, List.append_assoc, List.nil_append] at e; exact absurd e.symm (vs ht hd hc)
    | fn => simp only [Tl.mid, List.append_assoc] at e; exact absurd e.symm (vc ht hu.1 (NI.cons (by decide)) hc)
    | fnD => simp only [Tl.mid, FnP.text, List.append_assoc] at e; exact absurd e.symm (vc ht hu.conv (NI.cons (by decide)) hc)
    | arr => simp only [Tl.mid, List.append_assoc] at e; exact absurd e.symm (vb ht hu hc)
    | var p' =>
      simp only [Tl.mid, List.append_assoc, List.append_cancel_left_eq] at e
      obtain ⟨h, e⟩ := names_read rd ht.plain hu.plain ht.ne hu.ne
        (ht.sts hc) (hu.sts hd) hc.pathEnd hd.pathEnd e
      rw [h]; exact ⟨rfl, e⟩
  | fnD f =>
    cases u with
    | abs => exact absurd e.symm (bl hd)
    | fn => exact absurd e.symm (ff hu.1 ht)
    | arr => simp only [Tl.mid, List.append_assoc] at e; exact absurd e (bb hu)
    | var => simp only [Tl.mid, FnP.text, List.append_assoc] at e; exact absurd e (vc hu ht.conv (NI.cons (by decide)) hd)
    | fnD g =>
      simp only [Tl.mid, List.append_assoc, List.append_cancel_left_eq] at e
      obtain ⟨h, e⟩ := FnP.read hE ht hu rd hP hc hd e
      rw [h]; exact ⟨rfl, e⟩

/-! ### Types with what they declare -/

/-- The text of a type and what it declares. -/
def typed (E : Env) (t : Ty) (u : Tl) : Text := t.left E ++ (u.mid E (t.left E) ++ t.right E)

theorem SameLefts.adds {E : Env} {L L' : List Lay} (h : SameLefts L L') : ∀ P, adds E P L = adds E P L' := by
  induction h with
  | nil => intro P; rfl
  | cons h hs ih =>
    intro P
    rw [Cxx.adds, Cxx.adds, Lay.add_congr h.1 h.2.1 h.2.2, ih]

theorem typed_read {E : Env} (hE : E.flags = Flags.default) {key : Text} {t t' : Ty} {u u' : Tl} (ht : t.plain key = true) (ht' : t'.plain key = true)
    (hu : u.Ok key) (hu' : u'.Ok key) (rt : TyParts E key t) (ru : u.Rd E key) {a b : Text} (ha : Stop a) (hb : Stop b)
    (e : typed E t u ++ a = typed E t' u' ++ b) : t = t' ∧ u = u' ∧ a = b := by
  obtain ⟨b1, l1, c1⟩ := Ty.lays_ok ht
  obtain ⟨b2, l2, c2⟩ := Ty.lays_ok ht'
  have e1 := Ty.left_eq hE t ht
  have e2 := Ty.left_eq hE t' ht'
  rw [typed, typed, Ty.right_eq hE, Ty.right_eq hE] at e
  have hc := rights_stop (E := E) t.lays ha
  have hd := rights_stop (E := E) t'.lays hb
  simp only [List.append_assoc] at e
  generalize hX : u.mid E (t.left E) ++ (rights E t.lays ++ a) = X at e
  generalize hY : u'.mid E (t'.left E) ++ (rights E t'.lays ++ b) = Y at e
  have fX : Follow E (t.left E) X := by rw [← hX]; exact Tl.follow hu _ hc
  have fY : Follow E (t'.left E) Y := by rw [← hY]; exact Tl.follow hu' _ hd
  have aX : X.head? ≠ some '&' := by rw [← hX]; exact Tl.amp hu _ hc
  have aY : Y.head? ≠ some '&' := by rw [← hY]; exact Tl.amp hu' _ hd
  rw [e1] at fX
  rw [e2] at fY
  rw [e1, e2] at e
  simp only [List.append_assoc] at e
  -- the base and its qualifiers
  have fl : ∀ {P : Text} {L : List Lay} {X : Text}, (∀ l ∈ L, l.Ok key) → Follow E (P ++ adds E P L) X → Follow E P (adds E P L ++ X) := by
    intro P L X hL h
    cases L with
    | nil => simpa [adds] using h
    | cons l L => rw [adds, List.append_assoc]; exact Lay.follow (hL l (by simp)) _
  have f1 := fl l1 fX
  have f2 := fl l2 fY
  have e0 := e
  rw [Ty.baseText, Ty.baseText] at e0
  rw [Ty.baseText] at f1 f2
  simp only [List.append_assoc] at e0
  rw [← List.append_assoc] at e0
  have e0' : t.bk.text E ++ (Spec.Ty.cvAfter t.cvOf.1 t.cvOf.2 ++ (adds E (t.bk.text E ++ Spec.Ty.cvAfter t.cvOf.1 t.cvOf.2) t.lays ++ X)) =
      t'.bk.text E ++ (Spec.Ty.cvAfter t'.cvOf.1 t'.cvOf.2 ++ (adds E (t'.bk.text E ++ Spec.Ty.cvAfter t'.cvOf.1 t'.cvOf.2) t'.lays ++ Y)) := by
    rw [← List.append_assoc]; exact e0
  obtain ⟨hb1, e3⟩ := base_read b1 b2 rt.base (BaseEnd.of f1) (BaseEnd.of f2) e0'
  obtain ⟨hc1, hv1, e4⟩ := cv_read f1 f2 e3
  have hbase : t.baseText E = t'.baseText E := by rw [Ty.baseText, Ty.baseText, hb1, hc1, hv1]
  have hcv : t.cvOf = t'.cvOf := Prod.ext hc1 hv1
  have e5 : adds E (t.baseText E) t.lays ++ X = adds E (t.baseText E) t'.lays ++ Y := by
    conv => rhs; rw [hbase]
    exact e4
  -- the layers
  obtain ⟨hs, e6⟩ := lays_read hE l1 l2 rt.cls c1 c2 fX (by rw [hbase]; exact fY) aX aY
    (fun l hl r => by rw [← e1, ← hX]; exact Tl.not_lay hu _ hc (l2 l hl) (.inl ru) r)
    (fun l hl r => by rw [hbase, ← e2, ← hY]; exact Tl.not_lay hu' _ hd (l1 l hl) (.inr (rt.cls l hl)) r) e5
  have hleft : t.left E = t'.left E := by rw [e1, e2, ← hbase, hs.adds]
  rw [← hX, ← hY, ← hleft] at e6
  obtain ⟨h7, e7⟩ := Tl.read hE hu hu' ru (Ty.left_start hE t) hc hd e6
  obtain ⟨h8, e8⟩ := rights_read hE hs (Ty.fits t) (Ty.fits t') (Ty.rts_ok ht) (Ty.rts_ok ht') rt.rt ha hb e7
  exact ⟨Ty.flat_inj ht ht' hb1 hcv h8, h7, e8⟩

end Undname.Spec.Cxx
