/-
  Reading the layers of types: pointers, references, arrays and functions around a type.
-/
import Verif.Proof.ReadTy

namespace Undname.Spec.Cxx

/-! ### Blanks -/

/-- The blank after a word. -/
def blank (E : Env) (P : Text) : Text := if P.getLast?.any (isWordEnd E) then c!" " else []

theorem sp_eq (E : Env) (P : Text) : sp E P = P ++ blank E P := by
  rw [sp, blank]
  cases P.getLast? with
  | none => simp
  | some c => cases h : isWordEnd E c <;> simp [h]

def wordEnd (E : Env) (P : Text) : Bool := P.getLast?.any (isWordEnd E)

theorem blank_true {E : Env} {P : Text} (h : wordEnd E P = true) : blank E P = c!" " := by rw [blank]; exact if_pos h
theorem blank_false {E : Env} {P : Text} (h : wordEnd E P = false) : blank E P = [] := by
  rw [blank]; exact if_neg (by rw [wordEnd] at h; simp [h])

theorem wordEnd_append {E : Env} {P Q : Text} (h : Q ≠ []) : wordEnd E (P ++ Q) = wordEnd E Q := by
  rw [wordEnd, wordEnd, List.getLast?_append]
  cases hq : Q.getLast? with
  | none => exact absurd (List.getLast?_eq_none_iff.mp hq) h
  | some c => rfl

/-- Words that may follow a pointer or the name of a fundamental type. -/
def after : List Text := [c!"const", c!"volatile", c!"__restrict", c!"double"]

theorem after_idc : ∀ w ∈ after, ∀ c ∈ w, idc c = true := by decide
theorem after_reserved : ∀ w ∈ after, w ∈ reserved := by decide
theorem after_ne : ∀ w ∈ after, w ≠ [] := by decide

/-- What follows `P` does not continue its last word or its qualifiers. -/
structure Follow (E : Env) (P X : Text) : Prop where
  kw : ∀ w ∈ after, ∀ r, NI r → X ≠ w ++ r ∧ X ≠ ' ' :: (w ++ r)
  ni : wordEnd E P = true → NI X
  lt : wordEnd E P = true → X.head? ≠ some '<'
  colon : wordEnd E P = true → X.head? ≠ some ':'

theorem not_word {w r : Text} {c : Char} {s : Text} (hw : w ∈ after) (hc : idc c = false) : c :: s ≠ w ++ r := by
  intro e
  cases w with
  | nil => exact after_ne _ hw rfl
  | cons d w =>
    simp at e
    rw [e.1, after_idc _ hw d (by simp)] at hc
    simp at hc

theorem not_word' {w w' r r' : Text} (hw : w ∈ after) (hr : NI r) (hr' : NI r') (hi : ∀ c ∈ w', idc c = true) (h : w' ∉ after) :
    w' ++ r' ≠ w ++ r := by
  intro e
  obtain ⟨rfl, -⟩ := word_read hi (after_idc _ hw) hr' hr e
  exact h hw

/-- Texts that start with a character of no word, or with such a character after a blank. -/
theorem Follow.char {E : Env} {P : Text} {c : Char} {s : Text} (hc : idc c = false) (h1 : c ≠ ' ') (h2 : c ≠ '<') (h3 : c ≠ ':') :
    Follow E P (c :: s) where
  kw w hw r hr := ⟨not_word hw hc, by simp [h1]⟩
  ni _ := NI.cons hc
  lt _ := by simpa using h2
  colon _ := by simpa using h3

theorem Follow.blankChar {E : Env} {P : Text} {c : Char} {s : Text} (hc : idc c = false) : Follow E P (' ' :: c :: s) where
  kw w hw r hr := ⟨not_word hw (by decide), by intro e; injection e with _ e; exact not_word hw hc e⟩
  ni _ := NI.cons (by decide)
  lt _ := by simp
  colon _ := by simp

theorem Follow.nil {E : Env} {P : Text} : Follow E P [] where
  kw w hw r hr := ⟨fun e => by
    cases w with
    | nil => exact after_ne _ hw rfl
    | cons d w => simp at e, by simp⟩
  ni _ := NI.nil
  lt _ := by simp
  colon _ := by simp

/-- Another word after a blank, or directly after something that is no word. -/
theorem Follow.word {E : Env} {P w s : Text} (hw : ∀ c ∈ w, idc c = true) (hn : w ∉ after) (hs : NI s) : Follow E P (' ' :: (w ++ s)) where
  kw v hv r hr := ⟨not_word hv (by decide), by intro e; injection e with _ e; exact not_word' hv hr hs hw hn e⟩
  ni _ := NI.cons (by decide)
  lt _ := by simp
  colon _ := by simp

theorem Follow.word0 {E : Env} {P w s : Text} (hp : wordEnd E P = false) (hw : ∀ c ∈ w, idc c = true) (hn : w ∉ after) (h0 : w ≠ []) (hs : NI s) :
    Follow E P (w ++ s) where
  kw v hv r hr := ⟨not_word' hv hr hs hw hn, by
    intro e
    cases w with
    | nil => exact h0 rfl
    | cons d w =>
      simp at e
      have := hw d (by simp)
      rw [e.1] at this
      exact absurd this (by decide)⟩
  ni h := by rw [hp] at h; simp at h
  lt h := by rw [hp] at h; simp at h
  colon h := by rw [hp] at h; simp at h

theorem ident_after {w : Text} (h : ident w = true) : w ∉ after := fun h' => ident_reserved h (after_reserved w h')

/-- A name, a pointer or a reference after a blank if necessary. -/
theorem Follow.start {E : Env} {P A : Text} (h : WStart A) : Follow E P (blank E P ++ A) := by
  by_cases hp : wordEnd E P = true
  · rw [blank_true hp]
    cases h with
    | @word w r h1 h2 => exact .word (w := w) (s := r) (ident_idc h1) (ident_after h1) h2
    | star | amp | quote => exact .blankChar (by decide)
  · rw [blank_false (by simpa using hp)]
    cases h with
    | @word w r h1 h2 => exact .word0 (w := w) (s := r) (by simpa using hp) (ident_idc h1) (ident_after h1) (ident_ne h1) h2
    | star | amp | quote => exact .char (by decide) (by decide) (by decide) (by decide)

/-! ### Pointers and references -/

def PK.kws : PK → List Text
  | .star c v r => (if c then [c!"const"] else []) ++ (if v then [c!"volatile"] else []) ++ (if r then [c!"__restrict"] else [])
  | _ => []

theorem star_cpp {E : Env} (hE : E.flags = Flags.default) (c v r : Bool) : (PK.star c v r).cpp E = '*' :: join c!" " ((PK.star c v r).kws.map id) := by
  rw [PK.cpp, PK.kws, words, dflt_ms hE, part_yes, dflt_msWord hE]; simp

theorem kws_after : ∀ c v r : Bool, ∀ w ∈ (PK.star c v r).kws, w ∈ after := by decide
theorem kws_inj : ∀ c v r c' v' r' : Bool, (PK.star c v r).kws = (PK.star c' v' r').kws → PK.star c v r = PK.star c' v' r' := by decide

/-- What may follow a pointer or reference. -/
structure Cont (k : PK) (X : Text) : Prop where
  amp : k = .ref → X.head? ≠ some '&'
  ni : k.kws ≠ [] → NI X
  kw : ∀ w ∈ after, ∀ r, NI r → X ≠ w ++ r ∧ X ≠ ' ' :: (w ++ r)

theorem kws_read {l l' : List Text} (hl : ∀ w ∈ l, w ∈ after) (hl' : ∀ w ∈ l', w ∈ after) {X Y : Text}
    (hX : l ≠ [] → NI X) (hY : l' ≠ [] → NI Y) (kX : ∀ w ∈ after, ∀ r, NI r → X ≠ w ++ r ∧ X ≠ ' ' :: (w ++ r))
    (kY : ∀ w ∈ after, ∀ r, NI r → Y ≠ w ++ r ∧ Y ≠ ' ' :: (w ++ r))
    (e : join c!" " (l.map id) ++ X = join c!" " (l'.map id) ++ Y) : l = l' ∧ X = Y := by
  have ni : ∀ {m : List Text} {Z : Text}, NI Z → NI (tails c!" " id m ++ Z) := by
    intro m Z hZ
    cases m with
    | nil => exact hZ
    | cons x m => rw [tails_cons]; exact NI.cons (by decide)
  cases l with
  | nil =>
    cases l' with
    | nil => exact ⟨rfl, e⟩
    | cons w l' =>
      rw [join_cons, List.append_assoc] at e
      exact absurd e (kX w (hl' w (by simp)) _ (ni (hY (by simp)))).1
  | cons w l =>
    cases l' with
    | nil =>
      rw [join_cons, List.append_assoc] at e
      exact absurd e.symm (kY w (hl w (by simp)) _ (ni (hX (by simp)))).1
    | cons w' l' =>
      rw [join_cons, join_cons, List.append_assoc, List.append_assoc] at e
      have e' := word_read (after_idc _ (hl w (by simp))) (after_idc _ (hl' w' (by simp))) (ni (hX (by simp))) (ni (hY (by simp))) e
      obtain ⟨h, e'⟩ := e'
      have h : w = w' := h
      have := tails_read (f := id) (sep := c!" ") (Ok := fun w => w ∈ after) (St := fun _ a => NI a) (l := l) (l' := l')
        (fun x hx y hy a b ha hb e => word_read (after_idc x (hl x (by simp [hx]))) (after_idc y hy) ha hb e)
        (fun x hx => hl x (by simp [hx])) (fun x hx => hl' x (by simp [hx])) (fun x _ r => NI.cons (by decide))
        (fun _ _ => hX (by simp)) (fun _ _ => hY (by simp))
        (fun y r hy hr => (kX y hy r hr).2) (fun y r hy hr => (kY y hy r hr).2) e'
      rw [h, this.1]
      exact ⟨rfl, this.2⟩

theorem PK.cpp_head {E : Env} (k : PK) : ∃ r, k.cpp E = (if k.isRef then '&' else '*') :: r := by
  cases k <;> simp [PK.cpp, PK.isRef]

theorem PK.read {E : Env} (hE : E.flags = Flags.default) {k k' : PK} {X Y : Text} (hX : Cont k X) (hY : Cont k' Y)
    (e : k.cpp E ++ X = k'.cpp E ++ Y) : k = k' ∧ X = Y := by
  have dd : ∀ {k k' : PK}, k.isRef = true → k'.isRef = false → ∀ {X Y}, k.cpp E ++ X ≠ k'.cpp E ++ Y := by
    intro k k' h h' X Y e
    obtain ⟨r, hr⟩ := PK.cpp_head (E := E) k
    obtain ⟨r', hr'⟩ := PK.cpp_head (E := E) k'
    rw [hr, hr', h, h'] at e
    simp at e
  cases k with
  | star c v r =>
    cases k' with
    | star c' v' r' =>
      rw [star_cpp hE, star_cpp hE, List.cons_append, List.cons_append, List.cons.injEq] at e
      obtain ⟨h, h'⟩ := kws_read (kws_after c v r) (kws_after c' v' r') hX.ni hY.ni hX.kw hY.kw e.2
      exact ⟨kws_inj _ _ _ _ _ _ h, h'⟩
    | ref | rref => exact absurd e.symm (dd rfl rfl)
  | ref =>
    cases k' with
    | star c' v' r' => exact absurd e (dd rfl rfl)
    | ref => simpa [PK.cpp] using e
    | rref =>
      simp [PK.cpp] at e
      exact absurd (by rw [e]; rfl) (hX.amp rfl)
  | rref =>
    cases k' with
    | star c' v' r' => exact absurd e (dd rfl rfl)
    | rref => simpa [PK.cpp] using e
    | ref =>
      simp [PK.cpp] at e
      exact absurd (by rw [← e]; rfl) (hY.amp rfl)

/-- A pointer with qualifiers ends in a word. -/
theorem PK.wordEnd {E : Env} (hE : E.flags = Flags.default) {k : PK} (h : k.kws ≠ []) : wordEnd E (k.cpp E) = true := by
  have key : ∀ c v r : Bool, (PK.star c v r).kws ≠ [] →
      (('*' :: join c!" " ((PK.star c v r).kws.map id)).getLast?.any fun c => decide (c.toNat < 128) && c.isAlphanum) = true := by decide
  cases k with
  | star c v r =>
    rw [Cxx.wordEnd, star_cpp hE]
    have := key c v r h
    rw [Option.any_eq_true] at this ⊢
    obtain ⟨x, hx, h⟩ := this
    simp only [Bool.and_eq_true, decide_eq_true_eq] at h
    exact ⟨x, hx, by simp [isWordEnd, h.1, h.2]⟩
  | ref | rref => simp [PK.kws] at h

theorem Follow.cont {E : Env} (hE : E.flags = Flags.default) {P X : Text} {k : PK} (h : Follow E (P ++ k.cpp E) X)
    (ha : k = .ref → X.head? ≠ some '&') : Cont k X where
  amp := ha
  ni hk := h.ni (by
    rw [wordEnd_append]
    · exact PK.wordEnd hE hk
    · obtain ⟨r, hr⟩ := PK.cpp_head (E := E) k; rw [hr]; simp)
  kw := h.kw

/-! ### Layers -/

/-- How a layer starts: a pointer to data (`__unaligned`?), to a function, to an array. -/
inductive Stem where
  | data (u : Bool)
  | fn (cc : Char)
  | arr

/-- What is on the right of a layer. -/
inductive Rt where
  | none
  | fn (ps : Tys) (va ne : Bool) (q : This)
  | arr (dims : List Nat)

/-- A layer of a type: `cls` is not empty for pointers to members. -/
structure Lay where
  stem : Stem
  cls : Path
  k : PK
  rt : Rt

def Stem.text (E : Env) (P : Text) : Stem → Text
  | .data u => blank E P ++ part u c!"__unaligned "
  | .fn cc => c!" (" ++ cword cc ++ c!" "
  | .arr => blank E P ++ c!"("

def clsText (E : Env) (p : Path) : Text := if p.isNil then [] else nmText E p.nms ++ c!"::"

/-- What a layer adds to the text `P` on the left. -/
def Lay.add (E : Env) (P : Text) (l : Lay) : Text := l.stem.text E P ++ (clsText E l.cls ++ l.k.cpp E)

/-- The qualifiers of a function. -/
def quals (E : Env) (q : This) (ne : Bool) : Text := q.cpp E ++ (noexcCpp ne ++ q.refCpp)

def Rt.text (E : Env) : Rt → Text
  | .none => []
  | .fn ps va ne q => c!")" ++ (paramsCpp (ps.list E) va ++ quals E q ne)
  | .arr dims => c!")" ++ bounds dims

structure Lay.Ok (key : Text) (l : Lay) : Prop where
  plain : l.cls.plain key = true
  conv : ∀ cc, l.stem = .fn cc → convLetters.contains cc = true
  ref : l.cls.isNil = false → l.k.isRef = false

theorem clsText_start {E : Env} {key : Text} {p : Path} (h : p.plain key = true) (k : PK) (X : Text) :
    WStart (clsText E p ++ (k.cpp E ++ X)) := by
  obtain ⟨r, hr⟩ := PK.cpp_head (E := E) k
  rw [clsText]
  by_cases hn : p.isNil = true
  · rw [if_pos hn, List.nil_append, hr]
    cases k.isRef
    · exact .star _
    · exact .amp _
  · rw [if_neg hn, List.append_assoc]
    exact Path.start h (by simpa using hn) (NI.cons (by decide))

theorem cls_read {E : Env} (hE : E.flags = Flags.default) {key : Text} {p p' : Path} {k k' : PK} {X Y : Text} (hp : p.plain key = true) (hp' : p'.plain key = true)
    (rd : NmsRd E key p.nms) (hk : p.isNil = false → k.isRef = false) (hk' : p'.isNil = false → k'.isRef = false)
    (hX : Cont k X) (hY : Cont k' Y) (e : clsText E p ++ (k.cpp E ++ X) = clsText E p' ++ (k'.cpp E ++ Y)) : p = p' ∧ k = k' ∧ X = Y := by
  obtain ⟨r, hr⟩ := PK.cpp_head (E := E) k
  obtain ⟨r', hr'⟩ := PK.cpp_head (E := E) k'
  have dd : ∀ {p : Path} {a : Text} {k : PK} {r b : Text}, p.plain key = true → p.isNil = false → nmText E p.nms ++ (c!"::" ++ a) ≠ (if k.isRef then '&' else '*') :: r ++ b := by
    intro p a k r b hp hn e
    have h1 := Path.start (E := E) hp hn (a := c!"::" ++ a) (NI.cons (by decide))
    rw [e] at h1
    rw [Path.nms, nmText] at e
    cases hs : p.segs.reverse with
    | nil => exact Path.nms_ne hn (by rw [Path.nms, hs]; rfl)
    | cons s l =>
      rw [hs, List.map_cons, join_cons] at e
      obtain ⟨c, t, hc, h⟩ := Seg.cpp_head (E := E) (Path.plain_segs hp s (by rw [← List.mem_reverse, hs]; simp))
      simp only [Nm.cpp] at e
      rw [hc] at e
      simp at e
      rw [e.1] at h
      revert h
      cases k.isRef <;> decide
  by_cases hn : p.isNil = true
  · by_cases hn' : p'.isNil = true
    · rw [clsText, clsText, if_pos hn, if_pos hn'] at e
      obtain ⟨rfl, rfl⟩ := PK.read hE hX hY e
      cases p <;> cases p' <;> simp [Path.isNil] at hn hn'
      exact ⟨rfl, rfl, rfl⟩
    · rw [clsText, clsText, if_pos hn, if_neg hn', hr, List.append_assoc, List.nil_append] at e
      exact absurd e.symm (dd hp' (by simpa using hn'))
  · by_cases hn' : p'.isNil = true
    · rw [clsText, clsText, if_neg hn, if_pos hn', hr', List.append_assoc, List.nil_append] at e
      exact absurd e (dd hp (by simpa using hn))
    · rw [clsText, clsText, if_neg hn, if_neg hn', List.append_assoc, List.append_assoc] at e
      have hr2 := hr
      have hr2' := hr'
      rw [hk (by simpa using hn)] at hr2
      rw [hk' (by simpa using hn')] at hr2'
      have st : ∀ {p : Path} {a : Text}, ∀ x ∈ p.nms, x.St (c!"::" ++ a) := fun x _ => Nm.St.colons x _
      have := names_read (E := E) (key := key) rd (Path.plain_nms hp) (Path.plain_nms hp') (Path.nms_ne (by simpa using hn)) (Path.nms_ne (by simpa using hn'))
        (st (a := k.cpp E ++ X)) (st (a := k'.cpp E ++ Y))
        (by rw [hr2]; exact PathEnd.star (by decide) (by decide) (by decide))
        (by rw [hr2']; exact PathEnd.star (by decide) (by decide) (by decide)) e
      obtain ⟨h, e'⟩ := this
      rw [List.append_cancel_left_eq] at e'
      obtain ⟨rfl, rfl⟩ := PK.read hE hX hY e'
      exact ⟨Path.nms_inj h, rfl, rfl⟩

theorem unaligned_start {A r : Text} (h : WStart A) : A ≠ c!"__unaligned " ++ r := by
  intro e
  cases h with
  | word h1 h2 =>
    obtain ⟨rfl, -⟩ := word_read (ident_idc h1) (w' := c!"__unaligned") (by decide) h2 (b := ' ' :: r) (NI.cons (by decide)) e
    exact absurd h1 (by decide)
  | star | amp | quote => simp at e

theorem cword_start {A : Text} {c : Char} {r : Text} (hc : convLetters.contains c = true) (hr : NI r) (h : WStart A) : A ≠ cword c ++ r := by
  intro e
  cases h with
  | word h1 h2 =>
    obtain ⟨rfl, -⟩ := word_read (ident_idc h1) (cword_idc hc) h2 hr e
    exact ident_reserved h1 (cword_reserved hc)
  | star | amp | quote => obtain ⟨s, hs⟩ := cword_head hc; rw [hs] at e; simp at e

theorem WStart.not_head {A : Text} (h : WStart A) {c : Char} {r : Text} (hc : idc c = false) (h1 : c ≠ '*') (h2 : c ≠ '&') (h3 : c ≠ '`') : A ≠ c :: r := by
  intro e
  obtain ⟨d, s, hd, h⟩ := h.head
  rw [hd] at e
  injection e with e _
  subst e
  rcases h with h | h | h | h
  · simp [hc] at h
  · exact h1 h
  · exact h2 h
  · exact h3 h

theorem stem_read {E : Env} {P : Text} {s s' : Stem} (hs : ∀ cc, s = .fn cc → convLetters.contains cc = true)
    (hs' : ∀ cc, s' = .fn cc → convLetters.contains cc = true) {A B : Text} (hA : WStart A) (hB : WStart B)
    (e : s.text E P ++ A = s'.text E P ++ B) : s = s' ∧ A = B := by
  have df : ∀ {u c A B}, WStart A → Stem.text E P (.data u) ++ A ≠ Stem.text E P (.fn c) ++ B := by
    intro u c A B hA e
    simp only [Stem.text] at e
    by_cases hp : wordEnd E P = true
    · rw [blank_true hp] at e
      cases u
      · simp [part] at e; exact hA.not_head (by decide) (by decide) (by decide) (by decide) e
      · simp [part] at e
    · rw [blank_false (by simpa using hp)] at e
      cases u
      · simp [part] at e; exact hA.not_head (by decide) (by decide) (by decide) (by decide) e
      · simp [part] at e
  have da : ∀ {u A B}, WStart A → Stem.text E P (.data u) ++ A ≠ Stem.text E P .arr ++ B := by
    intro u A B hA e
    simp only [Stem.text, List.append_assoc, List.append_cancel_left_eq] at e
    cases u
    · simp [part] at e; exact hA.not_head (by decide) (by decide) (by decide) (by decide) e
    · simp [part] at e
  have fa : ∀ {c A B}, convLetters.contains c = true → WStart B → Stem.text E P (.fn c) ++ A ≠ Stem.text E P .arr ++ B := by
    intro c A B hc hB e
    simp only [Stem.text] at e
    by_cases hp : wordEnd E P = true
    · rw [blank_true hp] at e
      simp at e
      exact cword_start hc (NI.cons (by decide)) hB e.symm
    · rw [blank_false (by simpa using hp)] at e
      simp at e
  cases s with
  | data u =>
    cases s' with
    | data u' =>
      simp only [Stem.text, List.append_assoc, List.append_cancel_left_eq] at e
      cases u <;> cases u'
      · exact ⟨rfl, e⟩
      · exact absurd e (unaligned_start hA)
      · exact absurd e.symm (unaligned_start hB)
      · exact ⟨rfl, List.append_cancel_left e⟩
    | fn c => exact absurd e (df hA)
    | arr => exact absurd e (da hA)
  | fn c =>
    cases s' with
    | data u' => exact absurd e.symm (df hB)
    | fn c' =>
      simp only [Stem.text, List.append_assoc, List.append_cancel_left_eq] at e
      obtain ⟨h, h'⟩ := word_read (cword_idc (hs c rfl)) (cword_idc (hs' c' rfl)) (NI.cons (by decide)) (NI.cons (by decide)) e
      rw [cword_inj (hs c rfl) (hs' c' rfl) h]
      exact ⟨rfl, by injection h'⟩
    | arr => exact absurd e (fa (hs c rfl) hB)
  | arr =>
    cases s' with
    | data u' => exact absurd e.symm (da hB)
    | fn c' => exact absurd e.symm (fa (hs' c' rfl) hA)
    | arr => simp only [Stem.text, List.append_assoc, List.append_cancel_left_eq] at e; exact ⟨rfl, e⟩

theorem Lay.add_read {E : Env} (hE : E.flags = Flags.default) {key P : Text} {l l' : Lay} (hl : l.Ok key) (hl' : l'.Ok key) (rd : NmsRd E key l.cls.nms) {X Y : Text}
    (hX : Follow E (P ++ l.add E P) X) (hY : Follow E (P ++ l'.add E P) Y) (aX : l.k = .ref → X.head? ≠ some '&') (aY : l'.k = .ref → Y.head? ≠ some '&')
    (e : l.add E P ++ X = l'.add E P ++ Y) : l.stem = l'.stem ∧ l.cls = l'.cls ∧ l.k = l'.k ∧ X = Y := by
  have cX : Cont l.k X := Follow.cont hE (P := P ++ (l.stem.text E P ++ clsText E l.cls)) (by
    rw [Lay.add] at hX; simpa only [List.append_assoc] using hX) aX
  have cY : Cont l'.k Y := Follow.cont hE (P := P ++ (l'.stem.text E P ++ clsText E l'.cls)) (by
    rw [Lay.add] at hY; simpa only [List.append_assoc] using hY) aY
  rw [Lay.add, Lay.add] at e
  simp only [List.append_assoc] at e
  obtain ⟨h, e⟩ := stem_read hl.conv hl'.conv (clsText_start hl.plain _ _) (clsText_start hl'.plain _ _) e
  exact ⟨h, cls_read hE hl.plain hl'.plain rd hl.ref hl'.ref cX cY e⟩

theorem Lay.follow {E : Env} {key P : Text} {l : Lay} (hl : l.Ok key) (r : Text) : Follow E P (l.add E P ++ r) := by
  rw [Lay.add, List.append_assoc, List.append_assoc]
  have hA := clsText_start (E := E) hl.plain l.k r
  cases hs : l.stem with
  | data u =>
    rw [Stem.text, List.append_assoc]
    cases u
    · exact .start hA
    · by_cases hp : wordEnd E P = true
      · rw [blank_true hp]
        exact .word (w := c!"__unaligned") (s := ' ' :: _) (by decide) (by decide) (NI.cons (by decide))
      · rw [blank_false (by simpa using hp)]
        exact .word0 (w := c!"__unaligned") (s := ' ' :: _) (by simpa using hp) (by decide) (by decide) (by decide) (NI.cons (by decide))
  | fn c => exact .blankChar (by decide)
  | arr =>
    rw [Stem.text, List.append_assoc]
    by_cases hp : wordEnd E P = true
    · rw [blank_true hp]; exact .blankChar (by decide)
    · rw [blank_false (by simpa using hp)]; exact .char (by decide) (by decide) (by decide) (by decide)

/-! ### Lists of layers -/

/-- What layers, innermost first, add on the left. -/
def adds (E : Env) : Text → List Lay → Text
  | _, [] => []
  | P, l :: ls => l.add E P ++ adds E (P ++ l.add E P) ls

/-- What they add on the right. -/
def rights (E : Env) : List Lay → Text
  | [] => []
  | l :: ls => rights E ls ++ l.rt.text E

theorem adds_append (E : Env) (P : Text) (l m : List Lay) : adds E P (l ++ m) = adds E P l ++ adds E (P ++ adds E P l) m := by
  induction l generalizing P with
  | nil => simp [adds]
  | cons x l ih => simp [adds, ih, List.append_assoc]

theorem rights_append (E : Env) (l m : List Lay) : rights E (l ++ m) = rights E m ++ rights E l := by
  induction l with
  | nil => simp [rights]
  | cons x l ih => simp [rights, ih, List.append_assoc]

/-- After a reference only functions. -/
def Chain : List Lay → Prop
  | [] => True
  | [_] => True
  | l :: m :: ls => (l.k.isRef = true → ∃ cc, m.stem = .fn cc) ∧ Chain (m :: ls)

theorem Lay.add_congr {E : Env} {P : Text} {l l' : Lay} (h1 : l.stem = l'.stem) (h2 : l.cls = l'.cls) (h3 : l.k = l'.k) :
    l.add E P = l'.add E P := by rw [Lay.add, Lay.add, h1, h2, h3]

/-- The same on the left. -/
def SameLeft (l l' : Lay) : Prop := l.stem = l'.stem ∧ l.cls = l'.cls ∧ l.k = l'.k

inductive SameLefts : List Lay → List Lay → Prop
  | nil : SameLefts [] []
  | cons {l l' ls ls'} : SameLeft l l' → SameLefts ls ls' → SameLefts (l :: ls) (l' :: ls')

theorem Chain.tail {l : Lay} {ls : List Lay} (h : Chain (l :: ls)) : Chain ls := by
  cases ls with
  | nil => trivial
  | cons m ls => exact h.2

theorem Chain.amp {E : Env} {P : Text} {l : Lay} {ls : List Lay} (h : Chain (l :: ls)) {X : Text} (hX : ls = [] → X.head? ≠ some '&') (hk : l.k = .ref) :
    (adds E P ls ++ X).head? ≠ some '&' := by
  cases ls with
  | nil => exact hX rfl
  | cons m ls =>
    obtain ⟨cc, hc⟩ := h.1 (by rw [hk]; rfl)
    rw [adds, Lay.add, hc]
    simp [Stem.text]

theorem lays_read {E : Env} (hE : E.flags = Flags.default) {key : Text} {L L' : List Lay} {P X Y : Text}
    (hL : ∀ l ∈ L, l.Ok key) (hL' : ∀ l ∈ L', l.Ok key) (rd : ∀ l ∈ L, NmsRd E key l.cls.nms) (cL : Chain L) (cL' : Chain L')
    (fX : Follow E (P ++ adds E P L) X) (fY : Follow E (P ++ adds E P L') Y) (aX : X.head? ≠ some '&') (aY : Y.head? ≠ some '&')
    (nX : ∀ l ∈ L', ∀ r, X ≠ l.add E (P ++ adds E P L) ++ r) (nY : ∀ l ∈ L, ∀ r, Y ≠ l.add E (P ++ adds E P L') ++ r)
    (e : adds E P L ++ X = adds E P L' ++ Y) : SameLefts L L' ∧ X = Y := by
  induction L generalizing L' P with
  | nil =>
    cases L' with
    | nil => exact ⟨.nil, e⟩
    | cons l' L' =>
      simp only [adds, List.nil_append, List.append_nil, List.append_assoc] at e nX
      exact absurd e (nX l' (by simp) _)
  | cons l L ih =>
    cases L' with
    | nil =>
      simp only [adds, List.nil_append, List.append_nil, List.append_assoc] at e nY
      exact absurd e.symm (nY l (by simp) _)
    | cons l' L' =>
      have fo : ∀ {l : Lay} {L : List Lay} {X : Text}, (∀ m ∈ l :: L, m.Ok key) → Follow E (P ++ adds E P (l :: L)) X →
          Follow E (P ++ l.add E P) (adds E (P ++ l.add E P) L ++ X) := by
        intro l L X hL fX
        cases L with
        | nil => simpa [adds] using fX
        | cons m L => rw [adds, List.append_assoc]; exact Lay.follow (hL m (by simp)) _
      have e0 := e
      simp only [adds, List.append_assoc] at e
      have h := Lay.add_read hE (hL l (by simp)) (hL' l' (by simp)) (rd l (by simp)) (fo hL fX) (fo hL' fY)
        (fun hk => cL.amp (fun _ => aX) hk) (fun hk => cL'.amp (fun _ => aY) hk) e
      obtain ⟨h1, h2, h3, e⟩ := h
      have ha := Lay.add_congr (E := E) (P := P) h1 h2 h3
      rw [← ha] at e
      have h := ih (L' := L') (P := P ++ l.add E P) (fun m hm => hL m (by simp [hm])) (fun m hm => hL' m (by simp [hm])) (fun m hm => rd m (by simp [hm])) cL.tail cL'.tail
        (by simpa only [adds, List.append_assoc] using fX) (by rw [ha]; simpa only [adds, List.append_assoc] using fY)
        (fun m hm r => by have := nX m (by simp [hm]) r; simpa only [adds, List.append_assoc] using this)
        (fun m hm r => by have := nY m (by simp [hm]) r; rw [ha]; simpa only [adds, List.append_assoc] using this) e
      exact ⟨.cons ⟨h1, h2, h3⟩ h.1, h.2⟩

end Undname.Spec.Cxx
