/-
  Proof for C58: the texts of declarations have tidy blanks.
-/
import Verif.Spec.Layout

namespace Undname.Spec.Cxx
open Undname.Spec

/-- What may stand next to each other. -/
def okPair (a b : Char) : Bool := (a != ' ' || !noBlankBefore.contains b) && (b != ' ' || !noBlankAfter.contains a)

/-- All neighbours are fine. -/
def okAll : Text → Bool
  | a :: b :: r => okPair a b && okAll (b :: r)
  | _ => true

def headOk (t : Text) : Bool := t.head?.all fun c => !noBlankBefore.contains c
def lastOk (t : Text) : Bool := t.getLast?.all fun c => !noBlankAfter.contains c

theorem okAll_append {x y : Text} (hx : okAll x = true) (hy : okAll y = true)
    (h : ∀ a ∈ x.getLast?, ∀ b ∈ y.head?, okPair a b = true) : okAll (x ++ y) = true := by
  induction x with
  | nil => exact hy
  | cons a x ih =>
    cases x with
    | nil =>
      cases y with
      | nil => rfl
      | cons b y => simpa [okAll, hy] using h a rfl b rfl
    | cons b x =>
      simp only [okAll, Bool.and_eq_true] at hx
      simp only [List.cons_append, okAll, Bool.and_eq_true]
      exact ⟨hx.1, ih hx.2 (by simpa [List.getLast?_cons_cons] using h)⟩

/-- What can begin a text. -/
structure Lead (x : Text) : Prop where
  all : okAll x = true
  head : headOk x = true
/-- What can end a text. -/
structure Rest (x : Text) : Prop where
  all : okAll x = true
  last : lastOk x = true
/-- What can be a text. -/
structure Whole (x : Text) : Prop where
  all : okAll x = true
  head : headOk x = true
  last : lastOk x = true
  ne : x ≠ []

/-- What can be a text, and may end in `<`. -/
structure Body (x : Text) : Prop where
  all : okAll x = true
  head : headOk x = true
  last : x.getLast? ≠ some ' '
  ne : x ≠ []

theorem Whole.body {x : Text} (h : Whole x) : Body x :=
  ⟨h.all, h.head, fun e => by have := h.last; unfold lastOk at this; rw [e] at this; revert this; decide, h.ne⟩
theorem Body.lead {x : Text} (h : Body x) : Lead x := ⟨h.all, h.head⟩
theorem Whole.lead {x : Text} (h : Whole x) : Lead x := ⟨h.all, h.head⟩
theorem Whole.rest {x : Text} (h : Whole x) : Rest x := ⟨h.all, h.last⟩

theorem okPair_of_head {a b : Char} (h : (!noBlankBefore.contains b) = true) : okPair a b = true := by
  have hb : b ≠ ' ' := by rintro rfl; simp [noBlankBefore] at h
  simp only [okPair, h, Bool.or_true, Bool.true_and]
  simp [hb]

theorem okPair_of_last {a b : Char} (h : (!noBlankAfter.contains a) = true) : okPair a b = true := by
  have ha : a ≠ ' ' := by rintro rfl; simp [noBlankAfter] at h
  simp only [okPair, h, Bool.or_true, Bool.and_true]
  simp [ha]

theorem headOk_append {x y : Text} (hx : headOk x = true) (hy : headOk y = true) : headOk (x ++ y) = true := by
  cases x with
  | nil => exact hy
  | cons a x => exact hx

theorem lastOk_append {x y : Text} (hx : lastOk x = true) (hy : lastOk y = true) : lastOk (x ++ y) = true := by
  unfold lastOk at *
  rw [List.getLast?_append]
  cases h : y.getLast? with
  | none => simpa using hx
  | some c => rw [h] at hy; simpa using hy

theorem okAll_lead {x y : Text} (hx : okAll x = true) (hy : okAll y = true) (h : headOk y = true) : okAll (x ++ y) = true :=
  okAll_append hx hy fun a _ b hb => okPair_of_head (by unfold headOk at h; rw [Option.mem_def.1 hb] at h; exact h)

theorem okAll_rest {x y : Text} (hx : okAll x = true) (hy : okAll y = true) (h : lastOk x = true) : okAll (x ++ y) = true :=
  okAll_append hx hy fun a ha b _ => okPair_of_last (by unfold lastOk at h; rw [Option.mem_def.1 ha] at h; exact h)

theorem Lead.append {x y : Text} (hx : Lead x) (hy : Lead y) : Lead (x ++ y) :=
  ⟨okAll_lead hx.all hy.all hy.head, headOk_append hx.head hy.head⟩
theorem Rest.append {x y : Text} (hx : Rest x) (hy : Rest y) : Rest (x ++ y) :=
  ⟨okAll_rest hx.all hy.all hx.last, lastOk_append hx.last hy.last⟩
theorem Lead.whole {x y : Text} (hx : Lead x) (hy : Whole y) : Whole (x ++ y) :=
  ⟨okAll_lead hx.all hy.all hy.head, headOk_append hx.head hy.head, by
    have := hy.last
    unfold lastOk at *
    rw [List.getLast?_append]
    cases h : y.getLast? with
    | none => exact absurd (List.getLast?_eq_none_iff.1 h) hy.ne
    | some c => rw [h] at this; simpa using this, by simp [hy.ne]⟩
theorem Whole.then {x y : Text} (hx : Whole x) (hy : Rest y) : Whole (x ++ y) :=
  ⟨okAll_rest hx.all hy.all hx.last, by
    have := hx.head
    obtain ⟨a, x, rfl⟩ := List.exists_cons_of_ne_nil hx.ne
    exact this, lastOk_append hx.last hy.last, by simp [hx.ne]⟩
/-- A text followed by anything that does not begin with two blanks. -/
theorem Whole.lead_then {x y : Text} (hx : Whole x) (hy : okAll y = true) : Lead (x ++ y) :=
  ⟨okAll_rest hx.all hy hx.last, by
    have := hx.head
    obtain ⟨a, x, rfl⟩ := List.exists_cons_of_ne_nil hx.ne
    exact this⟩
/-- A text after anything. -/
theorem Whole.after {x y : Text} (hx : okAll x = true) (hy : Whole y) : Rest (x ++ y) :=
  ⟨okAll_lead hx hy.all hy.head, (Lead.whole (x := []) ⟨rfl, rfl⟩ hy).last |> fun h => by
    have := hy.last
    unfold lastOk at *
    rw [List.getLast?_append]
    cases h : y.getLast? with
    | none => exact absurd (List.getLast?_eq_none_iff.1 h) hy.ne
    | some c => rw [h] at this; simpa using this⟩

theorem Lead.body {x y : Text} (hx : Lead x) (hy : Body y) : Body (x ++ y) :=
  ⟨okAll_lead hx.all hy.all hy.head, headOk_append hx.head hy.head, by
    rw [List.getLast?_append]
    cases h : y.getLast? with
    | none => exact absurd (List.getLast?_eq_none_iff.1 h) hy.ne
    | some c => have := hy.last; rw [h] at this; simpa using this, by simp [hy.ne]⟩
/-- Something followed by a character that is no blank. -/
theorem Body.lead_then {x y : Text} (hx : Body x) (hy : okAll y = true) (hh : ∀ b ∈ y.head?, b ≠ ' ') : Lead (x ++ y) :=
  ⟨okAll_append hx.all hy fun a ha b hb => by
    have ha : a ≠ ' ' := by rintro rfl; exact hx.last ha
    have hb := hh b hb
    simp [okPair, ha, hb], by
    have := hx.head
    obtain ⟨a, x, rfl⟩ := List.exists_cons_of_ne_nil hx.ne
    exact this⟩

theorem Lead.nil : Lead [] := ⟨rfl, rfl⟩
theorem Rest.nil : Rest [] := ⟨rfl, rfl⟩
theorem Lead.part {x : Text} (b : Bool) (h : Lead x) : Lead (part b x) := by
  cases b
  · exact .nil
  · exact h
theorem Rest.part {x : Text} (b : Bool) (h : Rest x) : Rest (part b x) := by
  cases b
  · exact .nil
  · exact h
theorem Lead.ite {x y : Text} {b : Prop} [Decidable b] (h : Lead x) (h' : Lead y) : Lead (if b then x else y) := by
  split <;> assumption
theorem Rest.ite {x y : Text} {b : Prop} [Decidable b] (h : Rest x) (h' : Rest y) : Rest (if b then x else y) := by
  split <;> assumption
theorem Whole.blank {x : Text} (hx : Whole x) : Lead (x ++ c!" ") := hx.lead_then (by decide)

/-- Constant texts. -/
theorem Whole.const {x : Text} (h : (okAll x && headOk x && lastOk x && !x.isEmpty) = true) : Whole x := by
  simp only [Bool.and_eq_true, Bool.not_eq_true', List.isEmpty_eq_false_iff] at h
  exact ⟨h.1.1.1, h.1.1.2, h.1.2, h.2⟩
theorem Lead.const {x : Text} (h : (okAll x && headOk x) = true) : Lead x := by
  simp only [Bool.and_eq_true] at h
  exact ⟨h.1, h.2⟩
theorem Rest.const {x : Text} (h : (okAll x && lastOk x) = true) : Rest x := by
  simp only [Bool.and_eq_true] at h
  exact ⟨h.1, h.2⟩

/-- Without blanks everything is fine. -/
theorem okAll_of {x : Text} (h : ' ' ∉ x) : okAll x = true := by
  induction x with
  | nil => rfl
  | cons a x ih =>
    cases x with
    | nil => rfl
    | cons b x =>
      simp only [List.mem_cons, not_or] at h
      have ha : a ≠ ' ' := fun e => h.1 e.symm
      have hb : b ≠ ' ' := fun e => h.2.1 e.symm
      simp only [okAll, okPair, Bool.and_eq_true]
      refine ⟨by simp [ha, hb], ih ?_⟩
      simp only [List.mem_cons, not_or]
      exact h.2

theorem _root_.Undname.Spec.TidyId.whole {s : Text} (h : TidyId s) (hn : s ≠ []) : Whole s where
  all := okAll_of h.1
  head := by
    unfold headOk
    cases e : s.head? with
    | none => rfl
    | some c =>
      simp only [Option.all_some, Bool.not_eq_true', ← Bool.not_eq_true, List.contains_iff_mem]
      exact fun hc => h.2.1 c hc e
  last := by
    unfold lastOk
    cases e : s.getLast? with
    | none => rfl
    | some c =>
      simp only [Option.all_some, Bool.not_eq_true', ← Bool.not_eq_true, List.contains_iff_mem]
      exact fun hc => h.2.2 c hc e
  ne := hn

theorem okAll_infix {t : Text} (h : okAll t = true) {a b : Char} (hi : [a, b] <:+: t) : okPair a b = true := by
  obtain ⟨u, v, rfl⟩ := hi
  induction u with
  | nil => simp only [List.nil_append, List.cons_append, okAll, Bool.and_eq_true] at h; exact h.1
  | cons c u ih =>
    apply ih
    cases u with
    | nil => simp only [List.cons_append, List.nil_append, okAll, Bool.and_eq_true] at h; simpa [okAll] using h.2
    | cons d u => simp only [List.cons_append, okAll, Bool.and_eq_true] at h; exact h.2

theorem Body.tidy {t : Text} (h : Body t) : Tidy t where
  first e := by have := h.head; unfold headOk at this; rw [e] at this; simp [noBlankBefore] at this
  last := h.last
  before c hc hi := by
    have := okAll_infix h.all hi
    simp only [okPair, Bool.and_eq_true] at this
    have := this.1
    simp [List.contains_iff_mem, hc] at this
  after c hc hi := by
    have := okAll_infix h.all hi
    simp only [okPair, Bool.and_eq_true] at this
    have := this.2
    simp [List.contains_iff_mem, hc] at this

/-! ### Numbers -/

theorem digitChar_ok (n : Nat) : Nat.digitChar n ∉ noBlankBefore ∧ Nat.digitChar n ∉ noBlankAfter := by
  have : ∀ c ∈ (List.range 17).map Nat.digitChar, c ∉ noBlankBefore ∧ c ∉ noBlankAfter := by decide
  by_cases h : n < 17
  · exact this _ (List.mem_map.2 ⟨n, by simpa using h, rfl⟩)
  · have : Nat.digitChar n = '*' := by
      unfold Nat.digitChar
      repeat rw [if_neg (by omega)]
    rw [this]; decide

theorem nat_all (n : Nat) : ∀ c ∈ nat n, c ∉ noBlankBefore ∧ c ∉ noBlankAfter := by
  unfold nat
  suffices h : ∀ f n ds, (∀ c ∈ ds, c ∉ noBlankBefore ∧ c ∉ noBlankAfter) →
      ∀ c ∈ Nat.toDigitsCore 10 f n ds, c ∉ noBlankBefore ∧ c ∉ noBlankAfter from h _ _ [] (by simp)
  intro f
  induction f with
  | zero => intro n ds h; exact h
  | succ f ih =>
    intro n ds h
    have h' : ∀ c ∈ (n % 10).digitChar :: ds, c ∉ noBlankBefore ∧ c ∉ noBlankAfter := by
      intro c hc
      rcases List.mem_cons.1 hc with rfl | hc
      · exact digitChar_ok _
      · exact h c hc
    unfold Nat.toDigitsCore
    simp only
    split
    · exact h'
    · exact ih _ _ h'

theorem nat_ne (n : Nat) : nat n ≠ [] := by
  unfold nat
  rw [← List.length_pos_iff]
  exact Nat.length_toDigits_pos

theorem whole_of_all {s : Text} (hn : s ≠ []) (h : ∀ c ∈ s, c ∉ noBlankBefore ∧ c ∉ noBlankAfter) : Whole s :=
  TidyId.whole ⟨fun hb => (h _ hb).1 (by decide), fun c hc e => (h c (List.mem_of_mem_head? e)).1 hc,
    fun c hc e => (h c (List.mem_of_getLast? e)).2 hc⟩ hn

theorem whole_nat (n : Nat) : Whole (nat n) := whole_of_all (nat_ne n) (nat_all n)

theorem whole_sint (i : Int) : Whole (sint i) := by
  cases i with
  | ofNat n => exact whole_nat n
  | negSucc n => exact Lead.whole (x := c!"-") (.const rfl) (whole_nat _)

/-! ### Lists -/

theorem body_join {sep : Text} (hs : okAll sep = true) (hh : ∀ b ∈ sep.head?, b ≠ ' ') {l : List Text} (h : ∀ x ∈ l, Body x) (hn : l ≠ []) :
    Body (join sep l) := by
  induction l with
  | nil => exact absurd rfl hn
  | cons a l ih =>
    cases l with
    | nil => exact h a (by simp)
    | cons b l => exact Lead.body ((h a (by simp)).lead_then hs hh) (ih (fun x hx => h x (by simp [hx])) (by simp))

theorem whole_join {sep : Text} (hs : okAll sep = true) {l : List Text} (h : ∀ x ∈ l, Whole x) (hn : l ≠ []) : Whole (join sep l) := by
  induction l with
  | nil => exact absurd rfl hn
  | cons a l ih =>
    cases l with
    | nil => exact h a (by simp)
    | cons b l => exact Lead.whole ((h a (by simp)).lead_then hs) (ih (fun x hx => h x (by simp [hx])) (by simp))

theorem whole_path {l : List Text} (h : ∀ x ∈ l, Whole x) (hn : l ≠ []) : Whole (showPath l) :=
  whole_join (by decide) (fun x hx => h x (by simpa using hx)) (by simpa using hn)

theorem join_snoc (sep : Text) (l : List Text) (a : Text) : join sep (l ++ [a]) = l.flatMap (· ++ sep) ++ a := by
  induction l with
  | nil => rfl
  | cons b l ih =>
    have : join sep (b :: l ++ [a]) = b ++ sep ++ join sep (l ++ [a]) := by cases l <;> rfl
    rw [this, ih]
    simp

/-- A qualified name of which only the innermost part may end in `<`. -/
theorem body_path {a : Text} {l : List Text} (ha : Body a) (h : ∀ x ∈ l, Whole x) : Body (showPath (a :: l)) := by
  unfold showPath
  rw [List.reverse_cons, join_snoc]
  refine Lead.body ?_ ha
  have : ∀ m : List Text, (∀ x ∈ m, Whole x) → Lead (m.flatMap (· ++ c!"::")) := by
    intro m
    induction m with
    | nil => exact fun _ => .nil
    | cons b m ih => exact fun h => ((h b (by simp)).lead_then (by decide)).append (ih fun x hx => h x (by simp [hx]))
  exact this _ fun x hx => h x (by simpa using hx)

/-- A list in brackets. -/
theorem whole_bracket {o c : Char} {l : List Text} (ho : o ∉ noBlankBefore) (hc : c ∉ noBlankAfter) (h : ∀ x ∈ l, Body x) :
    Whole ([o] ++ join c!", " l ++ [c]) := by
  have hc' : c ≠ ' ' := by rintro rfl; exact hc (by decide)
  have ho' : o ≠ ' ' := by rintro rfl; exact ho (by decide)
  have hol : Lead [o] := ⟨rfl, by simpa [headOk] using ho⟩
  have hlast : ∀ x : Text, lastOk (x ++ [c]) = true := by intro x; simpa [lastOk] using hc
  cases l with
  | nil => exact ⟨by simp [join, okAll, okPair, ho', hc'], by simpa [join, headOk] using ho, hlast _, by simp⟩
  | cons a l =>
    have hw := Lead.body hol (body_join (sep := c!", ") (by decide) (by simp) h (by simp))
    have hl := hw.lead_then (y := [c]) rfl (by simpa using hc')
    exact ⟨hl.all, hl.head, hlast _, by simp⟩

theorem whole_angle {l : List Text} (h : ∀ x ∈ l, Body x) : Whole (c!"<" ++ join c!", " l ++ c!">") :=
  whole_bracket (by decide) (by decide) h

theorem one_noblank (d : Nat) : ' ' ∉ bounds.one d := by
  unfold bounds.one
  split
  · simp
  · exact fun h => (nat_all d _ h).1 (by decide)

theorem whole_bounds (dims : List Nat) : Whole (bounds dims) := by
  have hne : bounds dims ≠ [] := by cases dims <;> simp [bounds]
  have hlast : (bounds dims).getLast? = some ']' := by
    cases dims with
    | nil => rfl
    | cons d ds => unfold bounds; rw [List.getLast?_append]; rfl
  have hhead : (bounds dims).head? = some '[' := by cases dims <;> simp [bounds]
  refine TidyId.whole ⟨?_, ?_, ?_⟩ hne
  · cases dims with
    | nil => decide
    | cons d ds =>
      intro h
      simp only [bounds, List.mem_append, List.mem_flatMap] at h
      rcases h with ((h | h) | ⟨e, _, h | h⟩) | h
      · revert h; decide
      · exact one_noblank _ h
      · revert h; decide
      · exact one_noblank _ h
      · revert h; decide
  · rw [hhead]; decide
  · rw [hlast]; decide

/-! ### Attributes -/

theorem cv_rest (c v : Bool) : Rest (Spec.Ty.cvAfter c v) := by
  cases c <;> cases v <;> exact .const (by decide)

theorem prim_whole (k : PrimitiveKind) : Whole (primName k) := by
  cases k <;> exact .const (by decide)
theorem tag_whole (k : TagKind) : Whole (tagName k) := by
  cases k <;> exact .const (by decide)
theorem Body.const {x : Text} (h : (okAll x && headOk x && !(x.getLast? == some ' ') && !x.isEmpty) = true) : Body x := by
  simp only [Bool.and_eq_true, Bool.not_eq_true', List.isEmpty_eq_false_iff, beq_eq_false_iff_ne, ne_eq] at h
  exact ⟨h.1.1.1, h.1.1.2, h.1.2, h.2⟩
theorem op_body (o : IFK) : Body (opName o) := by
  cases o <;> exact .const (by decide)
theorem access_lead (a : Access) : Lead (accessName a) := by
  cases a <;> exact .const (by decide)
theorem ref_rest (q : This) : Rest q.refCpp := by
  unfold This.refCpp
  split <;> exact .const (by decide)
theorem noexc_rest (b : Bool) : Rest (noexcCpp b) := Rest.part b (.const (by decide))

section
variable {E : Env}

theorem ms_whole {s : Text} (h : Whole s) : Whole (msWord E s) := by
  unfold msWord
  split
  · exact h
  · exact Lead.whole (.const (by decide)) h

theorem this_rest (q : This) : Rest (q.cpp E) := by
  unfold This.cpp
  refine (cv_rest _ _).append (Rest.part _ ((Rest.part _ ?_).append (Rest.part _ ?_)))
  · exact Whole.after (by decide) (ms_whole (.const (by decide)))
  · exact Whole.after (by decide) (ms_whole (.const (by decide)))

theorem pk_whole (hms : E.flags.no_ms_keywords = false) (k : PK) : Whole (k.cpp E) := by
  cases k with
  | ref => exact .const rfl
  | rref => exact .const rfl
  | star c v r =>
    have hs : shows.ms E = true := by simp [shows.ms, hms]
    simp only [PK.cpp, hs, words]
    have hr : Whole (part true (msWord E c!"restrict")) := ms_whole (.const (by decide))
    have hc : Whole c!"const" := .const (by decide)
    have hv : Whole c!"volatile" := .const (by decide)
    by_cases hn : ((if c then [c!"const"] else []) ++ (if v then [c!"volatile"] else []) ++
      (if r then [part true (msWord E c!"restrict")] else [])) = []
    · rw [hn]; exact .const (by decide)
    · refine Lead.whole (.const (by decide)) (whole_join (by decide) ?_ hn)
      intro x hx
      simp only [List.mem_append] at hx
      rcases hx with (hx | hx) | hx
      · cases c <;> simp at hx; rw [hx]; exact hc
      · cases v <;> simp at hx; rw [hx]; exact hv
      · cases r <;> simp at hx; rw [hx]; exact hr

theorem conv_whole {cc : Char} (h : (convWord cc).isSome = true) : Whole (convCpp E cc) := by
  unfold convCpp
  unfold convWord at *
  split at h <;> first | (simp at h; done) | (split <;> exact .const (by decide))

theorem params_whole {l : List Text} (h : ∀ x ∈ l, Whole x) (v : Bool) : Whole (paramsCpp l v) := by
  unfold paramsCpp
  have hc : Rest c!")" := .const (by decide)
  cases l with
  | nil => cases v <;> exact .const (by decide)
  | cons a l =>
    have hw := whole_join (sep := c!", ") (by decide) h (by simp)
    simp only [List.isEmpty_cons, Bool.false_eq_true, if_false]
    refine Whole.then (Lead.whole (.const (by decide)) (hw.then ?_)) hc
    cases v <;> exact .const (by decide)

theorem storage_lead (st : Storage) : Lead (st.cpp E) := by
  cases st with
  | member a => exact (Lead.part _ (access_lead a)).append (Lead.part _ (.const (by decide)))
  | _ => exact .nil

theorem kind_lead (k : Kind) : Lead (k.cpp E) := by
  cases k with
  | free b => exact Lead.part _ (Lead.part _ (.const (by decide)))
  | static a => exact (Lead.part _ (access_lead a)).append (Lead.part _ (.const (by decide)))
  | member a v q => exact (Lead.part _ (access_lead a)).append (Lead.part _ (Lead.part _ (.const (by decide))))
  | thunk a j q =>
    exact ((Lead.part _ (.const (by decide))).append (Lead.part _ (access_lead a))).append (Lead.part _ (Lead.part _ (.const (by decide))))

theorem comma_lead : okAll c!", " = true := by decide

theorem adj_rest (k : Kind) : Rest k.adjCpp := by
  have hc : Rest c!"}'" := .const (by decide)
  cases k with
  | thunk a j q =>
    cases j with
    | static n => exact (Whole.after (by decide) (whole_nat n)).append hc
    | disp d n =>
      refine Rest.append (Whole.after ?_ (whole_nat n)) hc
      exact okAll_rest (okAll_lead (by decide) (whole_sint d).all (whole_sint d).head) comma_lead (Whole.after (by decide) (whole_sint d)).last
    | dispex a b d n =>
      have h1 := Whole.after (x := c!"`vtordispex{") (by decide) (whole_sint a)
      have h2 := Whole.after (okAll_rest h1.all comma_lead h1.last) (whole_sint b)
      have h3 := Whole.after (okAll_rest h2.all comma_lead h2.last) (whole_sint d)
      exact (Whole.after (okAll_rest h3.all comma_lead h3.last) (whole_nat n)).append hc
  | _ => exact .nil

theorem adj_lead (k : Kind) : Lead k.adjCpp := by
  have : ∀ y, okAll y = true → y.head? = some '`' → Lead y := fun y h e => ⟨h, by unfold headOk; rw [e]; rfl⟩
  have hr := adj_rest k
  cases k with
  | thunk a j q => cases j <;> exact this _ hr.all rfl
  | _ => exact .nil

theorem sp_lead {x : Text} (h : Whole x) : Lead (sp E x) := by
  unfold sp
  split
  · split
    · exact h.blank
    · exact h.lead
  · exact h.lead

end

/-! ### Declarations -/

theorem ids_left {P : Text → Prop} {a b : List Text} (h : ∀ s ∈ a ++ b, P s) : ∀ s ∈ a, P s := fun s hs => h s (by simp [hs])
theorem ids_right {P : Text → Prop} {a b : List Text} (h : ∀ s ∈ a ++ b, P s) : ∀ s ∈ b, P s := fun s hs => h s (by simp [hs])

section
variable {E : Env}

/-- What is needed of a function type. -/
structure SigL (E : Env) (s : Sig) : Prop where
  left : Lead (s.left E)
  ret : Lead (s.ret E)
  conv : Lead (s.conv E)
  params : Whole (s.params E)
  right : ∀ q, Rest (s.right E q)
  retType : Whole (s.retType E)
  type : ∀ q, Whole (s.type E q)

theorem sig_layout (hn : E.flags.name_only = false) {cc : Char} {ret : Ty} {ps : Tys} {v n : Bool} (hc : (convWord cc).isSome = true)
    (hl : Whole (ret.left E)) (hr : Rest (ret.right E)) (hp : ∀ x ∈ ps.list E, Whole x) : SigL E (.mk cc ret ps v n) := by
  have hcv : Whole (convCpp E cc) := conv_whole hc
  have hpw := params_whole hp v
  have hright : ∀ q, Rest (Sig.right E (.mk cc ret ps v n) q) := fun q => by
    unfold Sig.right
    exact (((Rest.part _ (this_rest q)).append (noexc_rest n)).append (Rest.part _ (ref_rest q))).append (Rest.part _ hr)
  refine ⟨?_, ?_, ?_, ?_, hright, ?_, fun q => ?_⟩
  · unfold Sig.left
    exact ((Lead.part _ hl.blank).append (.const (by decide))).append (Lead.part _ hcv.blank)
  · unfold Sig.ret; exact Lead.part _ hl.blank
  · unfold Sig.conv; exact Lead.part _ hcv.blank
  · unfold Sig.params; exact hpw
  · unfold Sig.retType; exact hl.then hr
  · unfold Sig.type
    have hs : shows.params E = true := by simp [shows.params, hn]
    rw [hs]
    have h0 := Lead.whole ((Lead.part (shows.ret E) hl.blank).append (Lead.part (shows.conv E) hcv.lead)) hpw
    exact (((h0.then (Rest.part _ (this_rest q))).then (noexc_rest n)).then (Rest.part _ (ref_rest q))).then (Rest.part _ hr)

theorem path_ne {p : Path} (h : p.IsType E) : p.names E ≠ [] := by
  cases p with
  | nil => exact absurd h (by simp [Path.IsType])
  | cons s p => simp [Path.names]

theorem path_ok {p : Path} (h : p.IsType E) : p.Ok E := by
  cases p with
  | nil => exact absurd h (by simp [Path.IsType])
  | cons s p => simp only [Path.IsType] at h; simp only [Path.Ok]; exact h.2

theorem unaligned_lead (b : Bool) : Lead (part b (msWord E c!"unaligned" ++ c!" ")) :=
  Lead.part _ (ms_whole (.const (by decide))).blank

theorem name_ne {s : Text} (h : Name s) : s ≠ [] := h.1

theorem whole_offs {offs : List Int} (h : offs ≠ []) : Whole (join c!", " (offs.map sint)) :=
  whole_join (by decide) (fun x hx => by
    obtain ⟨i, _, rfl⟩ := List.mem_map.1 hx
    exact whole_sint i) (by simpa using h)

/-- What follows the name of a variable does not begin with a blank. -/
theorem Ty.right_head (E : Env) : (t : Ty) → ∀ b ∈ (t.right E).head?, b ≠ ' '
  | .prim .. => by unfold Ty.right; simp
  | .tag .. => by unfold Ty.right; simp
  | .ptr _ _ to => by unfold Ty.right; exact Ty.right_head E to
  | .fptr .. => by unfold Ty.right; simp
  | .aptr .. => by unfold Ty.right; simp
  | .mptr _ _ _ to => by unfold Ty.right; exact Ty.right_head E to
  | .mfptr .. => by unfold Ty.right; simp

theorem Body.right {x y : Text} (hx : Body x) (hh : ∀ b ∈ y.head?, b ≠ ' ') (hy : Rest y) : Body (x ++ y) := by
  have h := hx.lead_then hy.all hh
  refine ⟨h.all, h.head, ?_, by simp [hx.ne]⟩
  rw [List.getLast?_append]
  cases e : y.getLast? with
  | none => simpa using hx.last
  | some c =>
    have := hy.last
    unfold lastOk at this
    rw [e] at this
    rintro e'
    simp at e'
    subst e'
    revert this; decide

mutual
theorem Ty.layout (hn : E.flags.name_only = false) (hms : E.flags.no_ms_keywords = false) :
    (t : Ty) → t.Ok E → (∀ s ∈ t.idents, TidyId s) → Whole (t.left E) ∧ Rest (t.right E)
  | .prim k c v, _, _ => ⟨by unfold Ty.left; exact (prim_whole k).then (cv_rest c v), by unfold Ty.right; exact .nil⟩
  | .tag k p c v, h, hi => by
    simp only [Ty.Ok] at h
    have hp := Path.layout hn hms p (path_ok h) (by simpa only [Ty.idents] using hi)
    refine ⟨?_, by unfold Ty.right; exact .nil⟩
    unfold Ty.left
    exact (Lead.whole (Lead.part _ (tag_whole k).blank) (whole_path hp (path_ne h))).then (cv_rest c v)
  | .ptr k u to, h, hi => by
    simp only [Ty.Ok] at h
    have ht := Ty.layout hn hms to h (by simpa only [Ty.idents] using hi)
    unfold Ty.left Ty.right
    exact ⟨Lead.whole ((sp_lead ht.1).append (unaligned_lead _)) (pk_whole hms k), ht.2⟩
  | .fptr k s, h, hi => by
    simp only [Ty.Ok] at h
    have hs := Sig.layout hn hms s h.2 (by simpa only [Ty.idents] using hi)
    unfold Ty.left Ty.right
    exact ⟨Lead.whole hs.left (pk_whole hms k), ((Rest.const (by decide)).append hs.params.rest).append (hs.right {})⟩
  | .aptr k c v dims el, h, hi => by
    simp only [Ty.Ok] at h
    have ht := Ty.layout hn hms el h.2.2 (by simpa only [Ty.idents] using hi)
    unfold Ty.left Ty.right
    exact ⟨Lead.whole ((sp_lead (ht.1.then (cv_rest c v))).append (.const (by decide))) (pk_whole hms k),
      ((Rest.const (by decide)).append (whole_bounds dims).rest).append ht.2⟩
  | .mptr k u cls to, h, hi => by
    simp only [Ty.Ok] at h
    simp only [Ty.idents] at hi
    have hp := Path.layout hn hms cls (path_ok h.2.1) (ids_left hi)
    have ht := Ty.layout hn hms to h.2.2.2 (ids_right hi)
    unfold Ty.left Ty.right
    have hc := (whole_path hp (path_ne h.2.1)).lead_then (y := c!"::") (by decide)
    have := Lead.whole (((sp_lead (E := E) ht.1).append (unaligned_lead (E := E) (shows.ms E && u))).append hc) (pk_whole hms k)
    exact ⟨by simpa only [List.append_assoc] using this, ht.2⟩
  | .mfptr k cls q s, h, hi => by
    simp only [Ty.Ok] at h
    simp only [Ty.idents] at hi
    have hp := Path.layout hn hms cls (path_ok h.2.1) (ids_left hi)
    have hs := Sig.layout hn hms s h.2.2 (ids_right hi)
    unfold Ty.left Ty.right
    have hc := (whole_path hp (path_ne h.2.1)).lead_then (y := c!"::") (by decide)
    have := Lead.whole (hs.left.append hc) (pk_whole hms k)
    exact ⟨by simpa only [List.append_assoc] using this, ((Rest.const (by decide)).append hs.params.rest).append (hs.right q)⟩
theorem Sig.layout (hn : E.flags.name_only = false) (hms : E.flags.no_ms_keywords = false) :
    (s : Sig) → s.Ok E → (∀ x ∈ s.idents, TidyId x) → SigL E s
  | .mk cc ret ps v n, h, hi => by
    simp only [Sig.Ok] at h
    simp only [Sig.idents] at hi
    have hr := Ty.layout hn hms ret h.2.1 (ids_left hi)
    have hp := Tys.layout hn hms ps h.2.2.1 (ids_right hi)
    exact sig_layout hn h.1 hr.1 hr.2 hp
theorem Tys.layout (hn : E.flags.name_only = false) (hms : E.flags.no_ms_keywords = false) :
    (ts : Tys) → ts.Ok E → (∀ x ∈ ts.idents, TidyId x) → ∀ x ∈ ts.list E, Whole x
  | .nil, _, _ => by simp [Tys.list]
  | .cons t ts, h, hi => by
    simp only [Tys.Ok] at h
    simp only [Tys.idents] at hi
    have ht := Ty.layout hn hms t h.2.2.1 (ids_left hi)
    have hs := Tys.layout hn hms ts h.2.2.2 (ids_right hi)
    simp only [Tys.list, List.mem_cons]
    rintro x (rfl | hx)
    · exact ht.1.then ht.2
    · exact hs x hx
theorem Path.layout (hn : E.flags.name_only = false) (hms : E.flags.no_ms_keywords = false) :
    (p : Path) → p.Ok E → (∀ x ∈ p.idents, TidyId x) → ∀ x ∈ p.names E, Whole x
  | .nil, _, _ => by simp [Path.names]
  | .cons s p, h, hi => by
    simp only [Path.Ok] at h
    simp only [Path.idents] at hi
    have hs := Seg.layout hn hms s h.1 (ids_left hi)
    have hp := Path.layout hn hms p h.2 (ids_right hi)
    simp only [Path.names, List.mem_cons]
    rintro x (rfl | hx)
    · exact hs
    · exact hp x hx
theorem Seg.layout (hn : E.flags.name_only = false) (hms : E.flags.no_ms_keywords = false) :
    (s : Seg) → s.Ok E → (∀ x ∈ s.idents, TidyId x) → Whole (s.cpp E)
  | .id s, h, hi => by
    simp only [Seg.Ok] at h
    simp only [Seg.idents, List.mem_singleton, forall_eq] at hi
    unfold Seg.cpp
    exact hi.whole (name_ne h)
  | .tm s as, h, hi => by
    simp only [Seg.Ok] at h
    simp only [Seg.idents] at hi
    have ha := Args.layout hn hms as h.2.2 (fun x hx => hi x (by simp [hx]))
    unfold Seg.cpp
    have := Lead.whole ((hi s (by simp)).whole (name_ne h.1)).lead (whole_angle ha)
    simpa only [List.append_assoc] using this
  | .anon key, _, _ => by unfold Seg.cpp; exact .const (by decide)
  | .loc n d, h, hi => by
    simp only [Seg.Ok] at h
    simp only [Seg.idents] at hi
    have hd := Decl.layout hn hms d h.2.2 hi
    unfold Seg.cpp
    have h1 := Lead.body (x := c!"`") (.const (by decide)) hd
    have h2 := h1.lead_then (y := c!"'::`") (by decide) (by simp)
    exact (Lead.whole h2 (whole_nat n)).then (.const (by decide))
theorem Args.layout (hn : E.flags.name_only = false) (hms : E.flags.no_ms_keywords = false) :
    (as : Args) → as.Ok E → (∀ x ∈ as.idents, TidyId x) → ∀ x ∈ as.list E, Body x
  | .nil, _, _ => by simp [Args.list]
  | .ty t as, h, hi => by
    simp only [Args.Ok] at h
    simp only [Args.idents] at hi
    have ht := Ty.layout hn hms t h.1 (ids_left hi)
    have ha := Args.layout hn hms as h.2 (ids_right hi)
    simp only [Args.list, List.mem_cons]
    rintro x (rfl | hx)
    · exact (ht.1.then ht.2).body
    · exact ha x hx
  | .int neg n as, h, hi => by
    simp only [Args.Ok] at h
    simp only [Args.idents] at hi
    have ha := Args.layout hn hms as h.2 hi
    simp only [Args.list, List.mem_cons]
    rintro x (rfl | hx)
    · exact (Lead.whole (Lead.part neg (.const (by decide))) (whole_nat n)).body
    · exact ha x hx
  | .pack as, h, hi => by
    simp only [Args.Ok] at h
    simp only [Args.idents] at hi
    simp only [Args.list]
    exact Args.layout hn hms as h hi
  | .fn s as, h, hi => by
    simp only [Args.Ok] at h
    simp only [Args.idents] at hi
    have hs := Sig.layout hn hms s h.1 (ids_left hi)
    have ha := Args.layout hn hms as h.2 (ids_right hi)
    simp only [Args.list, List.mem_cons]
    rintro x (rfl | hx)
    · exact (hs.type {}).body
    · exact ha x hx
  | .mfn q s as, h, hi => by
    simp only [Args.Ok] at h
    simp only [Args.idents] at hi
    have hs := Sig.layout hn hms s h.1 (ids_left hi)
    have ha := Args.layout hn hms as h.2 (ids_right hi)
    simp only [Args.list, List.mem_cons]
    rintro x (rfl | hx)
    · exact (hs.type q).body
    · exact ha x hx
  | .arr c v dims el as, h, hi => by
    simp only [Args.Ok] at h
    simp only [Args.idents] at hi
    have ht := Ty.layout hn hms el h.2.2.1 (ids_left hi)
    have ha := Args.layout hn hms as h.2.2.2 (ids_right hi)
    simp only [Args.list, List.mem_cons]
    rintro x (rfl | hx)
    · exact (((ht.1.then (cv_rest c v)).then (whole_bounds dims).rest).then ht.2).body
    · exact ha x hx
  | .tmpl p as, h, hi => by
    simp only [Args.Ok] at h
    simp only [Args.idents] at hi
    have hp := Path.layout hn hms p (path_ok h.1) (ids_left hi)
    have ha := Args.layout hn hms as h.2 (ids_right hi)
    simp only [Args.list, List.mem_cons]
    rintro x (rfl | hx)
    · exact (whole_path hp (path_ne h.1)).body
    · exact ha x hx
  | .addr d as, h, hi => by
    simp only [Args.Ok] at h
    simp only [Args.idents] at hi
    have hd := Decl.layout hn hms d h.2.1 (ids_left hi)
    have ha := Args.layout hn hms as h.2.2 (ids_right hi)
    simp only [Args.list, List.mem_cons]
    rintro x (rfl | hx)
    · exact Lead.body (.const (by decide)) hd
    · exact ha x hx
  | .ref d as, h, hi => by
    simp only [Args.Ok] at h
    simp only [Args.idents] at hi
    have hd := Decl.layout hn hms d h.1 (ids_left hi)
    have ha := Args.layout hn hms as h.2 (ids_right hi)
    simp only [Args.list, List.mem_cons]
    rintro x (rfl | hx)
    · exact hd
    · exact ha x hx
  | .memFn d offs as, h, hi => by
    simp only [Args.Ok] at h
    simp only [Args.idents] at hi
    have hd := Decl.layout hn hms d h.2.1 (ids_left hi)
    have ha := Args.layout hn hms as h.2.2 (ids_right hi)
    simp only [Args.list, List.mem_cons]
    rintro x (rfl | hx)
    · have hw := whole_offs (offs := offs) (by rintro rfl; simp at h)
      have h1 := (Lead.body (x := c!"{") (.const (by decide)) hd).lead_then (y := c!", ") (by decide) (by simp)
      exact ((Lead.whole h1 hw).then (.const (by decide))).body
    · exact ha x hx
  | .memData offs as, h, hi => by
    simp only [Args.Ok] at h
    simp only [Args.idents] at hi
    have ha := Args.layout hn hms as h.2 hi
    simp only [Args.list, List.mem_cons]
    rintro x (rfl | hx)
    · have hw := whole_offs (offs := offs) (by rintro rfl; simp at h)
      exact ((Lead.whole (x := c!"{") (.const (by decide)) hw).then (.const (by decide))).body
    · exact ha x hx
theorem Targs.layout (hn : E.flags.name_only = false) (hms : E.flags.no_ms_keywords = false) :
    (ta : Targs) → ta.Ok E → (∀ x ∈ ta.idents, TidyId x) → ta.cpp E = [] ∨ Whole (ta.cpp E)
  | .none, _, _ => by unfold Targs.cpp; exact .inl rfl
  | .some as, h, hi => by
    simp only [Targs.Ok] at h
    simp only [Targs.idents] at hi
    have ha := Args.layout hn hms as h hi
    unfold Targs.cpp
    exact .inr (whole_angle ha)
theorem Head.layout (hn : E.flags.name_only = false) (hms : E.flags.no_ms_keywords = false) :
    (s : Head) → s.Ok E → (∀ x ∈ s.idents, TidyId x) → Body (s.cpp E)
  | .id s, h, hi => by
    simp only [Head.Ok] at h
    simp only [Head.idents, List.mem_singleton, forall_eq] at hi
    unfold Head.cpp
    exact (hi.whole (name_ne h)).body
  | .tm s as, h, hi => by
    simp only [Head.Ok] at h
    simp only [Head.idents] at hi
    have ha := Args.layout hn hms as h.2 (fun x hx => hi x (by simp [hx]))
    unfold Head.cpp
    have := Lead.whole ((hi s (by simp)).whole (name_ne h.1)).lead (whole_angle ha)
    simpa only [List.append_assoc] using this.body
  | .op o ta, h, hi => by
    simp only [Head.Ok] at h
    simp only [Head.idents] at hi
    have ht := Targs.layout hn hms ta h hi
    unfold Head.cpp
    rcases ht with e | ht
    · rw [e, List.append_nil]; exact op_body o
    · exact (Lead.whole (op_body o).lead ht).body
  | .lit s, h, hi => by
    simp only [Head.Ok] at h
    simp only [Head.idents, List.mem_singleton, forall_eq] at hi
    unfold Head.cpp
    exact (Lead.whole (.const (by decide)) (hi.whole h.1)).body
theorem Decl.layout (hn : E.flags.name_only = false) (hms : E.flags.no_ms_keywords = false) :
    (d : Decl) → d.Ok E → (∀ x ∈ d.idents, TidyId x) → Body (d.cpp E)
  | .var st name scope ty, h, hi => by
    simp only [Decl.Ok] at h
    simp only [Decl.idents] at hi
    have h1 := Head.layout hn hms name h.1 (ids_left (ids_left hi))
    have h2 := Path.layout hn hms scope h.2.1 (ids_right (ids_left hi))
    have h3 := Ty.layout hn hms ty h.2.2 (ids_right hi)
    have hp := body_path h1 h2
    unfold Decl.cpp
    simp only
    refine Lead.body (storage_lead st) ?_
    split
    · exact (Lead.body (sp_lead h3.1) hp).right (ty.right_head E) h3.2
    · exact hp
  | .fn k name scope s, h, hi => by
    simp only [Decl.Ok] at h
    simp only [Decl.idents] at hi
    have h1 := Head.layout hn hms name h.2.1 (ids_left (ids_left hi))
    have h2 := Path.layout hn hms scope h.2.2.1 (ids_right (ids_left hi))
    have h3 := Sig.layout hn hms s h.2.2.2 (ids_right hi)
    have hp := body_path h1 h2
    unfold Decl.cpp
    have hs : shows.params E = true := by simp [shows.params, hn]
    rw [hs]
    exact (Whole.then (Lead.whole (((((kind_lead k).append h3.ret).append h3.conv).append hp.lead).append (adj_lead k)) h3.params) (h3.right _)).body
  | .structor dtor targs k s scope cc ps variadic noexc, h, hi => by
    simp only [Decl.Ok] at h
    simp only [Decl.idents] at hi
    have h1 := Targs.layout hn hms targs h.2.1 (ids_left (ids_left (ids_left hi)))
    have h2 := Seg.layout hn hms s h.2.2.2.1 (ids_right (ids_left (ids_left hi)))
    have h3 := Path.layout hn hms scope h.2.2.2.2.1 (ids_right (ids_left hi))
    have h4 := Tys.layout hn hms ps h.2.2.2.2.2 (ids_right hi)
    have hh : Whole (part dtor c!"~" ++ s.cpp E ++ targs.cpp E) := by
      have := Lead.whole (Lead.part dtor (.const (by decide : (okAll c!"~" && headOk c!"~") = true))) h2
      rcases h1 with e | h1
      · rw [e, List.append_nil]; exact this
      · exact this.then h1.rest
    have hp := whole_path (l := (part dtor c!"~" ++ s.cpp E ++ targs.cpp E) :: s.cpp E :: scope.names E) (by
      simp only [List.mem_cons]
      rintro x (rfl | rfl | hx)
      · exact hh
      · exact h2
      · exact h3 x hx) (by simp)
    unfold Decl.cpp
    have hs : shows.params E = true := by simp [shows.params, hn]
    rw [hs]
    exact ((((Lead.whole ((((kind_lead k).append (Lead.part _ (conv_whole h.1.2.1).blank)).append hp.lead).append (adj_lead k))
      (params_whole h4 variadic)).then (Rest.part _ (this_rest _))).then (noexc_rest _)).then (Rest.part _ (ref_rest _))).body
  | .conv targs k cls s, h, hi => by
    simp only [Decl.Ok] at h
    simp only [Decl.idents] at hi
    have h1 := Targs.layout hn hms targs h.2.1 (ids_left (ids_left hi))
    have h2 := Path.layout hn hms cls h.2.2.1 (ids_right (ids_left hi))
    have h3 := Sig.layout hn hms s h.2.2.2 (ids_right hi)
    have hh : Whole (c!"operator" ++ targs.cpp E ++ c!" " ++ s.retType E) := by
      have ho : Whole c!"operator" := .const (by decide)
      refine Lead.whole (Whole.blank ?_) h3.retType
      rcases h1 with e | h1
      · rw [e, List.append_nil]; exact ho
      · exact ho.then h1.rest
    have hp := whole_path (l := (c!"operator" ++ targs.cpp E ++ c!" " ++ s.retType E) :: cls.names E) (by
      simp only [List.mem_cons]
      rintro x (rfl | hx)
      · exact hh
      · exact h2 x hx) (by simp)
    unfold Decl.cpp
    have hs : shows.params E = true := by simp [shows.params, hn]
    rw [hs]
    exact (Whole.then (Lead.whole (((((kind_lead k).append h3.ret).append h3.conv).append hp.lead).append (adj_lead k)) h3.params) (h3.right _)).body
end

end

end Undname.Spec.Cxx
