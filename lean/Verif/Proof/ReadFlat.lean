/-
  Types as a base and layers, and reading both.
-/
import Verif.Proof.ReadLay

namespace Undname.Spec.Cxx

/-! ### Ends -/

/-- What may follow a complete type, declaration or number. -/
def Stop (a : Text) : Prop := a.head? ∈ [none, some ')', some ',', some '>', some '\'', some '}']

theorem Stop.ni {a : Text} (h : Stop a) : NI a := by
  intro c hc
  rw [Stop, hc] at h
  simp at h
  rcases h with rfl | rfl | rfl | rfl | rfl <;> decide

theorem Stop.not {a : Text} (h : Stop a) {c : Char} (hc : c ∉ [')', ',', '>', '\'', '}']) : a.head? ≠ some c := by
  intro e
  rw [Stop, e] at h
  simp at h hc
  rcases h with rfl | rfl | rfl | rfl | rfl <;> simp at hc

theorem Stop.cons {c : Char} {a : Text} (hc : c ∈ [')', ',', '>', '\'', '}']) : Stop (c :: a) := by
  simp at hc
  rw [Stop]
  rcases hc with rfl | rfl | rfl | rfl | rfl <;> simp

theorem Stop.seg {a : Text} (h : Stop a) : SegStop a := ⟨h.ni, h.not (by decide)⟩

theorem Stop.follow {E : Env} {P a : Text} (h : Stop a) : Follow E P a := by
  cases a with
  | nil => exact .nil
  | cons c a =>
    rw [Stop] at h
    simp at h
    rcases h with rfl | rfl | rfl | rfl | rfl <;> exact .char (by decide) (by decide) (by decide) (by decide)

theorem Stop.pathEnd {E : Env} {key a : Text} (h : Stop a) : PathEnd E key a := .of_head (h.not (by decide))

/-! ### Sequences of words -/

theorem span_read {p : Char → Bool} {w w' a b : Text} (h : ∀ c ∈ w, p c = true) (h' : ∀ c ∈ w', p c = true)
    (ha : ∀ c, a.head? = some c → p c = false) (hb : ∀ c, b.head? = some c → p c = false)
    (e : w ++ a = w' ++ b) : w = w' ∧ a = b := by
  induction w generalizing w' with
  | nil =>
    cases w' with
    | nil => exact ⟨rfl, e⟩
    | cons d w' =>
      rw [List.nil_append, List.cons_append] at e
      have := ha d (by rw [e]; rfl)
      rw [h' d (by simp)] at this
      simp at this
  | cons c w ih =>
    cases w' with
    | nil =>
      rw [List.nil_append, List.cons_append] at e
      have := hb c (by rw [← e]; rfl)
      rw [h c (by simp)] at this
      simp at this
    | cons d w' =>
      rw [List.cons_append, List.cons_append, List.cons.injEq] at e
      obtain ⟨rfl, e⟩ := e
      obtain ⟨rfl, rfl⟩ := ih (fun c hc => h c (by simp [hc])) (fun c hc => h' c (by simp [hc])) e
      exact ⟨rfl, rfl⟩

/-- Words, each after a blank. -/
theorem blanks_read {p : Char → Bool} {l l' : List Text} {a b : Text} (hp : p ' ' = false)
    (hl : ∀ w ∈ l, ∀ c ∈ w, p c = true) (hl' : ∀ w ∈ l', ∀ c ∈ w, p c = true)
    (ha : l ≠ [] → ∀ c, a.head? = some c → p c = false) (hb : l' ≠ [] → ∀ c, b.head? = some c → p c = false)
    (na : ∀ w ∈ l', ∀ r, (∀ c, r.head? = some c → p c = false) → a ≠ ' ' :: (w ++ r))
    (nb : ∀ w ∈ l, ∀ r, (∀ c, r.head? = some c → p c = false) → b ≠ ' ' :: (w ++ r))
    (e : tails c!" " id l ++ a = tails c!" " id l' ++ b) : l = l' ∧ a = b := by
  have st : ∀ {m : List Text} {c : Text}, (∀ d, c.head? = some d → p d = false) →
      ∀ d, (tails c!" " id m ++ c).head? = some d → p d = false := by
    intro m c hc
    cases m with
    | nil => exact hc
    | cons w m => rw [tails_cons]; intro d hd; simp at hd; rw [← hd]; exact hp
  induction l generalizing l' with
  | nil =>
    cases l' with
    | nil => exact ⟨rfl, e⟩
    | cons y l' =>
      rw [tails_nil, List.nil_append, tails_cons] at e
      exact absurd (by rw [e]; simp) (na y (by simp) (tails c!" " id l' ++ b) (st (hb (by simp))))
  | cons x l ih =>
    cases l' with
    | nil =>
      rw [tails_nil, List.nil_append, tails_cons] at e
      exact absurd (by rw [← e]; simp) (nb x (by simp) (tails c!" " id l ++ a) (st (ha (by simp))))
    | cons y l' =>
      rw [tails_cons, tails_cons] at e
      simp only [List.append_assoc, List.append_cancel_left_eq] at e
      obtain ⟨h, e⟩ := span_read (hl x (by simp)) (hl' y (by simp)) (st (ha (by simp))) (st (hb (by simp))) e
      have h : x = y := h
      obtain ⟨h2, h3⟩ := ih (l' := l') (fun z hz => hl z (by simp [hz])) (fun z hz => hl' z (by simp [hz]))
        (fun _ => ha (by simp)) (fun _ => hb (by simp)) (fun z hz => na z (by simp [hz])) (fun z hz => nb z (by simp [hz])) e
      exact ⟨by rw [h, h2], h3⟩

/-! ### `const` and `volatile` -/

def cvList (c v : Bool) : List Text := (if c then [c!"const"] else []) ++ (if v then [c!"volatile"] else [])

theorem cvAfter_words : ∀ c v : Bool, Ty.cvAfter c v = tails c!" " id (cvList c v) := by decide
theorem cvList_after : ∀ c v : Bool, ∀ w ∈ cvList c v, w ∈ after := by decide
theorem cvList_inj : ∀ c v c' v' : Bool, cvList c v = cvList c' v' → c = c' ∧ v = v' := by decide

theorem cvAfter_wordEnd {E : Env} (P : Text) {c v : Bool} (h : cvList c v ≠ []) : wordEnd E (P ++ Spec.Ty.cvAfter c v) = true := by
  rw [wordEnd_append]
  · rw [wordEnd]
    cases c <;> cases v <;> first | exact absurd rfl h | rfl
  · cases c <;> cases v <;> first | exact absurd rfl h | simp [Spec.Ty.cvAfter]

theorem cv_read {E : Env} {P Q Y Z : Text} {c v c' v' : Bool} (hY : Follow E (P ++ Spec.Ty.cvAfter c v) Y) (hZ : Follow E (Q ++ Spec.Ty.cvAfter c' v') Z)
    (e : Spec.Ty.cvAfter c v ++ Y = Spec.Ty.cvAfter c' v' ++ Z) : c = c' ∧ v = v' ∧ Y = Z := by
  rw [cvAfter_words, cvAfter_words] at e
  obtain ⟨h1, h2⟩ := blanks_read (p := idc) (by decide) (fun w hw => after_idc w (cvList_after c v w hw)) (fun w hw => after_idc w (cvList_after c' v' w hw))
    (fun h => hY.ni (cvAfter_wordEnd P h)) (fun h => hZ.ni (cvAfter_wordEnd Q h))
    (fun w hw r hr => (hY.kw w (cvList_after c' v' w hw) r hr).2) (fun w hw r hr => (hZ.kw w (cvList_after c v w hw) r hr).2) e
  obtain ⟨h3, h4⟩ := cvList_inj _ _ _ _ h1
  exact ⟨h3, h4, h2⟩

/-! ### Qualifiers of functions -/

def qualList (q : This) (ne : Bool) : List Text :=
  (if q.c then [c!"const"] else []) ++ (if q.v then [c!"volatile"] else []) ++ (if q.restrict then [c!"__restrict"] else []) ++
    (if q.unaligned then [c!"__unaligned"] else []) ++ (if ne then [c!"noexcept"] else []) ++
    (match q.ref with | none => [] | some .Reference => [c!"&"] | some .RValueReference => [c!"&&"])

theorem quals_eq {E : Env} (hE : E.flags = Flags.default) (q : This) (ne : Bool) : quals E q ne = tails c!" " id (qualList q ne) := by
  obtain ⟨c, v, r, u, f⟩ := q
  rw [quals, This.cpp, dflt_ms hE, dflt_msWord hE, dflt_msWord hE]
  cases c <;> cases v <;> cases r <;> cases u <;> cases ne <;> (rcases f with _ | (_ | _)) <;> rfl

theorem qualList_mem (q : This) (ne : Bool) : ∀ w ∈ qualList q ne, w ∈ [c!"const", c!"volatile", c!"__restrict", c!"__unaligned", c!"noexcept", c!"&", c!"&&"] := by
  obtain ⟨c, v, r, u, f⟩ := q
  cases c <;> cases v <;> cases r <;> cases u <;> cases ne <;> (rcases f with _ | (_ | _)) <;> decide

theorem qualList_inj {q q' : This} {ne ne' : Bool} (h : qualList q ne = qualList q' ne') : q = q' ∧ ne = ne' := by
  have mem : ∀ (q : This) (ne : Bool), (q.c = (qualList q ne).contains c!"const") ∧ (q.v = (qualList q ne).contains c!"volatile") ∧
      (q.restrict = (qualList q ne).contains c!"__restrict") ∧ (q.unaligned = (qualList q ne).contains c!"__unaligned") ∧
      (ne = (qualList q ne).contains c!"noexcept") ∧
      (q.ref = if (qualList q ne).contains c!"&" then some .Reference else if (qualList q ne).contains c!"&&" then some .RValueReference else none) := by
    intro q ne
    obtain ⟨c, v, r, u, f⟩ := q
    cases c <;> cases v <;> cases r <;> cases u <;> cases ne <;> (rcases f with _ | (_ | _)) <;> decide
  obtain ⟨h1, h2, h3, h4, h5, h6⟩ := mem q ne
  obtain ⟨g1, g2, g3, g4, g5, g6⟩ := mem q' ne'
  rw [h] at h1 h2 h3 h4 h5 h6
  refine ⟨?_, h5.trans g5.symm⟩
  cases q; cases q'
  simp only at h1 h2 h3 h4 h6 g1 g2 g3 g4 g6
  rw [h1, h2, h3, h4, h6, ← g1, ← g2, ← g3, ← g4, ← g6]

theorem quals_read {E : Env} (hE : E.flags = Flags.default) {q q' : This} {ne ne' : Bool} {a b : Text} (ha : Stop a) (hb : Stop b)
    (e : quals E q ne ++ a = quals E q' ne' ++ b) : q = q' ∧ ne = ne' ∧ a = b := by
  rw [quals_eq hE, quals_eq hE] at e
  have chars : ∀ w ∈ [c!"const", c!"volatile", c!"__restrict", c!"__unaligned", c!"noexcept", c!"&", c!"&&"], ∀ c ∈ w, (idc c || c == '&') = true := by decide
  have st : ∀ {a : Text}, Stop a → ∀ c, a.head? = some c → (idc c || c == '&') = false := by
    intro a ha c hc
    have h1 := ha.ni c hc
    have h2 := ha.not (c := '&') (by decide)
    rw [hc] at h2
    simp at h2
    simp [h1, h2]
  have nb : ∀ {a : Text}, Stop a → ∀ r, a ≠ ' ' :: r := by
    rintro a ha r rfl
    exact ha.not (c := ' ') (by decide) rfl
  obtain ⟨h1, h2⟩ := blanks_read (p := fun c => idc c || c == '&') (by decide) (fun w hw => chars w (qualList_mem q ne w hw)) (fun w hw => chars w (qualList_mem q' ne' w hw))
    (fun _ => st ha) (fun _ => st hb) (fun w _ r _ => nb ha _) (fun w _ r _ => nb hb _) e
  obtain ⟨h3, h4⟩ := qualList_inj h1
  exact ⟨h3, h4, h2⟩

/-! ### Bounds of arrays -/

theorem bounds_eq (d : Nat) (ds : List Nat) : bounds (d :: ds) = c!"[" ++ (bounds.one d ++ tails c!"][" bounds.one ds) ++ c!"]" := by
  simp [bounds, tails]

theorem one_idc (d : Nat) : ∀ c ∈ bounds.one d, idc c = true := by
  rw [bounds.one]; split
  · simp
  · exact nat_idc d

theorem one_inj {d e : Nat} (h : bounds.one d = bounds.one e) : d = e := by
  rw [bounds.one, bounds.one] at h
  by_cases h1 : d = 0 <;> by_cases h2 : e = 0
  · omega
  · rw [if_pos h1, if_neg h2] at h; exact absurd h.symm (nat_ne e)
  · rw [if_neg h1, if_pos h2] at h; exact absurd h (nat_ne d)
  · rw [if_neg h1, if_neg h2] at h; exact nat_inj h

theorem one_read {d e : Nat} {a b : Text} (ha : NI a) (hb : NI b) (h : bounds.one d ++ a = bounds.one e ++ b) : d = e ∧ a = b := by
  obtain ⟨h1, h2⟩ := word_read (one_idc d) (one_idc e) ha hb h
  exact ⟨one_inj h1, h2⟩

theorem bounds_read {l l' : List Nat} (hl : l ≠ []) (hl' : l' ≠ []) {a b : Text} (ha : a.head? ≠ some '[') (hb : b.head? ≠ some '[')
    (e : bounds l ++ a = bounds l' ++ b) : l = l' ∧ a = b := by
  cases l with
  | nil => exact absurd rfl hl
  | cons d ds =>
    cases l' with
    | nil => exact absurd rfl hl'
    | cons d' ds' =>
      rw [bounds_eq, bounds_eq] at e
      simp only [List.append_assoc, List.append_cancel_left_eq] at e
      have ni : ∀ {m : List Nat} {Z : Text}, NI Z → NI (tails c!"][" bounds.one m ++ Z) := by
        intro m Z hZ
        cases m with
        | nil => exact hZ
        | cons x m => rw [tails_cons]; exact NI.cons (by decide)
      obtain ⟨hd, e⟩ := one_read (ni (NI.cons (by decide))) (ni (NI.cons (by decide))) e
      have na : ∀ {a : Text}, a.head? ≠ some '[' → ∀ (y : Nat) (r : Text), True → NI r → c!"]" ++ a ≠ c!"][" ++ (bounds.one y ++ r) := by
        intro a ha y r _ _ e
        simp at e
        rw [e] at ha
        simp at ha
      have := tails_read (f := bounds.one) (sep := c!"][") (Ok := fun _ => True) (St := fun _ a => NI a) (l := ds) (l' := ds')
        (fun x _ y _ a b ha hb e => one_read ha hb e) (fun _ _ => trivial) (fun _ _ => trivial) (fun _ _ r => NI.cons (by decide))
        (fun _ _ => NI.cons (by decide)) (fun _ _ => NI.cons (by decide)) (na ha) (na hb) e
      obtain ⟨h, e⟩ := this
      rw [hd, h]
      exact ⟨rfl, by simpa using e⟩

/-! ### The base of a type -/

inductive BK where
  | prim (k : PrimitiveKind)
  | tag (k : TagKind) (p : Path)

def BK.text (E : Env) : BK → Text
  | .prim k => primName k
  | .tag k p => tagName k ++ c!" " ++ nmText E p.nms

def BK.Ok (key : Text) : BK → Prop
  | .prim _ => True
  | .tag _ p => p.className = true ∧ p.plain key = true

def BK.Rd (E : Env) (key : Text) : BK → Prop
  | .prim _ => True
  | .tag _ p => NmsRd E key p.nms

def allPrims : List PrimitiveKind := [.Void, .Bool, .Char, .Schar, .Uchar, .Char8, .Char16, .Char32, .Short, .Ushort, .Int, .Uint, .Long, .Ulong,
  .Int64, .Uint64, .Wchar, .Float, .Double, .Ldouble, .Nullptr, .Auto, .DecltypeAuto]
theorem mem_prims (k : PrimitiveKind) : k ∈ allPrims := by cases k <;> decide
def allTags : List TagKind := [.Class, .Struct, .Union, .Enum]
theorem mem_tags (k : TagKind) : k ∈ allTags := by cases k <;> decide

theorem prim_table : ∀ k ∈ allPrims, ∀ k' ∈ allPrims, primName k <+: primName k' →
    k = k' ∨ (k ≠ .DecltypeAuto ∧ k' ≠ .DecltypeAuto ∧ (primName k').drop (primName k).length ∈ [c!" double", c!"8_t", c!"16_t", c!"32_t"]) := by decide +kernel
theorem prim_wordEnd : ∀ k ∈ allPrims, k ≠ .DecltypeAuto → ((primName k).getLast?.any fun c => decide (c.toNat < 128) && c.isAlphanum) = true := by decide +kernel
theorem prim_tag_table : ∀ k ∈ allPrims, ∀ t ∈ allTags, ¬primName k <+: (tagName t ++ c!" ") ∧ ¬(tagName t ++ c!" ") <+: primName k := by decide +kernel
theorem tag_table : ∀ k ∈ allTags, ∀ k' ∈ allTags, (tagName k ++ c!" ") <+: (tagName k' ++ c!" ") → k = k' := by decide +kernel

theorem wordEnd_of_any {E : Env} {P : Text} (h : (P.getLast?.any fun c => decide (c.toNat < 128) && c.isAlphanum) = true) : wordEnd E P = true := by
  rw [wordEnd]
  rw [Option.any_eq_true] at h ⊢
  obtain ⟨x, hx, h⟩ := h
  simp only [Bool.and_eq_true, decide_eq_true_eq] at h
  exact ⟨x, hx, by simp [isWordEnd, h.1, h.2]⟩

theorem join_last {sep : Text} {l : List Text} {x : Text} : ∃ r, join sep (l ++ [x]) = r ++ x := by
  induction l with
  | nil => exact ⟨[], by simp [join]⟩
  | cons y l ih =>
    obtain ⟨r, hr⟩ := ih
    cases l with
    | nil => exact ⟨y ++ sep, by simp [join]⟩
    | cons z l =>
      refine ⟨y ++ sep ++ r, ?_⟩
      rw [List.cons_append, List.cons_append, join]
      · rw [List.cons_append] at hr; rw [hr]; simp only [List.append_assoc]
      · simp

theorem className_wordEnd {E : Env} {p : Path} (h : p.className = true) (Q : Text) : wordEnd E (Q ++ nmText E p.nms) = true := by
  cases p with
  | nil => simp [Path.className] at h
  | cons s p =>
    rw [Path.nms, nmText, Path.segs]
    simp only [List.reverse_cons, List.map_append, List.map_cons, List.map_nil]
    obtain ⟨r, hr⟩ := join_last (sep := c!"::") (l := (p.segs.reverse.map Nm.seg).map (Nm.cpp E)) (x := Nm.cpp E (.seg s))
    rw [hr, ← List.append_assoc]
    cases s with
    | id s =>
      simp only [Path.className, endsWell] at h
      rw [wordEnd_append]
      · rw [Nm.cpp, Seg.cpp]; exact wordEnd_of_any h
      · rw [Nm.cpp, Seg.cpp]; rintro rfl; simp at h
    | tm s as =>
      rw [wordEnd_append]
      · rw [Nm.cpp, Seg.cpp, wordEnd, List.getLast?_concat]; simp [isWordEnd]
      · rw [Nm.cpp, Seg.cpp]; simp
    | anon | loc => simp [Path.className] at h

theorem className_ne {p : Path} (h : p.className = true) : p.isNil = false := by
  cases p with
  | nil => simp [Path.className] at h
  | cons => rfl

theorem BK.wordEnd {E : Env} {key : Text} {b : BK} (h : b.Ok key) : wordEnd E (b.text E) = true ∨ b = .prim .DecltypeAuto := by
  cases b with
  | prim k =>
    by_cases hk : k = .DecltypeAuto
    · exact .inr (by rw [hk])
    · exact .inl (wordEnd_of_any (prim_wordEnd k (mem_prims k) hk))
  | tag k p => exact .inl (className_wordEnd h.1 _)

/-- What follows the name of a base. -/
structure BaseEnd (E : Env) (P Z : Text) : Prop where
  kw : ∀ r, NI r → Z ≠ ' ' :: (c!"double" ++ r)
  ni : wordEnd E P = true → NI Z
  lt : wordEnd E P = true → Z.head? ≠ some '<'
  colon : wordEnd E P = true → Z.head? ≠ some ':'

theorem BaseEnd.of {E : Env} {P Y : Text} {c v : Bool} (h : Follow E (P ++ Spec.Ty.cvAfter c v) Y) : BaseEnd E P (Spec.Ty.cvAfter c v ++ Y) := by
  by_cases hcv : cvList c v = []
  · have : c = false ∧ v = false := by revert hcv; cases c <;> cases v <;> decide
    obtain ⟨rfl, rfl⟩ := this
    have e : Spec.Ty.cvAfter false false = [] := rfl
    rw [e, List.append_nil] at h
    rw [e, List.nil_append]
    exact ⟨fun r hr => (h.kw _ (by decide) r hr).2, h.ni, h.lt, h.colon⟩
  · have : ∃ r d, Spec.Ty.cvAfter c v = ' ' :: d :: r ∧ d ≠ 'd' := by
      revert hcv; cases c <;> cases v <;> first | exact fun h => absurd rfl h | exact fun _ => ⟨_, _, rfl, by decide⟩
    obtain ⟨r, d, hr, hd⟩ := this
    rw [hr]
    refine ⟨fun s hs e => ?_, fun _ => NI.cons (by decide), fun _ => by simp, fun _ => by simp⟩
    simp at e
    exact hd e.1

theorem base_read {E : Env} {key : Text} {b b' : BK} (hb : b.Ok key) (hb' : b'.Ok key) (rd : b.Rd E key) {Y Z : Text}
    (hY : BaseEnd E (b.text E) Y) (hZ : BaseEnd E (b'.text E) Z) (e : b.text E ++ Y = b'.text E ++ Z) : b = b' ∧ Y = Z := by
  have pp : ∀ {k k' : PrimitiveKind} {Y Z r : Text}, BaseEnd E (primName k) Y → BaseEnd E (primName k') Z → primName k' = primName k ++ r → Y = r ++ Z → k = k' := by
    intro k k' Y Z r hY hZ h1 h2
    rcases prim_table k (mem_prims k) k' (mem_prims k') ⟨r, h1.symm⟩ with h | ⟨n1, n2, h⟩
    · exact h
    · rw [h1, List.drop_left] at h
      have wk := wordEnd_of_any (E := E) (prim_wordEnd k (mem_prims k) n1)
      have wk' := wordEnd_of_any (E := E) (prim_wordEnd k' (mem_prims k') n2)
      simp at h
      rcases h with rfl | rfl | rfl | rfl
      · exact absurd h2 (hY.kw Z (hZ.ni wk'))
      all_goals
        have := hY.ni wk
        rw [h2] at this
        exact absurd (this _ rfl) (by decide)
  cases b with
  | prim k =>
    cases b' with
    | prim k' =>
      simp only [BK.text] at e hY hZ
      rcases append_cases e with ⟨r, h1, h2⟩ | ⟨r, h1, h2⟩
      · obtain rfl := pp hY hZ h1 h2
        exact ⟨rfl, List.append_cancel_left e⟩
      · obtain rfl := pp hZ hY h1 h2
        exact ⟨rfl, List.append_cancel_left e⟩
    | tag k' p' =>
      simp only [BK.text] at e
      rw [List.append_assoc (tagName k' ++ c!" ")] at e
      rcases append_cases e with ⟨r, h1, h2⟩ | ⟨r, h1, h2⟩
      · exact absurd ⟨r, h1.symm⟩ (prim_tag_table k (mem_prims k) k' (mem_tags k')).1
      · exact absurd ⟨r, h1.symm⟩ (prim_tag_table k (mem_prims k) k' (mem_tags k')).2
  | tag k p =>
    cases b' with
    | prim k' =>
      simp only [BK.text] at e
      rw [List.append_assoc (tagName k ++ c!" ")] at e
      rcases append_cases e with ⟨r, h1, h2⟩ | ⟨r, h1, h2⟩
      · exact absurd ⟨r, h1.symm⟩ (prim_tag_table k' (mem_prims k') k (mem_tags k)).2
      · exact absurd ⟨r, h1.symm⟩ (prim_tag_table k' (mem_prims k') k (mem_tags k)).1
    | tag k' p' =>
      simp only [BK.text] at e hY hZ
      have wY : wordEnd E (tagName k ++ c!" " ++ nmText E p.nms) = true := className_wordEnd hb.1 _
      have wZ : wordEnd E (tagName k' ++ c!" " ++ nmText E p'.nms) = true := className_wordEnd hb'.1 _
      rw [List.append_assoc (tagName k ++ c!" "), List.append_assoc (tagName k' ++ c!" ")] at e
      have hk : k = k' := by
        rcases append_cases e with ⟨r, h1, h2⟩ | ⟨r, h1, h2⟩
        · exact tag_table k (mem_tags k) k' (mem_tags k') ⟨r, h1.symm⟩
        · exact (tag_table k' (mem_tags k') k (mem_tags k) ⟨r, h1.symm⟩).symm
      subst hk
      have e := List.append_cancel_left e
      have st : ∀ {p : Path} {a : Text}, SegStop a → ∀ x ∈ p.nms, x.St a := by
        intro p a ha x hx
        simp only [Path.nms, List.mem_map] at hx
        obtain ⟨s, -, rfl⟩ := hx
        exact ha
      obtain ⟨h1, h2⟩ := names_read (E := E) (key := key) rd (Path.plain_nms hb.2) (Path.plain_nms hb'.2) (Path.nms_ne (className_ne hb.1)) (Path.nms_ne (className_ne hb'.1))
        (st ⟨hY.ni wY, hY.lt wY⟩) (st ⟨hZ.ni wZ, hZ.lt wZ⟩) (.of_head (hY.colon wY)) (.of_head (hZ.colon wZ)) e
      rw [Path.nms_inj h1]
      exact ⟨rfl, h2⟩

end Undname.Spec.Cxx
