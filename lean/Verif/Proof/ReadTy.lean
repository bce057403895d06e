/-
  Reading types back from their C++ text: the base of a type and its layers.
-/
import Verif.Proof.ReadBase
import Verif.Spec.MangledSym

namespace Undname.Spec.Cxx

/-! ### Names -/

/-- The names of special symbols. -/
inductive Spc where
  | table (t : Table)
  | base (nv : Nat) (vb : Int) (vt fl : Nat)
  | array
  | hier
  | vcall (n : Nat)
  | guard (thread : Bool) (n : Nat)
  | desc
  | initVar (dtor : Bool) (d : Decl)
  | initName (dtor : Bool) (p : Path)

/-- How they start. -/
def Spc.stem : Spc → Text
  | .table t => t.name
  | .base .. => c!"`RTTI Base Class Descriptor at ("
  | .array => c!"`RTTI Base Class Array'"
  | .hier => c!"`RTTI Class Hierarchy Descriptor'"
  | .vcall _ => c!"`vcall'{"
  | .guard th _ => if th then c!"`local static thread guard'" else c!"`local static guard'"
  | .desc => c!"`RTTI Type Descriptor'"
  | .initVar dt _ => initText dt ++ c!"`"
  | .initName dt _ => initText dt ++ c!"'"

/-- How they go on. -/
def Spc.rest (E : Env) : Spc → Text
  | .base nv vb vt fl => nat nv ++ (c!", " ++ (sint vb ++ (c!", " ++ (nat vt ++ (c!", " ++ (nat fl ++ c!")'"))))))
  | .vcall n => nat n ++ c!", {flat}}"
  | .guard _ n => if n = 0 then [] else c!"{" ++ (nat n ++ c!"}")
  | .initVar _ d => d.cpp E ++ c!"''"
  | .initName _ p => showPath (p.names E) ++ c!"''"
  | _ => []

def Spc.plain (key : Text) : Spc → Bool
  | .initVar _ d => d.plain key
  | .initName _ p => !p.isNil && p.plain key
  | _ => true

/-- A part of the name of a symbol. -/
inductive Nm where
  | seg (s : Seg)
  | op (o : IFK)
  /-- an instantiation of an operator template -/
  | opT (o : IFK) (as : Args)
  | lit (s : Text)
  | dtor (s : Seg)
  /-- an instantiation of a constructor template of a class template -/
  | segT (s : Text) (as bs : Args)
  | dtorT (s : Text) (as bs : Args)
  | spc (x : Spc)

def Nm.cpp (E : Env) : Nm → Text
  | .seg s => s.cpp E
  | .op o => opName o
  | .opT o as => opName o ++ (c!"<" ++ (join c!", " (as.list E) ++ c!">"))
  | .lit s => c!"operator \"\"" ++ s
  | .dtor s => c!"~" ++ s.cpp E
  | .segT s as bs => (Seg.tm s as).cpp E ++ (c!"<" ++ (join c!", " (bs.list E) ++ c!">"))
  | .dtorT s as bs => c!"~" ++ ((Seg.tm s as).cpp E ++ (c!"<" ++ (join c!", " (bs.list E) ++ c!">")))
  | .spc x => x.stem ++ x.rest E

def Nm.plain (key : Text) : Nm → Bool
  | .seg s | .dtor s => s.plain key
  | .op o => !(opName o).isEmpty
  | .opT o as => !(opName o).isEmpty && as.plain key
  | .lit s => !s.isEmpty && s.all idc
  | .segT s as bs | .dtorT s as bs => ident s && as.plain key && bs.plain key
  | .spc x => x.plain key

/-- What may follow a name that is no operator. -/
def SegStop (a : Text) : Prop := NI a ∧ a.head? ≠ some '<'

/-- What may follow a part of a name. -/
def Nm.St : Nm → Text → Prop
  | .op _, a => a.head? ∈ [some '(', some ':'] ∨ a.take 4 ∈ [c!"`adj", c!"`vto"]
  | .spc (.guard ..), a => SegStop a ∧ a.head? ≠ some '{'
  | _, a => SegStop a

section
variable (E : Env) (key : Text)

/-- A part of a name is read back. -/
def NmRd (x : Nm) : Prop :=
  ∀ y, y.plain key = true → ∀ a b, x.St a → y.St b → x.cpp E ++ a = y.cpp E ++ b → x = y ∧ a = b

def NmsRd (l : List Nm) : Prop := ∀ x ∈ l, NmRd E key x

/-- The text of a qualified name, outermost part first. -/
def nmText (l : List Nm) : Text := join c!"::" (l.map (Nm.cpp E))

def nmsPlain (l : List Nm) : Prop := ∀ x ∈ l, x.plain key = true

end

def Path.segs : Path → List Seg
  | .nil => []
  | .cons s p => s :: p.segs

/-- The parts, outermost first. -/
def Path.nms (p : Path) : List Nm := p.segs.reverse.map .seg

theorem Path.segs_inj : ∀ {p q : Path}, p.segs = q.segs → p = q
  | .nil, .nil, _ => rfl
  | .nil, .cons .., h => by simp [Path.segs] at h
  | .cons .., .nil, h => by simp [Path.segs] at h
  | .cons s p, .cons t q, h => by
    simp [Path.segs] at h
    rw [h.1, Path.segs_inj h.2]

theorem seg_map_inj {l l' : List Seg} (h : l.map Nm.seg = l'.map Nm.seg) : l = l' :=
  List.map_inj_right (fun _ _ e => by injection e) |>.mp h

theorem Path.nms_inj {p q : Path} (h : p.nms = q.nms) : p = q :=
  Path.segs_inj (List.reverse_inj.mp (seg_map_inj h))

theorem Path.names_eq (E : Env) : ∀ p : Path, p.names E = p.segs.map (Seg.cpp E)
  | .nil => by rw [Path.names, Path.segs]; rfl
  | .cons s p => by rw [Path.names, Path.segs, Path.names_eq E p]; rfl

theorem Path.text_eq (E : Env) (p : Path) : showPath (p.names E) = nmText E p.nms := by
  rw [showPath, nmText, Path.names_eq, Path.nms, List.map_map, List.map_reverse]; rfl

theorem Path.nms_ne {p : Path} (h : p.isNil = false) : p.nms ≠ [] := by
  cases p with
  | nil => simp [Path.isNil] at h
  | cons s p => simp [Path.nms, Path.segs]

theorem Path.plain_segs {key : Text} : ∀ {p : Path}, p.plain key = true → ∀ s ∈ p.segs, s.plain key = true
  | .nil, _, s, hs => by simp [Path.segs] at hs
  | .cons s p, h, t, ht => by
    simp [Path.plain] at h
    simp [Path.segs] at ht
    rcases ht with rfl | ht
    · exact h.1
    · exact Path.plain_segs h.2 t ht

theorem Path.plain_nms {key : Text} {p : Path} (h : p.plain key = true) : nmsPlain key p.nms := by
  intro x hx
  simp only [Path.nms, List.mem_map, List.mem_reverse] at hx
  obtain ⟨s, hs, rfl⟩ := hx
  exact Path.plain_segs h s hs

/-! ### How names start -/

theorem ident_ne {s : Text} (h : ident s = true) : s ≠ [] := by rintro rfl; simp [ident] at h
theorem ident_idc {s : Text} (h : ident s = true) : ∀ c ∈ s, idc c = true := by
  simp [ident] at h; intro c hc; exact h.1.1.2 c hc
theorem ident_reserved {s : Text} (h : ident s = true) : s ∉ reserved := by
  simp [ident] at h; exact h.2
theorem ident_digit {s : Text} (h : ident s = true) : ∀ c, s.head? = some c → c.isDigit = false := by
  simp [ident] at h; intro c hc; simpa [hc] using h.1.2

/-- The text starts with an identifier, or with a character that starts no word, type or number. -/
inductive WStart : Text → Prop
  | word {w r : Text} : ident w = true → NI r → WStart (w ++ r)
  | star (r : Text) : WStart ('*' :: r)
  | amp (r : Text) : WStart ('&' :: r)
  | quote (r : Text) : WStart ('`' :: r)

/-- Every part of a name starts in one of these ways. -/
theorem Seg.start {E : Env} {key : Text} {s : Seg} (h : s.plain key = true) {a : Text} (ha : NI a) : WStart (s.cpp E ++ a) := by
  cases s with
  | id s => simp only [Seg.plain] at h; rw [Seg.cpp]; exact .word h ha
  | tm s as =>
    simp only [Seg.plain, Bool.and_eq_true] at h
    rw [Seg.cpp, List.append_assoc, List.append_assoc, List.append_assoc]
    exact .word h.1 (NI.cons (by decide))
  | anon k => rw [Seg.cpp]; exact .quote _
  | loc n d => rw [Seg.cpp, List.append_assoc, List.append_assoc, List.append_assoc]; exact .quote _

theorem Path.start {E : Env} {key : Text} {p : Path} (h : p.plain key = true) (hn : p.isNil = false) {a : Text} (ha : NI a) :
    WStart (nmText E p.nms ++ a) := by
  have hp := Path.plain_segs h
  have : p.segs.reverse ≠ [] := by
    cases p with
    | nil => simp [Path.isNil] at hn
    | cons s p => simp [Path.segs]
  rw [Path.nms, nmText]
  cases hs : p.segs.reverse with
  | nil => exact absurd hs this
  | cons s l =>
    rw [List.map_cons, join_cons, List.append_assoc]
    refine Seg.start (s := s) (hp s ?_) ?_
    · rw [← List.mem_reverse, hs]; simp
    · cases l with
      | nil => exact ha
      | cons t l => rw [List.map_cons, tails_cons]; exact NI.cons (by decide)

/-- A segment or a special name. -/
def Nm.isPlace : Nm → Bool
  | .seg _ | .spc _ => true
  | _ => false

theorem SegStop.colons (r : Text) : SegStop (c!"::" ++ r) := ⟨NI.cons (by decide), by simp⟩
theorem Nm.St.colons (x : Nm) (r : Text) : x.St (c!"::" ++ r) := by
  cases x with
  | op o => simp [Nm.St]
  | spc x => cases x <;> first | exact SegStop.colons r | exact ⟨SegStop.colons r, by simp⟩
  | _ => exact SegStop.colons r

theorem Spc.stem_head (x : Spc) : ∃ r, x.stem = '`' :: r := by
  cases x with
  | table t => cases t <;> exact ⟨_, rfl⟩
  | guard th n => cases th <;> exact ⟨_, rfl⟩
  | initVar dt d => cases dt <;> exact ⟨_, rfl⟩
  | initName dt d => cases dt <;> exact ⟨_, rfl⟩
  | _ => exact ⟨_, rfl⟩

theorem opName_start (o : IFK) (h : opName o ≠ []) : ∃ c r, opName o = c :: r ∧ (c = 'o' ∨ c = '`') := by
  cases o <;> first | exact absurd rfl h | exact ⟨_, _, rfl, .inl rfl⟩ | exact ⟨_, _, rfl, .inr rfl⟩

theorem WStart.head {a : Text} (h : WStart a) : ∃ c r, a = c :: r ∧ (idc c = true ∨ c = '*' ∨ c = '&' ∨ c = '`') := by
  cases h with
  | @word w r h1 h2 =>
    cases w with
    | nil => exact absurd rfl (ident_ne h1)
    | cons c w => exact ⟨c, w ++ r, rfl, .inl (ident_idc h1 c (by simp))⟩
  | star r => exact ⟨_, _, rfl, .inr (.inl rfl)⟩
  | amp r => exact ⟨_, _, rfl, .inr (.inr (.inl rfl))⟩
  | quote r => exact ⟨_, _, rfl, .inr (.inr (.inr rfl))⟩

theorem Seg.cpp_head {E : Env} {key : Text} {s : Seg} (h : s.plain key = true) : ∃ c r, s.cpp E = c :: r ∧ (idc c = true ∨ c = '`') := by
  cases s with
  | id s =>
    simp only [Seg.plain] at h
    rw [Seg.cpp]
    cases s with
    | nil => exact absurd rfl (ident_ne h)
    | cons c w => exact ⟨c, w, rfl, .inl (ident_idc h c (by simp))⟩
  | tm s as =>
    simp only [Seg.plain, Bool.and_eq_true] at h
    rw [Seg.cpp]
    cases s with
    | nil => exact absurd rfl (ident_ne h.1)
    | cons c w => exact ⟨c, _, rfl, .inl (ident_idc h.1 c (by simp))⟩
  | anon k => rw [Seg.cpp]; exact ⟨_, _, rfl, .inr rfl⟩
  | loc n d => rw [Seg.cpp]; exact ⟨_, _, rfl, .inr rfl⟩

theorem Nm.cpp_head {E : Env} {key : Text} {x : Nm} (h : x.plain key = true) :
    ∃ c r, x.cpp E = c :: r ∧ (idc c = true ∨ c = '`' ∨ c = '~') := by
  cases x with
  | seg s => obtain ⟨c, r, h1, h2⟩ := Seg.cpp_head (E := E) h; exact ⟨c, r, h1, h2.elim .inl fun h => .inr (.inl h)⟩
  | op o =>
    obtain ⟨c, r, h1, h2⟩ := opName_start o (by simpa [Nm.plain] using h)
    exact ⟨c, r, h1, h2.elim (fun h => .inl (by subst h; decide)) fun h => .inr (.inl h)⟩
  | opT o as =>
    simp only [Nm.plain, Bool.and_eq_true] at h
    obtain ⟨c, r, h1, h2⟩ := opName_start o (by simpa using h.1)
    refine ⟨c, _, by rw [Nm.cpp, h1]; rfl, h2.elim (fun h => .inl (by subst h; decide)) fun h => .inr (.inl h)⟩
  | lit s => exact ⟨_, _, rfl, .inl (by decide)⟩
  | dtor s => exact ⟨_, _, rfl, .inr (.inr rfl)⟩
  | segT s as bs =>
    simp only [Nm.plain, Bool.and_eq_true] at h
    obtain ⟨c, r, h1, h2⟩ := Seg.cpp_head (E := E) (key := key) (s := .tm s as) (by rw [Seg.plain, h.1.1, h.1.2]; rfl)
    exact ⟨c, _, by rw [Nm.cpp, h1]; rfl, h2.elim .inl fun h => .inr (.inl h)⟩
  | dtorT s as bs => exact ⟨_, _, rfl, .inr (.inr rfl)⟩
  | spc x => obtain ⟨r, h⟩ := x.stem_head; exact ⟨'`', r ++ x.rest E, by rw [Nm.cpp, h]; rfl, .inr (.inl rfl)⟩

/-- The name of a variable, or a special name. -/
structure PlaceOk (key : Text) (l : List Nm) : Prop where
  ne : l ≠ []
  plain : nmsPlain key l
  place : ∀ x ∈ l, x.isPlace = true

theorem Path.place {key : Text} {p : Path} (h : p.plain key = true) (hn : p.isNil = false) : PlaceOk key p.nms := by
  refine ⟨Path.nms_ne hn, Path.plain_nms h, ?_⟩
  intro x hx
  simp only [Path.nms, List.mem_map] at hx
  obtain ⟨s, -, rfl⟩ := hx
  rfl

theorem PlaceOk.start {E : Env} {key : Text} {l : List Nm} (h : PlaceOk key l) {a : Text} (ha : NI a) : WStart (nmText E l ++ a) := by
  cases l with
  | nil => exact absurd rfl h.ne
  | cons x l =>
    have h1 := h.place x (by simp)
    have h2 := h.plain x (by simp)
    rw [nmText, join_cons, List.append_assoc]
    have hn : NI (tails c!"::" (Nm.cpp E) l ++ a) := by
      cases l with
      | nil => exact ha
      | cons t l => rw [tails_cons]; exact NI.cons (by decide)
    cases x with
    | seg s => exact Seg.start h2 hn
    | spc x =>
      obtain ⟨r, hr⟩ := x.stem_head
      rw [Nm.cpp, hr]; exact .quote _
    | _ => simp [Nm.isPlace] at h1

/-- The end of a qualified name. -/
def PathEnd (E : Env) (key : Text) (a : Text) : Prop := ∀ y r, Nm.plain key y = true → y.St r → a ≠ c!"::" ++ (y.cpp E ++ r)

theorem PathEnd.of_head {E : Env} {key a : Text} (h : a.head? ≠ some ':') : PathEnd E key a := by
  rintro y r - - rfl; simp at h

theorem PathEnd.star {E : Env} {key : Text} {c : Char} {a : Text} (hc : idc c = false) (h1 : c ≠ '`') (h2 : c ≠ '~') :
    PathEnd E key (c!"::" ++ c :: a) := by
  intro y r hy _ e
  obtain ⟨d, s, hd, h⟩ := Nm.cpp_head (E := E) hy
  rw [hd] at e
  simp at e
  obtain ⟨rfl, -⟩ := e
  rcases h with h | h | h
  · simp [hc] at h
  · exact h1 h
  · exact h2 h

theorem names_read {E : Env} {key : Text} {l l' : List Nm} (rd : NmsRd E key l) (hl : nmsPlain key l) (hl' : nmsPlain key l')
    (hn : l ≠ []) (hn' : l' ≠ []) {a b : Text} (ha : ∀ x ∈ l, x.St a) (hb : ∀ x ∈ l', x.St b)
    (na : PathEnd E key a) (nb : PathEnd E key b) (e : nmText E l ++ a = nmText E l' ++ b) : l = l' ∧ a = b := by
  have e' : tails c!"::" (Nm.cpp E) l ++ a = tails c!"::" (Nm.cpp E) l' ++ b := by
    cases l with
    | nil => exact absurd rfl hn
    | cons x l =>
      cases l' with
      | nil => exact absurd rfl hn'
      | cons y l' =>
        rw [nmText, nmText, join_cons, join_cons] at e
        simp only [tails_cons, List.append_assoc] at e ⊢
        rw [e]
  exact tails_read (f := Nm.cpp E) (Ok := fun x => x.plain key = true) (St := Nm.St) rd hl hl' (fun x _ r => Nm.St.colons x r) ha hb
    (fun y r hy h => na y r hy h) (fun y r hy h => nb y r hy h) e'

/-! ### The default flags -/

section
variable {E : Env} (hE : E.flags = Flags.default)
include hE

theorem dflt_access : shows.access E = true := by rw [shows.access, hE]; decide
theorem dflt_member : shows.member E = true := by rw [shows.member, hE]; decide
theorem dflt_tag : shows.tag E = true := by rw [shows.tag, hE]; decide
theorem dflt_ms : shows.ms E = true := by rw [shows.ms, hE]; decide
theorem dflt_ptrConv : shows.ptrConv E = true := by rw [shows.ptrConv, hE]; decide
theorem dflt_conv : shows.conv E = true := by rw [shows.conv, dflt_ptrConv hE, hE]; decide
theorem dflt_ptrRet : shows.ptrRet E = true := by rw [shows.ptrRet, hE]; decide
theorem dflt_ret : shows.ret E = true := by rw [shows.ret, hE]; decide
theorem dflt_params : shows.params E = true := by rw [shows.params, hE]; decide
theorem dflt_this : shows.this E = true := by rw [shows.this, hE]; decide
theorem dflt_varType : shows.varType E = true := by rw [shows.varType, hE]; decide
theorem dflt_name : E.flags.name_only = false := by rw [hE]; decide
theorem dflt_msWord (s : Text) : msWord E s = c!"__" ++ s := by
  have : E.flags.no_leading_underscores = false := by rw [hE]; decide
  rw [msWord, this]; rfl
theorem dflt_convCpp (c : Char) : convCpp E c = (convWord c).getD [] := by
  have : E.flags.no_leading_underscores = false := by rw [hE]; decide
  rw [convCpp]; simp [this]

end

theorem part_yes (t : Text) : part true t = t := rfl
theorem part_no (t : Text) : part false t = [] := rfl

/-! ### Calling conventions -/

theorem conv_facts : ∀ c ∈ convLetters, ((convWord c).getD []).all idc = true ∧ (convWord c).getD [] ∈ reserved ∧
    ∀ d ∈ convLetters, (convWord c).getD [] = (convWord d).getD [] → c = d := by decide

/-- The word of a convention. -/
def cword (c : Char) : Text := (convWord c).getD []

theorem cword_idc {c : Char} (h : convLetters.contains c = true) : ∀ x ∈ cword c, idc x = true := by
  have := (conv_facts c (by simpa using h)).1
  intro x hx
  rw [List.all_eq_true] at this
  exact this x hx

theorem cword_reserved {c : Char} (h : convLetters.contains c = true) : cword c ∈ reserved :=
  (conv_facts c (by simpa using h)).2.1

theorem cword_inj {c d : Char} (h : convLetters.contains c = true) (h' : convLetters.contains d = true) (e : cword c = cword d) : c = d :=
  (conv_facts c (by simpa using h)).2.2 d (by simpa using h') e

theorem cword_head {c : Char} (h : convLetters.contains c = true) : ∃ r, cword c = '_' :: '_' :: r := by
  have : ∀ c ∈ convLetters, (cword c).take 2 = c!"__" := by decide
  have := this c (by simpa using h)
  match hc : cword c with
  | [] => simp [hc] at this
  | [x] => simp [hc] at this
  | x :: y :: r => simp [hc] at this; exact ⟨r, by rw [this.1, this.2]⟩

end Undname.Spec.Cxx
