/-
  Reading declarations: what precedes the type, and the phrase.
-/
import Verif.Proof.ReadParams

namespace Undname.Spec.Cxx

/-! ### What precedes the type -/

inductive Pre where
  | none
  | externC
  | acc (a : Access)
  | static (a : Access)
  | virt (a : Access)
  | thunk (a : Access) (v : Bool)

def Pre.text : Pre → Text
  | .none => []
  | .externC => c!"extern \"C\" "
  | .acc a => accessName a
  | .static a => accessName a ++ c!"static "
  | .virt a => accessName a ++ c!"virtual "
  | .thunk a v => c!"[thunk]: " ++ accessName a ++ part v c!"virtual "

def allPres : List Pre :=
  [.none, .externC, .acc .priv, .acc .prot, .acc .publ, .static .priv, .static .prot, .static .publ, .virt .priv, .virt .prot, .virt .publ,
   .thunk .priv false, .thunk .prot false, .thunk .publ false, .thunk .priv true, .thunk .prot true, .thunk .publ true]
theorem mem_pres (p : Pre) : p ∈ allPres := by
  cases p with
  | none | externC => simp [allPres]
  | acc a | static a | virt a => cases a <;> simp [allPres]
  | thunk a v => cases a <;> cases v <;> simp [allPres]

def phraseWords : List Text := tyWords ++ convLetters.map cword

theorem pre_table : ∀ p ∈ allPres, ∀ q ∈ allPres, p.text <+: q.text → p.text = q.text ∨
    ((q.text.drop p.text.length).any (fun c => !idc c) = true ∧ firstWord (q.text.drop p.text.length) ∉ phraseWords) := by decide +kernel
theorem pre_inj : ∀ p ∈ allPres, ∀ q ∈ allPres, p.text = q.text → p = q := by
  intro p hp q hq h
  have key : ∀ p ∈ allPres, allPres.findIdx (fun q => q.text == p.text) < 17 ∧ allPres[allPres.findIdx (fun q => q.text == p.text)]? = some p := by
    intro p hp
    simp only [allPres, List.mem_cons, List.not_mem_nil, or_false] at hp
    rcases hp with rfl | rfl | rfl | rfl | rfl | rfl | rfl | rfl | rfl | rfl | rfl | rfl | rfl | rfl | rfl | rfl | rfl <;> exact ⟨by decide +kernel, rfl⟩
  have h1 := (key p hp).2
  have h2 := (key q hq).2
  rw [h, h2] at h1
  exact (by injection h1 with h; exact h.symm)

theorem pre_read {p q : Pre} {X Y : Text} (hX : firstWord X ∈ phraseWords) (hY : firstWord Y ∈ phraseWords)
    (e : p.text ++ X = q.text ++ Y) : p = q ∧ X = Y := by
  have key : ∀ {p q : Pre} {X Y r : Text}, firstWord X ∈ phraseWords → q.text = p.text ++ r → X = r ++ Y → p = q := by
    intro p q X Y r hX h1 h2
    rcases pre_table p (mem_pres p) q (mem_pres q) ⟨r, h1.symm⟩ with h | ⟨h3, h4⟩
    · exact pre_inj p (mem_pres p) q (mem_pres q) h
    · rw [h1, List.drop_left] at h3 h4
      rw [h2, firstWord_append h3] at hX
      exact absurd hX h4
  rcases append_cases e with ⟨r, h1, h2⟩ | ⟨r, h1, h2⟩
  · obtain rfl := key hX h1 h2
    exact ⟨rfl, List.append_cancel_left e⟩
  · obtain rfl := key hY h1 h2
    exact ⟨rfl, List.append_cancel_left e⟩

/-! ### Phrases -/

theorem void_start : Start c!"void" := ⟨c!"void", by decide +kernel, [], rfl⟩

inductive Phrase where
  | ty (t : Ty) (u : Tl)
  | ctor (f : FnP)

def Phrase.text (E : Env) : Phrase → Text
  | .ty t u => typed E t u
  | .ctor f => f.text E c!"void"

def Phrase.Ok (key : Text) : Phrase → Prop
  | .ty t u => t.plain key = true ∧ u.Ok key
  | .ctor f => f.Ok key

def Phrase.Rd (E : Env) (key : Text) : Phrase → Prop
  | .ty t u => TyParts E key t ∧ u.Rd E key
  | .ctor f => f.Rd E key

theorem conv_words {c : Char} (h : convLetters.contains c = true) : cword c ∈ convLetters.map cword :=
  List.mem_map_of_mem (by simpa using h)

theorem FnP.first {E : Env} {key : Text} {f : FnP} (h : f.Ok key) (a : Text) : firstWord (f.text E c!"void" ++ a) = cword f.cc := by
  rw [FnP.text, List.append_assoc]
  exact firstWord_eq (cword_idc h.conv) (NI.cons (by decide))

theorem Phrase.first {E : Env} (hE : E.flags = Flags.default) {key : Text} {p : Phrase} (h : p.Ok key) {a : Text} (ha : Stop a) :
    firstWord (p.text E ++ a) ∈ phraseWords := by
  cases p with
  | ty t u => exact List.mem_append.mpr (.inl (typed_first hE h.1 h.2 ha))
  | ctor f =>
    rw [Phrase.text, FnP.first h]
    exact List.mem_append.mpr (.inr (conv_words h.conv))

theorem Phrase.read {E : Env} (hE : E.flags = Flags.default) {key : Text} {p q : Phrase} (hp : p.Ok key) (hq : q.Ok key) (rd : p.Rd E key)
    {a b : Text} (ha : Stop a) (hb : Stop b) (e : p.text E ++ a = q.text E ++ b) : p = q ∧ a = b := by
  have no : ∀ {t : Ty} {u : Tl} {f : FnP} {a b : Text}, (Phrase.ty t u).Ok key → f.Ok key → Stop a → typed E t u ++ a ≠ f.text E c!"void" ++ b := by
    intro t u f a b h hf ha e
    have h1 := typed_first hE h.1 h.2 ha
    rw [e, FnP.first hf] at h1
    have : ∀ c ∈ convLetters, cword c ∉ tyWords := by decide +kernel
    exact this f.cc (by simpa using hf.conv) h1
  cases p with
  | ty t u =>
    cases q with
    | ty t' u' =>
      obtain ⟨h1, h2, h3⟩ := typed_read hE hp.1 hq.1 hp.2 hq.2 rd.1 rd.2 ha hb e
      rw [h1, h2]; exact ⟨rfl, h3⟩
    | ctor g => exact absurd e (no hp hq ha)
  | ctor f =>
    cases q with
    | ty t' u' => exact absurd e.symm (no hq hp hb)
    | ctor g =>
      obtain ⟨h1, h3⟩ := FnP.read hE hp hq rd void_start ha hb e
      rw [h1]; exact ⟨rfl, h3⟩

/-- What precedes it, and the phrase. -/
theorem full_read {E : Env} (hE : E.flags = Flags.default) {key : Text} {x y : Pre} {p q : Phrase} (hp : p.Ok key) (hq : q.Ok key) (rd : p.Rd E key)
    {a b : Text} (ha : Stop a) (hb : Stop b) (e : x.text ++ p.text E ++ a = y.text ++ q.text E ++ b) : x = y ∧ p = q ∧ a = b := by
  rw [List.append_assoc, List.append_assoc] at e
  obtain ⟨h1, e⟩ := pre_read (Phrase.first hE hp ha) (Phrase.first hE hq hb) e
  exact ⟨h1, Phrase.read hE hp hq rd ha hb e⟩

/-! ### Declarations -/

def Storage.pre : Storage → Pre
  | .member a => .static a
  | _ => .none

def Kind.pre : Kind → Pre
  | .free b => if b then .externC else .none
  | .static a => .static a
  | .member a v _ => if v then .virt a else .acc a
  | .thunk a adj _ => .thunk a (adj.virtual a)

def Kind.adj : Kind → Option Adj
  | .thunk _ adj _ => some adj
  | _ => none

def Head.nm : Head → Nm
  | .id s => .seg (.id s)
  | .tm s as => .seg (.tm s as)
  | .op o .none => .op o
  | .op o (.some as) => .opT o as
  | .lit s => .lit s

/-- The last part of the name of a constructor or destructor. -/
def structNm : Bool → Seg → Targs → Nm
  | false, s, .none => .seg s
  | true, s, .none => .dtor s
  | false, .id w, .some bs => .seg (.tm w bs)
  | true, .id w, .some bs => .dtor (.tm w bs)
  | false, .tm w as, .some bs => .segT w as bs
  | true, .tm w as, .some bs => .dtorT w as bs
  | _, s, _ => .seg s

/-- The name of a variable as part of a path. -/
def Head.seg : Head → Seg
  | .id s => .id s
  | .tm s as => .tm s as
  | _ => .id []

def Decl.pre : Decl → Pre
  | .var st .. => st.pre
  | .fn k .. => k.pre
  | .structor _ _ k .. => k.pre
  | .conv _ k .. => k.pre

def Decl.phrase : Decl → Phrase
  | .var _ name scope ty => .ty ty (.var (Path.cons name.seg scope).nms)
  | .fn k name scope (.mk cc ret ps va ne) => .ty ret (.fnD ⟨cc, scope.nms ++ [name.nm], k.adj, ps, va, ne, k.this, none⟩)
  | .structor d ta k s scope cc ps va ne => .ctor ⟨cc, scope.nms ++ [.seg s] ++ [structNm d s ta], k.adj, ps, va, ne, k.this, none⟩
  | .conv targs k cls (.mk cc ret ps va ne) => .ty ret (.fnD ⟨cc, cls.nms, k.adj, ps, va, ne, k.this, some targs⟩)

theorem Storage.pre_text {E : Env} (hE : E.flags = Flags.default) (s : Storage) : s.cpp E = s.pre.text := by
  cases s <;> simp [Storage.cpp, Storage.pre, Pre.text, dflt_access hE, dflt_member hE, part]

theorem Kind.pre_text {E : Env} (hE : E.flags = Flags.default) (k : Kind) : k.cpp E = k.pre.text := by
  cases k with
  | free b => cases b <;> simp [Kind.cpp, Kind.pre, Pre.text, dflt_access hE, dflt_member hE, part]
  | static a => simp [Kind.cpp, Kind.pre, Pre.text, dflt_access hE, dflt_member hE, part]
  | member a v q => cases v <;> simp [Kind.cpp, Kind.pre, Pre.text, dflt_access hE, dflt_member hE, part]
  | thunk a adj q => simp [Kind.cpp, Kind.pre, Pre.text, dflt_access hE, dflt_member hE, dflt_name hE, part]

theorem Kind.adj_text (k : Kind) : k.adjCpp = adjText k.adj := by cases k <;> rfl

theorem Head.nm_cpp {E : Env} {key : Text} {h : Head} (hp : h.plain key = true) : h.nm.cpp E = h.cpp E := by
  cases h with
  | id | tm | lit => simp [Head.nm, Nm.cpp, Head.cpp, Seg.cpp]
  | op o ta =>
    cases ta with
    | none => simp [Head.nm, Nm.cpp, Head.cpp, Targs.cpp]
    | some as => simp [Head.nm, Nm.cpp, Head.cpp, Targs.cpp]

theorem structNm_cpp {E : Env} {dt : Bool} {s : Seg} {ta : Targs} (h : (ta.isNone || s.isNamed) = true) :
    part dt c!"~" ++ s.cpp E ++ ta.cpp E = (structNm dt s ta).cpp E := by
  cases ta with
  | none => cases dt <;> simp [structNm, Nm.cpp, Targs.cpp, part]
  | some bs =>
    cases s with
    | id | tm => cases dt <;> simp [structNm, Nm.cpp, Targs.cpp, part, Seg.cpp]
    | anon | loc => simp [Targs.isNone, Seg.isNamed] at h

theorem structNm_plain {key : Text} {dt : Bool} {s : Seg} {ta : Targs} (h : (ta.isNone || s.isNamed) = true) (hs : s.plain key = true)
    (ht : ta.plain key = true) : (structNm dt s ta).plain key = true := by
  cases ta with
  | none => cases dt <;> exact hs
  | some bs =>
    simp only [Targs.plain] at ht
    cases s with
    | id | tm => cases dt <;> simp_all [structNm, Nm.plain, Seg.plain]
    | anon | loc => simp [Targs.isNone, Seg.isNamed] at h

theorem structNm_inj {dt dt' : Bool} {s : Seg} {ta ta' : Targs} (h : (ta.isNone || s.isNamed) = true) (h' : (ta'.isNone || s.isNamed) = true)
    (e : structNm dt s ta = structNm dt' s ta') : dt = dt' ∧ ta = ta' := by
  cases ta with
  | none =>
    cases ta' with
    | none => cases dt <;> cases dt' <;> simp_all [structNm]
    | some bs =>
      cases s with
      | id | tm => cases dt <;> cases dt' <;> simp_all [structNm]
      | anon | loc => simp [Targs.isNone, Seg.isNamed] at h'
  | some as =>
    cases s with
    | id | tm =>
      cases ta' with
      | none => cases dt <;> cases dt' <;> simp_all [structNm]
      | some bs => cases dt <;> cases dt' <;> simp_all [structNm]
    | anon | loc => simp [Targs.isNone, Seg.isNamed] at h

theorem Head.seg_cpp {E : Env} {h : Head} (hp : h.isName = true) : h.seg.cpp E = h.cpp E := by
  cases h <;> simp [Head.isName] at hp <;> simp [Head.seg, Head.cpp, Seg.cpp]

theorem showPath_snoc (E : Env) (x : Nm) (p : Path) (r : Text) (h : r = x.cpp E) : showPath (r :: p.names E) = nmText E (p.nms ++ [x]) := by
  rw [showPath, nmText, Path.names_eq, Path.nms, h]
  simp only [List.reverse_cons, List.map_append, List.map_map, List.map_reverse, List.map_cons, List.map_nil]
  rfl

theorem Ty.right_nil {E : Env} : ∀ {t : Ty}, t.noRight = true → t.right E = []
  | .prim .., _ => by rw [Ty.right]
  | .tag .., _ => by rw [Ty.right]
  | .ptr k u to, h => by rw [Ty.right]; exact Ty.right_nil (t := to) h
  | .mptr k u c to, h => by rw [Ty.right]; exact Ty.right_nil (t := to) h
  | .fptr .., h | .aptr .., h | .mfptr .., h => by simp [Ty.noRight] at h

theorem showPath_conv (E : Env) {p : Path} (hp : p.isNil = false) (r : Text) : showPath (r :: p.names E) = nmText E p.nms ++ (c!"::" ++ r) := by
  have e : showPath (r :: p.names E) = join c!"::" (p.nms.map (Nm.cpp E) ++ [r]) := by
    rw [showPath, Path.names_eq, Path.nms]
    simp only [List.reverse_cons, List.map_map, List.map_reverse]
    rfl
  have hn := Path.nms_ne hp
  rw [e]
  cases hm : p.nms with
  | nil => exact absurd hm hn
  | cons x l =>
    have two : ∀ (y z : Text) (m : List Text), join c!"::" (y :: z :: m) = y ++ (c!"::" ++ join c!"::" (z :: m)) := by
      intro y z m
      rw [join]
      · exact List.append_assoc ..
      · simp
    have : ∀ (y : Text) (m : List Text), join c!"::" (y :: m ++ [r]) = join c!"::" (y :: m) ++ (c!"::" ++ r) := by
      intro y m
      induction m generalizing y with
      | nil => simp [join]
      | cons z m ih =>
        have := ih z
        simp only [List.cons_append] at this ⊢
        rw [two, this, two]
        simp only [List.append_assoc]
    exact this _ _

theorem Decl.text_eq {E : Env} (hE : E.flags = Flags.default) {key : Text} {d : Decl} (h : d.plain key = true) :
    d.cpp E = d.pre.text ++ d.phrase.text E := by
  cases d with
  | var st name scope ty =>
    simp only [Decl.plain, Bool.and_eq_true] at h
    have hn := Head.seg_cpp (E := E) h.1.1.1.2
    rw [Decl.cpp]
    simp only [dflt_varType hE, if_true]
    rw [Storage.pre_text hE, sp_eq, Decl.pre, Decl.phrase, Phrase.text, typed, Tl.mid, ← Path.text_eq, Path.names, hn]
    simp only [List.append_assoc]
  | fn k name scope s =>
    cases s with
    | mk cc ret ps va ne =>
      simp only [Decl.plain, Bool.and_eq_true] at h
      rw [Decl.cpp, Decl.pre, Decl.phrase, Phrase.text, typed, Tl.mid, FnP.text, Kind.pre_text hE, Kind.adj_text, Sig.ret, Sig.conv, Sig.params, Sig.right,
        dflt_ret hE, dflt_conv hE, dflt_params hE, dflt_this hE, dflt_convCpp hE, showPath_snoc E name.nm scope _ (Head.nm_cpp h.1.1).symm]
      simp [part, quals, cword, cvText]
  | structor dt targs k s scope cc ps va ne =>
    simp only [Decl.plain, Bool.and_eq_true] at h
    have e := showPath_snoc E (structNm dt s targs) (.cons s scope) (part dt c!"~" ++ s.cpp E ++ targs.cpp E) (structNm_cpp h.1.1.1.1.2)
    rw [Path.names] at e
    have e2 : (Path.cons s scope).nms = scope.nms ++ [.seg s] := by simp [Path.nms, Path.segs]
    rw [Decl.cpp, Decl.pre, Decl.phrase, Phrase.text, FnP.text, Kind.pre_text hE, Kind.adj_text, e, e2,
        dflt_conv hE, dflt_params hE, dflt_this hE, dflt_convCpp hE]
    simp [part, quals, cword, cvText]
  | conv targs k cls s =>
    cases s with
    | mk cc ret ps va ne =>
      simp only [Decl.plain, Sig.res, Bool.and_eq_true, Bool.not_eq_true'] at h
      rw [Decl.cpp, Decl.pre, Decl.phrase, Phrase.text, typed, Tl.mid, FnP.text, Kind.pre_text hE, Kind.adj_text, Sig.ret, Sig.conv, Sig.params, Sig.right,
        Sig.retType, dflt_ret hE, dflt_conv hE, dflt_params hE, dflt_this hE, dflt_convCpp hE, showPath_conv E h.1.1.1.2, Ty.right_nil h.1.1.2, cvText, convName]
      simp [part, quals, cword]

theorem Head.nm_plain {key : Text} {h : Head} (hp : h.plain key = true) : h.nm.plain key = true := by
  cases h with
  | op o ta => cases ta <;> simp_all [Head.plain, Head.nm, Nm.plain, Targs.plain]
  | _ => simp_all [Head.plain, Head.nm, Nm.plain, Seg.plain]

theorem Decl.phrase_ok {key : Text} {d : Decl} (h : d.plain key = true) : d.phrase.Ok key := by
  cases d with
  | var st name scope ty =>
    simp only [Decl.plain, Bool.and_eq_true] at h
    refine ⟨h.2, Path.place ?_ rfl⟩
    rw [Path.plain, h.1.2, Bool.and_true]
    cases name <;> simp_all [Head.isName, Head.plain, Head.seg, Seg.plain]
  | fn k name scope s =>
    cases s with
    | mk cc ret ps va ne =>
      simp only [Decl.plain, Sig.plain, Bool.and_eq_true] at h
      refine ⟨h.2.1.2, h.2.1.1, by simp, ?_, h.2.2, by simp⟩
      intro x hx
      simp only [List.mem_append, List.mem_singleton] at hx
      rcases hx with hx | rfl
      · exact Path.plain_nms h.1.2 x hx
      · exact Head.nm_plain h.1.1
  | structor dt targs k s scope cc ps va ne =>
    simp only [Decl.plain, Bool.and_eq_true] at h
    refine ⟨h.1.2, by simp, ?_, h.2, by simp⟩
    intro x hx
    simp only [List.mem_append, List.mem_singleton] at hx
    rcases hx with (hx | rfl) | rfl
    · exact Path.plain_nms h.1.1.2 x hx
    · exact h.1.1.1.2
    · exact structNm_plain h.1.1.1.1.2 h.1.1.1.2 h.1.1.1.1.1
  | conv targs k cls s =>
    cases s with
    | mk cc ret ps va ne =>
      simp only [Decl.plain, Sig.plain, Sig.res, Bool.and_eq_true, Bool.not_eq_true'] at h
      refine ⟨h.2.1.2, h.2.1.1, Path.nms_ne h.1.1.1.2, Path.plain_nms h.1.2, h.2.2, ?_⟩
      intro ta e
      have e : targs = ta := by injection e
      rw [← e]; exact h.1.1.1.1

theorem Kind.inj {k k' : Kind} (h1 : k.pre = k'.pre) (h2 : k.adj = k'.adj) (h3 : k.this = k'.this) : k = k' := by
  cases k with
  | free b =>
    cases k' with
    | free b' => cases b <;> cases b' <;> simp_all [Kind.pre]
    | static | thunk => cases b <;> simp [Kind.pre] at h1
    | member a v q => cases b <;> cases v <;> simp [Kind.pre] at h1
  | static a =>
    cases k' with
    | free b' => cases b' <;> simp [Kind.pre] at h1
    | static => simp_all [Kind.pre]
    | thunk => simp [Kind.pre] at h1
    | member a v q => cases v <;> simp [Kind.pre] at h1
  | member a v q =>
    cases k' with
    | free b' => cases b' <;> cases v <;> simp [Kind.pre] at h1
    | static => cases v <;> simp [Kind.pre] at h1
    | thunk => cases v <;> simp [Kind.pre] at h1
    | member a' v' q' => cases v <;> cases v' <;> simp_all [Kind.pre, Kind.this]
  | thunk a adj q =>
    cases k' with
    | free b' => cases b' <;> simp [Kind.pre] at h1
    | static => simp [Kind.pre] at h1
    | member a v q => cases v <;> simp [Kind.pre] at h1
    | thunk => simp_all [Kind.pre, Kind.adj, Kind.this]

theorem Head.seg_inj {h h' : Head} (hp : h.isName = true) (hp' : h'.isName = true) (e : h.seg = h'.seg) : h = h' := by
  cases h <;> cases h' <;> simp_all [Head.isName, Head.seg]

theorem Head.nm_inj {key : Text} {h h' : Head} (hp : h.plain key = true) (hp' : h'.plain key = true) (e : h.nm = h'.nm) : h = h' := by
  cases h with
  | op o ta =>
    cases h' with
    | op o' ta' => cases ta <;> cases ta' <;> simp_all [Head.nm]
    | _ => cases ta <;> simp [Head.nm] at e
  | _ =>
    cases h' with
    | op o' ta' => cases ta' <;> simp [Head.nm] at e
    | _ => simp_all [Head.nm]

theorem path_snoc_inj {p q : Path} {x y : Nm} (h : p.nms ++ [x] = q.nms ++ [y]) : p = q ∧ x = y := by
  obtain ⟨h1, h2⟩ := List.append_inj' h rfl
  exact ⟨Path.nms_inj h1, by simpa using h2⟩

theorem Decl.inj {key : Text} {d d' : Decl} (h : d.plain key = true) (h' : d'.plain key = true) (e1 : d.pre = d'.pre) (e2 : d.phrase = d'.phrase) : d = d' := by
  cases d with
  | var st name scope ty =>
    cases d' with
    | var st' name' scope' ty' =>
      simp only [Decl.plain, Bool.and_eq_true, decide_eq_true_eq] at h h'
      simp only [Decl.phrase, Phrase.ty.injEq, Tl.var.injEq] at e2
      replace e2 := And.intro e2.1 (Path.nms_inj e2.2)
      simp only [Path.cons.injEq] at e2
      simp only [Decl.pre] at e1
      have hs : st = st' := by
        cases st <;> cases st' <;> simp_all [Storage.pre]
      rw [hs, Head.seg_inj h.1.1.1.2 h'.1.1.1.2 e2.2.1, e2.1, e2.2.2]
    | fn k' name' scope' s' => cases s'; simp [Decl.phrase] at e2
    | structor => simp [Decl.phrase] at e2
    | conv targs' k' cls' s' => cases s'; simp [Decl.phrase] at e2
  | fn k name scope s =>
    cases s with
    | mk cc ret ps va ne =>
      cases d' with
      | var => simp [Decl.phrase] at e2
      | fn k' name' scope' s' =>
        cases s'
        simp only [Decl.plain, Bool.and_eq_true] at h h'
        simp only [Decl.phrase, Phrase.ty.injEq, Tl.fnD.injEq, FnP.mk.injEq] at e2
        simp only [Decl.pre] at e1
        obtain ⟨h1, h2⟩ := path_snoc_inj e2.2.2.1
        rw [Kind.inj e1 e2.2.2.2.1 e2.2.2.2.2.2.2.2.1, Head.nm_inj h.1.1 h'.1.1 h2, h1, e2.1, e2.2.1, e2.2.2.2.2.1, e2.2.2.2.2.2.1, e2.2.2.2.2.2.2.1]
      | structor => simp [Decl.phrase] at e2
      | conv targs' k' cls' s' => cases s'; simp [Decl.phrase] at e2
  | structor dt targs k s scope cc ps va ne =>
    cases d' with
    | var => simp [Decl.phrase] at e2
    | fn k' name' scope' s' => cases s'; simp [Decl.phrase] at e2
    | structor dt' targs' k' s' scope' cc' ps' va' ne' =>
      simp only [Decl.plain, Bool.and_eq_true] at h h'
      simp only [Decl.phrase, Phrase.ctor.injEq, FnP.mk.injEq] at e2
      simp only [Decl.pre] at e1
      obtain ⟨h1, h2⟩ := List.append_inj' e2.2.1 rfl
      obtain ⟨h3, h4⟩ := path_snoc_inj h1
      injection h4 with h4
      subst h4
      obtain ⟨hd, ht⟩ := structNm_inj h.1.1.1.1.2 h'.1.1.1.1.2 (by simpa only [List.cons.injEq, and_true] using h2)
      rw [hd, ht, Kind.inj e1 e2.2.2.1 e2.2.2.2.2.2.2.1, h3, e2.1, e2.2.2.2.1, e2.2.2.2.2.1, e2.2.2.2.2.2.1]
    | conv targs' k' cls' s' => cases s'; simp [Decl.phrase] at e2
  | conv targs k cls s =>
    cases s with
    | mk cc ret ps va ne =>
      cases d' with
      | var => simp [Decl.phrase] at e2
      | fn k' name' scope' s' => cases s'; simp [Decl.phrase] at e2
      | structor => simp [Decl.phrase] at e2
      | conv targs' k' cls' s' =>
        cases s'
        simp only [Decl.phrase, Phrase.ty.injEq, Tl.fnD.injEq, FnP.mk.injEq, Option.some.injEq] at e2
        simp only [Decl.pre] at e1
        obtain ⟨h1, h2, h3, h4, h5, h6, h7, h8, h9⟩ := e2
        rw [Kind.inj e1 h4 h8, Path.nms_inj h3, h1, h2, h5, h6, h7, h9]

section
variable (E : Env) (key : Text)

/-- A declaration is read back. -/
def DeclRd (d : Decl) : Prop := ∀ d', d'.plain key = true → ∀ a b, Stop a → Stop b → d.cpp E ++ a = d'.cpp E ++ b → d = d' ∧ a = b

end

theorem decl_read {E : Env} (hE : E.flags = Flags.default) {key : Text} {d : Decl} (h : d.plain key = true) (rd : d.phrase.Rd E key) : DeclRd E key d := by
  intro d' h' a b ha hb e
  rw [Decl.text_eq hE h, Decl.text_eq hE h'] at e
  obtain ⟨h1, h2, h3⟩ := full_read hE (Decl.phrase_ok h) (Decl.phrase_ok h') rd ha hb e
  exact ⟨Decl.inj h h' h1 h2, h3⟩

/-- How declarations start. -/
def DStart (X : Text) : Prop := X.head? = some '[' ∨ firstWord X ∈ phraseWords ++ [c!"extern", c!"private", c!"protected", c!"public"]

theorem pre_first : ∀ p ∈ allPres, p.text = [] ∨ p.text.head? = some '[' ∨
    (p.text.any (fun c => !idc c) = true ∧ firstWord p.text ∈ [c!"extern", c!"private", c!"protected", c!"public"]) := by decide +kernel

theorem full_start {E : Env} (hE : E.flags = Flags.default) {key : Text} {x : Pre} {p : Phrase} (hp : p.Ok key) {a : Text} (ha : Stop a) :
    DStart (x.text ++ p.text E ++ a) := by
  rw [List.append_assoc]
  rcases pre_first x (mem_pres x) with h | h | ⟨h, h'⟩
  · rw [h, List.nil_append]; exact .inr (List.mem_append.mpr (.inl (Phrase.first hE hp ha)))
  · refine .inl ?_
    cases hx : x.text with
    | nil => rw [hx] at h; simp at h
    | cons c r => rw [hx] at h; simpa using h
  · exact .inr (List.mem_append.mpr (.inr (by rw [firstWord_append h]; exact h')))

theorem Decl.start {E : Env} (hE : E.flags = Flags.default) {key : Text} {d : Decl} (h : d.plain key = true) {a : Text} (ha : Stop a) : DStart (d.cpp E ++ a) := by
  rw [Decl.text_eq hE h]; exact full_start hE (Decl.phrase_ok h) ha

end Undname.Spec.Cxx
