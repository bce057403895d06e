/-
  Reading the special symbols back from their text.
-/
import Verif.Proof.PlainKeys
import Verif.Spec.PlainSym

namespace Undname.Spec.Cxx

/-! ### How texts end -/

/-- It ends, and not in a quote or a blank. -/
def GL (x : Text) : Prop := ∃ c, x.getLast? = some c ∧ c ≠ '\'' ∧ c ≠ ' '

theorem GL.append {x y : Text} (h : GL y) : GL (x ++ y) := by
  obtain ⟨c, h, h'⟩ := h
  exact ⟨c, by rw [List.getLast?_append, h]; rfl, h'⟩

theorem GL.ext {x y : Text} (h : GL x) (h' : y = [] ∨ GL y) : GL (x ++ y) := by
  rcases h' with rfl | h'
  · simpa using h
  · exact h'.append

theorem GL.ends (x : Text) {c : Char} (h : c ≠ '\'' ∧ c ≠ ' ') : GL (x ++ [c]) := ⟨c, by simp, h⟩

theorem GL.of_dec {x : Text} (h : (x.getLast?.any fun c => c ≠ '\'' && c ≠ ' ') = true) : GL x := by
  rw [Option.any_eq_true] at h
  obtain ⟨c, hc, h⟩ := h
  simp at h
  exact ⟨c, hc, h⟩

theorem GL.wordEnd {E : Env} {x : Text} (h : wordEnd E x = true) : GL x := by
  rw [Cxx.wordEnd, Option.any_eq_true] at h
  obtain ⟨c, hc, h⟩ := h
  refine ⟨c, hc, ?_, ?_⟩ <;> rintro rfl <;> simp [isWordEnd] at h

theorem tails_gl {l : List Text} (h : ∀ w ∈ l, GL w) : tails c!" " id l = [] ∨ GL (tails c!" " id l) := by
  induction l with
  | nil => exact .inl rfl
  | cons w l ih =>
    rw [tails_cons]
    exact .inr (GL.append (GL.ext (h w (by simp)) (ih fun w hw => h w (by simp [hw]))))

theorem cvAfter_gl : ∀ c v : Bool, Spec.Ty.cvAfter c v = [] ∨ GL (Spec.Ty.cvAfter c v) := by
  intro c v
  cases c <;> cases v
  · exact .inl rfl
  · exact .inr (GL.of_dec (by decide))
  · exact .inr (GL.of_dec (by decide))
  · exact .inr (GL.of_dec (by decide))

theorem params_gl (ts : List Text) (va : Bool) : GL (paramsCpp ts va) := by
  rw [paramsCpp]; exact GL.ends _ (by decide)

theorem bounds_gl (l : List Nat) : GL (bounds l) := by
  cases l with
  | nil => exact GL.of_dec (by decide)
  | cons d ds => rw [bounds]; exact GL.ends _ (by decide)

section
variable {E : Env} (hE : E.flags = Flags.default)
include hE

theorem quals_gl (q : This) (ne : Bool) : quals E q ne = [] ∨ GL (quals E q ne) := by
  rw [quals_eq hE]
  refine tails_gl fun w hw => ?_
  have := qualList_mem q ne w hw
  have key : ∀ w ∈ [c!"const", c!"volatile", c!"__restrict", c!"__unaligned", c!"noexcept", c!"&", c!"&&"],
    (w.getLast?.any fun c => c ≠ '\'' && c ≠ ' ') = true := by decide
  exact GL.of_dec (key w this)

theorem PK.gl (k : PK) : GL (k.cpp E) := by
  cases k with
  | star c v r =>
    rw [star_cpp hE]
    cases c <;> cases v <;> cases r <;> exact GL.of_dec (by decide)
  | ref => rw [PK.cpp]; exact GL.of_dec (by decide)
  | rref => rw [PK.cpp]; exact GL.of_dec (by decide)

theorem Sig.right_eq (cc : Char) (ret : Ty) (ps : Tys) (va ne : Bool) (q : This) :
    (Sig.mk cc ret ps va ne).right E q = quals E q ne ++ ret.right E := by
  rw [Sig.right, dflt_this hE, dflt_ret hE]; simp [part, quals]

theorem Ty.right_gl : ∀ t : Ty, t.right E = [] ∨ GL (t.right E)
  | .prim .. => .inl (by rw [Ty.right])
  | .tag .. => .inl (by rw [Ty.right])
  | .ptr _ _ to => by rw [Ty.right]; exact Ty.right_gl to
  | .mptr _ _ _ to => by rw [Ty.right]; exact Ty.right_gl to
  | .fptr _ (.mk cc ret ps va ne) => by
    have ih := Ty.right_gl ret
    rw [Ty.right, Sig.params, Sig.right_eq hE, ← List.append_assoc]
    exact .inr (GL.ext (GL.ext (GL.append (params_gl _ _)) (quals_gl hE _ _)) ih)
  | .mfptr _ _ q (.mk cc ret ps va ne) => by
    have ih := Ty.right_gl ret
    rw [Ty.right, Sig.params, Sig.right_eq hE, ← List.append_assoc]
    exact .inr (GL.ext (GL.ext (GL.append (params_gl _ _)) (quals_gl hE _ _)) ih)
  | .aptr _ _ _ dims el => by
    have ih := Ty.right_gl el
    rw [Ty.right]
    exact .inr (GL.ext (GL.append (bounds_gl _)) ih)

theorem Ty.left_gl {key : Text} {t : Ty} (h : t.plain key = true) : GL (t.left E) := by
  cases t with
  | prim k c v =>
    rw [Ty.left]
    have : ∀ k ∈ allPrims, ((primName k).getLast?.any fun c => c ≠ '\'' && c ≠ ' ') = true := by decide +kernel
    exact GL.ext (GL.of_dec (this k (mem_prims k))) (cvAfter_gl c v)
  | tag k p c v =>
    simp only [Ty.plain, Bool.and_eq_true] at h
    rw [Ty.left, Path.text_eq]
    exact GL.ext (GL.wordEnd (className_wordEnd h.1 _)) (cvAfter_gl c v)
  | ptr k u to => rw [Ty.left]; exact GL.append (PK.gl hE k)
  | fptr k s => rw [Ty.left]; exact GL.append (PK.gl hE k)
  | aptr k c v dims el => rw [Ty.left]; exact GL.append (PK.gl hE k)
  | mptr k u cls to => rw [Ty.left]; exact GL.append (PK.gl hE k)
  | mfptr k cls q s => rw [Ty.left]; exact GL.append (PK.gl hE k)

theorem Ty.cpp_gl {key : Text} {t : Ty} (h : t.plain key = true) : GL (t.cpp E) :=
  GL.ext (Ty.left_gl hE h) (Ty.right_gl hE t)

/-- A type is read back from its text and the blank after it. -/
theorem sp_inj {key : Text} {t t' : Ty} (h : t.plain key = true) (h' : t'.plain key = true) (e : sp E (t.cpp E) = sp E (t'.cpp E)) : t = t' := by
  rw [sp_eq, sp_eq] at e
  have ends : ∀ {x y : Text}, GL x → x ++ [] ≠ y ++ c!" " := by
    intro x y hx e
    obtain ⟨c, hc, -, h⟩ := hx
    rw [List.append_nil] at e
    rw [e] at hc
    simp at hc
    exact h hc.symm
  have bl : ∀ P, blank E P = [] ∨ blank E P = c!" " := by
    intro P; rw [blank]; split <;> simp
  refine Ty.cpp_inj hE h h' ?_
  rcases bl (t.cpp E) with h1 | h1 <;> rcases bl (t'.cpp E) with h2 | h2 <;> rw [h1, h2] at e
  · simpa using e
  · exact absurd e (ends (Ty.cpp_gl hE h))
  · exact absurd e.symm (ends (Ty.cpp_gl hE h'))
  · exact List.append_cancel_right e

theorem FnP.gl (P : Text) (f : FnP) : GL (f.text E P) := by
  rw [FnP.text, ← List.append_assoc, ← List.append_assoc, ← List.append_assoc, ← List.append_assoc]
  exact GL.append (GL.ext (params_gl _ _) (quals_gl hE _ _))

end

/-! ### The name in a descriptor -/

/-- It does not end like the name in the descriptor of a type. -/
def NotName (x : Text) : Prop := ∀ p, x ≠ p ++ c!"Name'"

theorem GL.notName {x : Text} (h : GL x) : NotName x := by
  rintro p rfl
  obtain ⟨c, hc, h, -⟩ := h
  rw [List.getLast?_append] at hc
  simp at hc
  exact h hc.symm

theorem NotName.ends {x y : Text} (hy : 5 ≤ y.length) (h : y.drop (y.length - 5) ≠ c!"Name'") : NotName (x ++ y) := by
  intro p e
  rw [← List.take_append_drop (y.length - 5) y, ← List.append_assoc] at e
  exact h (List.append_inj' e (by simp; omega)).2

/-! ### Named symbols -/

/-- What precedes the name. -/
inductive NPre where
  | cv (c v : Bool)
  | thunk (cc : Char)

def NPre.text : NPre → Text
  | .cv c v => cvBefore c v
  | .thunk cc => c!"[thunk]: " ++ (cword cc ++ c!" ")

def NPre.Ok : NPre → Prop
  | .thunk cc => convLetters.contains cc = true
  | _ => True

def allNPres : List NPre := [.cv false false, .cv false true, .cv true false, .cv true true] ++ convLetters.map .thunk

theorem mem_npres {p : NPre} (h : p.Ok) : p ∈ allNPres := by
  cases p with
  | cv c v => cases c <;> cases v <;> simp [allNPres]
  | thunk cc =>
    have h : convLetters.contains cc = true := h
    simp [allNPres]
    simpa using h

theorem npre_table : ∀ p ∈ allNPres, ∀ q ∈ allNPres, p.text <+: q.text → p.text = q.text ∨
    ((q.text.drop p.text.length).any (fun c => !idc c) = true ∧
      (firstWord (q.text.drop p.text.length) ∈ reserved ∨ (q.text.drop p.text.length).head? = some '[')) := by decide +kernel

theorem npre_inj {p q : NPre} (hp : p.Ok) (hq : q.Ok) (h : p.text = q.text) : p = q := by
  cases p with
  | cv c v =>
    cases q with
    | cv c' v' => revert h; cases c <;> cases v <;> cases c' <;> cases v' <;> simp [NPre.text, cvBefore]
    | thunk cc => cases c <;> cases v <;> simp [NPre.text, cvBefore] at h
  | thunk cc =>
    cases q with
    | cv c v => cases c <;> cases v <;> simp [NPre.text, cvBefore] at h
    | thunk cc' =>
      simp only [NPre.text] at h
      have h := List.append_cancel_left h
      rw [cword_inj hp hq (List.append_cancel_right h)]

theorem WStart.not {X : Text} (h : WStart X) : firstWord X ∉ reserved ∧ X.head? ≠ some '[' := by
  cases h with
  | @word w r h1 h2 =>
    refine ⟨by rw [firstWord_eq (ident_idc h1) h2]; exact ident_reserved h1, ?_⟩
    cases w with
    | nil => exact absurd rfl (ident_ne h1)
    | cons c w =>
      have := ident_idc h1 c (by simp)
      intro h
      simp at h
      rw [h] at this; exact absurd this (by decide)
  | star r => exact ⟨by rw [firstWord, List.takeWhile_cons, if_neg (by decide)]; decide, by simp⟩
  | amp r => exact ⟨by rw [firstWord, List.takeWhile_cons, if_neg (by decide)]; decide, by simp⟩
  | quote r => exact ⟨by rw [firstWord, List.takeWhile_cons, if_neg (by decide)]; decide, by simp⟩

theorem npre_read {p q : NPre} (hp : p.Ok) (hq : q.Ok) {X Y : Text} (hX : WStart X) (hY : WStart Y)
    (e : p.text ++ X = q.text ++ Y) : p = q ∧ X = Y := by
  have key : ∀ {p q : NPre} {X Y r : Text}, p.Ok → q.Ok → WStart X → q.text = p.text ++ r → X = r ++ Y → p = q := by
    intro p q X Y r hp hq hX h1 h2
    rcases npre_table p (mem_npres hp) q (mem_npres hq) ⟨r, h1.symm⟩ with h | ⟨h3, h4⟩
    · exact npre_inj hp hq h
    · rw [h1, List.drop_left] at h3 h4
      obtain ⟨h5, h6⟩ := hX.not
      rw [h2] at h5 h6
      rcases h4 with h4 | h4
      · rw [firstWord_append h3] at h5; exact absurd h4 h5
      · cases r with
        | nil => simp at h4
        | cons c r => simp at h4 h6; exact absurd h4 h6
  rcases append_cases e with ⟨r, h1, h2⟩ | ⟨r, h1, h2⟩
  · obtain rfl := key hp hq hX h1 h2
    exact ⟨rfl, List.append_cancel_left e⟩
  · obtain rfl := key hq hp hY h1 h2
    exact ⟨rfl, List.append_cancel_left e⟩

/-- The base class of a table. -/
def forText (E : Env) (p : Path) : Text := if p.isNil then [] else c!"{for `" ++ (nmText E p.nms ++ c!"'}")

theorem forText_head (E : Env) (p : Path) : (forText E p).head? ∈ [none, some '{'] := by
  rw [forText]; split <;> simp

theorem forText_stop (E : Env) (p : Path) : SegStop (forText E p) := by
  have := forText_head E p
  refine ⟨?_, ?_⟩
  · intro c hc; rw [hc] at this; simp at this; rw [this]; decide
  · intro hc; rw [hc] at this; simp at this

theorem forText_colon (E : Env) (p : Path) : (forText E p).head? ≠ some ':' := by
  have := forText_head E p
  intro hc; rw [hc] at this; simp at this

/-! ### The forms of symbols -/

inductive Form where
  /-- a declaration -/
  | phrase (x : Pre) (p : Phrase)
  /-- a name -/
  | named (x : NPre) (l : List Nm) (target : Path)
  /-- the name of a type -/
  | tname (t : Ty)

def Form.text (E : Env) : Form → Text
  | .phrase x p => x.text ++ p.text E
  | .named x l target => x.text ++ (nmText E l ++ forText E target)
  | .tname t => sp E (t.cpp E) ++ c!"`RTTI Type Descriptor Name'"

def Form.Ok (E : Env) (key : Text) : Form → Prop
  | .phrase x p => p.Ok key ∧ NotName (x.text ++ p.text E)
  | .named x l target => x.Ok ∧ PlaceOk key l ∧ target.plain key = true ∧ (∀ y ∈ l, y.St (forText E target)) ∧
      NotName (x.text ++ (nmText E l ++ forText E target))
  | .tname t => t.plain key = true

def Form.Rd (E : Env) (key : Text) : Form → Prop
  | .phrase _ p => p.Rd E key
  | .named _ l target => NmsRd E key l ∧ NmsRd E key target.nms
  | .tname _ => True

/-- How named symbols start. -/
theorem named_dstart {E : Env} (hE : E.flags = Flags.default) {key : Text} {x : NPre} (hx : x.Ok) {l : List Nm} (hl : PlaceOk key l) (target : Path)
    {y : Pre} {p : Phrase} (hp : p.Ok key) : y.text ++ p.text E ≠ x.text ++ (nmText E l ++ forText E target) := by
  intro e
  have st : Stop ([] : Text) := by simp [Stop]
  have ds := full_start hE (x := y) hp st
  rw [List.append_nil, e] at ds
  have ws := hl.start (E := E) (forText_stop E target).1
  cases x with
  | cv c v =>
    by_cases h : c = false ∧ v = false
    · obtain ⟨rfl, rfl⟩ := h
      have e' : y.text ++ p.text E = nmText E l ++ forText E target := e
      have ds' : DStart (nmText E l ++ forText E target) := ds
      obtain ⟨r, h1, h2⟩ := ws.dstart ds'
      rw [h1] at e'
      obtain ⟨s, h3, h4⟩ := full_std hE hp st h2 (by rw [List.append_nil]; exact e')
      rw [h3] at h1
      exact place_nullptr hl (forText_stop E target).1 (forText_colon E target) h4 h1
    · have : ∀ c v : Bool, ¬(c = false ∧ v = false) → (cvBefore c v).any (fun c => !idc c) = true ∧
          (cvBefore c v).head? ≠ some '[' ∧ (cvBefore c v) ≠ [] ∧
          firstWord (cvBefore c v) ∉ phraseWords ++ [c!"extern", c!"private", c!"protected", c!"public"] := by decide +kernel
      obtain ⟨h1, h2, h3, h4⟩ := this c v h
      rcases ds with ds | ds
      · cases hc : cvBefore c v with
        | nil => exact absurd hc h3
        | cons d r =>
          rw [NPre.text, hc] at ds
          rw [hc] at h2
          exact h2 (by simpa using ds)
      · rw [NPre.text, firstWord_append h1] at ds
        exact h4 ds
  | thunk cc =>
    have hcc : convLetters.contains cc = true := hx
    cases y with
    | thunk a v =>
      have e' : accessName a ++ (part v c!"virtual " ++ p.text E) = cword cc ++ (c!" " ++ (nmText E l ++ forText E target)) := by
        simp only [Pre.text, NPre.text, List.append_assoc] at e
        exact List.append_cancel_left e
      obtain ⟨r, hr⟩ := cword_head hcc
      rw [hr] at e'
      cases a <;> simp [accessName] at e'
    | none =>
      have h1 := Phrase.first hE hp st
      have e' : p.text E = NPre.text (.thunk cc) ++ (nmText E l ++ forText E target) := e
      rw [List.append_nil, e', NPre.text, List.append_assoc, firstWord_append (by decide)] at h1
      exact absurd h1 (by decide +kernel)
    | externC => simp [Pre.text, NPre.text] at e
    | acc a => cases a <;> simp [Pre.text, NPre.text, accessName] at e
    | static a => cases a <;> simp [Pre.text, NPre.text, accessName] at e
    | virt a => cases a <;> simp [Pre.text, NPre.text, accessName] at e

theorem Form.read {E : Env} (hE : E.flags = Flags.default) {key : Text} {f g : Form} (hf : f.Ok E key) (hg : g.Ok E key) (rd : f.Rd E key)
    (e : f.text E = g.text E) : f = g := by
  have st : Stop ([] : Text) := by simp [Stop]
  have nt : ∀ {x : Text} (t : Ty), NotName x → x ≠ sp E (t.cpp E) ++ c!"`RTTI Type Descriptor Name'" := by
    intro x t h e
    refine h (sp E (t.cpp E) ++ c!"`RTTI Type Descriptor ") ?_
    rw [e, List.append_assoc]; rfl
  cases f with
  | phrase x p =>
    cases g with
    | phrase y q =>
      obtain ⟨h1, h2, -⟩ := full_read hE hf.1 hg.1 rd st st (by rw [List.append_nil, List.append_nil]; exact e)
      rw [h1, h2]
    | named y l target => exact absurd e (named_dstart hE hg.1 hg.2.1 target hf.1)
    | tname t => exact absurd e (nt t hf.2)
  | named x l target =>
    obtain ⟨f1, f2, f3, f4, f5⟩ := hf
    cases g with
    | phrase y q => exact absurd e.symm (named_dstart hE f1 f2 target hg.1)
    | named y l' target' =>
      obtain ⟨g1, g2, g3, g4, g5⟩ := hg
      obtain ⟨h1, e⟩ := npre_read f1 g1 (f2.start (forText_stop E target).1) (g2.start (forText_stop E target').1) e
      obtain ⟨h2, e⟩ := names_read rd.1 f2.plain g2.plain f2.ne g2.ne f4 g4 (.of_head (forText_colon _ _)) (.of_head (forText_colon _ _)) e
      have h3 : target = target' := by
        cases target with
        | nil =>
          cases target' with
          | nil => rfl
          | cons => simp [forText, Path.isNil] at e
        | cons s p =>
          cases target' with
          | nil => simp [forText, Path.isNil] at e
          | cons s' p' =>
            simp only [forText, Path.isNil, Bool.false_eq_true, if_false] at e
            have e := List.append_cancel_left e
            have sq : ∀ y : Nm, y.isPlace = true → y.St c!"'}" := by
              intro y hy
              have : SegStop c!"'}" := ⟨NI.cons (by decide), by decide⟩
              cases y with
              | seg s => exact this
              | spc x => cases x <;> first | exact this | exact ⟨this, by decide⟩
              | _ => simp [Nm.isPlace] at hy
            exact Path.nms_inj (names_read rd.2 (Path.plain_nms f3) (Path.plain_nms g3) (Path.nms_ne rfl) (Path.nms_ne rfl)
              (fun x hx => sq x ((Path.place f3 rfl).place x hx)) (fun x hx => sq x ((Path.place g3 rfl).place x hx))
              (.of_head (by decide)) (.of_head (by decide)) e).1
      rw [h1, h2, h3]
    | tname t => exact absurd e (nt t f5)
  | tname t =>
    cases g with
    | phrase y q => exact absurd e.symm (nt t hg.2)
    | named y l target => exact absurd e.symm (nt t hg.2.2.2.2)
    | tname t' => rw [sp_inj hE hf hg (List.append_cancel_right e)]

/-! ### Symbols as forms -/

def Table.all : List Table := [.vftable, .vbtable, .localVftable, .locator]

/-- A function that initializes a variable. -/
def initForm (x : Spc) (k : Kind) : Sig → Form
  | .mk cc ret ps va ne => .phrase k.pre (.ty ret (.fnD ⟨cc, [.spc x], k.adj, ps, va, ne, k.this, none⟩))

def Sym.form : Sym → Form
  | .decl d => .phrase d.pre d.phrase
  | .table t cls c v target => .named (.cv c v) (cls.nms ++ [.spc (.table t)]) target
  | .baseDescriptor nv vb vt fl cls => .named (.cv false false) (cls.nms ++ [.spc (.base nv vb vt fl)]) .nil
  | .baseArray cls => .named (.cv false false) (cls.nms ++ [.spc .array]) .nil
  | .hierarchy cls => .named (.cv false false) (cls.nms ++ [.spc .hier]) .nil
  | .vcall cls n cc => .named (.thunk cc) (cls.nms ++ [.spc (.vcall n)]) .nil
  | .guard th _ scope n => .named (.cv false false) (scope.nms ++ [.spc (.guard th n)]) .nil
  | .initVar dt st name scope ty k s => initForm (.initVar dt (.var st name scope ty)) k s
  | .initName dt name scope k s => initForm (.initName dt (.cons (.id name) scope)) k s

def EndSym.form : EndSym → Form
  | .typeDescriptor t => .phrase .none (.ty t (.var [.spc .desc]))
  | .typeName t => .tname t
  | .guard th _ scope => .named (.cv false false) (scope.nms ++ [.spc (.guard th 0)]) .nil

theorem initForm_text {E : Env} (hE : E.flags = Flags.default) (x : Spc) (k : Kind) (s : Sig) :
    (initForm x k s).text E = k.cpp E ++ s.ret E ++ s.conv E ++ (x.stem ++ x.rest E) ++ k.adjCpp ++ part (shows.params E) (s.params E) ++ s.right E k.this := by
  obtain ⟨cc, ret, ps, va, ne⟩ := s
  rw [initForm, Form.text, Phrase.text, typed, Tl.mid, FnP.text, Kind.pre_text hE, Kind.adj_text, Sig.ret, Sig.conv, Sig.params, Sig.right,
    dflt_ret hE, dflt_conv hE, dflt_params hE, dflt_this hE, dflt_convCpp hE]
  simp [part, quals, cword, nmText, join, Nm.cpp, cvText]

theorem forText_nil (E : Env) : forText E .nil = [] := rfl

theorem Sym.text_eq {E : Env} (hE : E.flags = Flags.default) {key : Text} {y : Sym} (h : y.plain key = true) : y.cpp E = y.form.text E := by
  have nm : ∀ (cls : Path) (x : Spc) (r : Text), r = x.stem ++ x.rest E → showPath (r :: cls.names E) = nmText E (cls.nms ++ [.spc x]) :=
    fun cls x r h => showPath_snoc E (.spc x) cls r h
  cases y with
  | decl d => exact Decl.text_eq hE h
  | table t cls c v target =>
    rw [Sym.cpp, Sym.form, Form.text, nm cls (.table t) _ (by simp [Spc.stem, Spc.rest]), dflt_name hE]
    cases target with
    | nil => simp [forText, Path.isNil, part, NPre.text]
    | cons s p => simp [forText, Path.isNil, part, NPre.text, Path.text_eq]
  | baseDescriptor nv vb vt fl cls =>
    rw [Sym.cpp, Sym.form, Form.text, nm cls (.base nv vb vt fl) _ (by simp [Spc.stem, Spc.rest]), forText_nil, List.append_nil]; rfl
  | baseArray cls =>
    rw [Sym.cpp, Sym.form, Form.text, nm cls .array _ (by simp [Spc.stem, Spc.rest]), forText_nil, List.append_nil]; rfl
  | hierarchy cls =>
    rw [Sym.cpp, Sym.form, Form.text, nm cls .hier _ (by simp [Spc.stem, Spc.rest]), forText_nil, List.append_nil]; rfl
  | vcall cls n cc =>
    rw [Sym.cpp, Sym.form, Form.text, dflt_name hE, dflt_conv hE, dflt_convCpp hE, nm cls (.vcall n) _ (by simp [Spc.stem, Spc.rest, part]), forText_nil, List.append_nil]
    simp [part, NPre.text, cword]
  | guard th vis scope n =>
    rw [Sym.cpp, Sym.form, Form.text, nm scope (.guard th n) _ (by simp [Spc.stem, Spc.rest, guardName]), forText_nil, List.append_nil]; rfl
  | initVar dt st name scope ty k s =>
    rw [Sym.cpp, Sym.form, initForm_text hE]
    simp only [Spc.stem, Spc.rest, List.append_assoc]
  | initName dt name scope k s =>
    rw [Sym.cpp, Sym.form, initForm_text hE]
    simp only [Spc.stem, Spc.rest, Path.names, Seg.cpp, List.append_assoc]

theorem EndSym.text_eq {E : Env} (hE : E.flags = Flags.default) (y : EndSym) : y.cpp E = y.form.text E := by
  cases y with
  | typeDescriptor t =>
    rw [EndSym.cpp, dflt_varType hE, if_pos rfl, EndSym.form, Form.text, Phrase.text, typed, Tl.mid, sp_eq]
    simp [Pre.text, nmText, join, Nm.cpp, Spc.stem, Spc.rest]
  | typeName t => rw [EndSym.cpp, dflt_name hE]; rfl
  | guard th vis scope =>
    rw [EndSym.cpp, EndSym.form, Form.text, showPath_snoc E (.spc (.guard th 0)) scope _ (by simp [Nm.cpp, Spc.stem, Spc.rest, guardName]), forText_nil, List.append_nil]; rfl

/-! ### Their endings -/

theorem nms_last (E : Env) (p : Path) (x : Nm) : ∃ r, nmText E (p.nms ++ [x]) = r ++ x.cpp E := by
  rw [nmText, List.map_append, List.map_cons, List.map_nil]
  exact join_last

theorem Head.seg_gl {E : Env} {key : Text} {h : Head} (hn : h.isName = true) (hp : h.plain key = true) : GL (h.seg.cpp E) := by
  cases h with
  | id s =>
    simp only [Head.plain] at hp
    rw [Head.seg, Seg.cpp]
    cases hl : s.getLast? with
    | none => rw [List.getLast?_eq_none_iff] at hl; exact absurd hl (ident_ne hp)
    | some c =>
      have := ident_idc hp c (List.mem_of_getLast? hl)
      refine ⟨c, hl, ?_, ?_⟩ <;> rintro rfl <;> exact absurd this (by decide)
  | tm s as => rw [Head.seg, Seg.cpp]; exact GL.ends _ (by decide)
  | _ => simp [Head.isName] at hn

theorem Decl.gl {E : Env} (hE : E.flags = Flags.default) {key : Text} {d : Decl} (h : d.plain key = true) : GL (d.phrase.text E) := by
  cases d with
  | var st name scope ty =>
    simp only [Decl.plain, Bool.and_eq_true] at h
    have e : (Path.cons name.seg scope).nms = scope.nms ++ [.seg name.seg] := by simp [Path.nms, Path.segs]
    rw [Decl.phrase, Phrase.text, typed, Tl.mid, e]
    obtain ⟨r, hr⟩ := nms_last E scope (.seg name.seg)
    rw [hr]
    exact GL.append (GL.ext (GL.append (GL.append (Head.seg_gl h.1.1.1.2 h.1.1.2))) (Ty.right_gl hE ty))
  | fn k name scope s =>
    cases s with
    | mk cc ret ps va ne =>
      rw [Decl.phrase, Phrase.text, typed, Tl.mid]
      exact GL.append (GL.ext (GL.append (FnP.gl hE _ _)) (Ty.right_gl hE ret))
  | structor dt targs k s scope cc ps va ne => rw [Decl.phrase, Phrase.text]; exact FnP.gl hE _ _
  | conv targs k cls s =>
    cases s with
    | mk cc ret ps va ne =>
      rw [Decl.phrase, Phrase.text, typed, Tl.mid]
      exact GL.append (GL.ext (GL.append (FnP.gl hE _ _)) (Ty.right_gl hE ret))

/-- Names that make a symbol of their own. -/
def Spc.isSym : Spc → Bool
  | .desc | .initVar .. | .initName .. => false
  | _ => true

theorem Spc.notName (E : Env) {x : Spc} (h : x.isSym = true) (r : Text) : NotName (r ++ (x.stem ++ x.rest E)) := by
  cases x with
  | table t => cases t <;> (rw [show ∀ t, Spc.rest E (.table t) = [] from fun _ => rfl, List.append_nil]; exact NotName.ends (by decide) (by decide))
  | base nv vb vt fl =>
    intro p e
    rw [Spc.rest] at e
    simp only [← List.append_assoc] at e
    have e2 : p ++ c!"Name'" = (p ++ c!"Nam") ++ c!"e'" := by rw [List.append_assoc]; rfl
    rw [e2] at e
    exact absurd (List.append_inj' e rfl).2 (by decide)
  | array => rw [show Spc.rest E .array = [] from rfl, List.append_nil]; exact NotName.ends (by decide) (by decide)
  | hier => rw [show Spc.rest E .hier = [] from rfl, List.append_nil]; exact NotName.ends (by decide) (by decide)
  | vcall n =>
    rw [Spc.rest]
    exact (GL.append (GL.append (GL.append (GL.of_dec (by decide))))).notName
  | guard th n =>
    by_cases hn : n = 0
    · rw [Spc.rest, if_pos hn, List.append_nil]
      cases th <;> (rw [Spc.stem]; exact NotName.ends (by decide) (by decide))
    · rw [Spc.rest, if_neg hn]
      exact (GL.append (GL.append (GL.append (GL.append (GL.of_dec (by decide)))))).notName
  | desc | initVar | initName => simp [Spc.isSym] at h

theorem named_ok {E : Env} {key : Text} {x : NPre} {cls target : Path} {s : Spc} (hx : x.Ok) (hc : cls.plain key = true) (hs : s.plain key = true)
    (hy : s.isSym = true) (ht : target.plain key = true) (hg : target = .nil ∨ ∃ t, s = .table t) : (Form.named x (cls.nms ++ [.spc s]) target).Ok E key := by
  refine ⟨hx, ⟨by simp, ?_, ?_⟩, ht, ?_, ?_⟩
  · intro y hy
    simp only [List.mem_append, List.mem_singleton] at hy
    rcases hy with hy | rfl
    · exact Path.plain_nms hc y hy
    · exact hs
  · intro y hy
    simp only [List.mem_append, List.mem_singleton] at hy
    rcases hy with hy | rfl
    · simp only [Path.nms, List.mem_map] at hy
      obtain ⟨s, -, rfl⟩ := hy
      rfl
    · rfl
  · intro y hy
    simp only [List.mem_append, List.mem_singleton] at hy
    rcases hy with hy | rfl
    · simp only [Path.nms, List.mem_map] at hy
      obtain ⟨s, -, rfl⟩ := hy
      exact forText_stop E target
    · rcases hg with rfl | ⟨t, rfl⟩
      · have st := forText_stop E .nil
        cases s with
        | guard => exact ⟨st, by simp [forText_nil]⟩
        | _ => exact st
      · exact forText_stop E target
  · cases target with
    | nil =>
      rw [forText_nil, List.append_nil]
      obtain ⟨r, hr⟩ := nms_last E cls (.spc s)
      rw [hr, Nm.cpp, ← List.append_assoc]
      exact Spc.notName E hy _
    | cons t p =>
      rw [forText]
      simp only [Path.isNil, Bool.false_eq_true, if_false]
      exact (GL.append (GL.append (GL.append (GL.append (GL.of_dec (by decide)))))).notName

theorem initForm_ok {E : Env} (hE : E.flags = Flags.default) {key : Text} {x : Spc} (hx : x.plain key = true) (k : Kind) {s : Sig} (hs : s.plain key = true) :
    (initForm x k s).Ok E key := by
  obtain ⟨cc, ret, ps, va, ne⟩ := s
  simp only [Sig.plain, Bool.and_eq_true] at hs
  refine ⟨⟨hs.1.2, ⟨hs.1.1, by simp, ?_, hs.2, by simp⟩⟩, ?_⟩
  · intro y hy
    simp only [List.mem_singleton] at hy
    rw [hy]; exact hx
  · rw [Phrase.text, typed, Tl.mid]
    exact (GL.append (GL.append (GL.ext (GL.append (FnP.gl hE _ _)) (Ty.right_gl hE ret)))).notName

theorem Sym.form_ok {E : Env} (hE : E.flags = Flags.default) {key : Text} {y : Sym} (h : y.plain key = true) : y.form.Ok E key := by
  cases y with
  | decl d => exact ⟨Decl.phrase_ok h, (GL.append (Decl.gl hE h)).notName⟩
  | table t cls c v target =>
    simp only [Sym.plain, Bool.and_eq_true] at h
    exact named_ok trivial h.1 rfl rfl h.2 (.inr ⟨t, rfl⟩)
  | baseDescriptor nv vb vt fl cls => exact named_ok trivial h rfl rfl rfl (.inl rfl)
  | baseArray cls => exact named_ok trivial h rfl rfl rfl (.inl rfl)
  | hierarchy cls => exact named_ok trivial h rfl rfl rfl (.inl rfl)
  | vcall cls n cc =>
    simp only [Sym.plain, Bool.and_eq_true] at h
    exact named_ok h.1 h.2 rfl rfl rfl (.inl rfl)
  | guard th vis scope n =>
    simp only [Sym.plain, Bool.and_eq_true] at h
    exact named_ok trivial h.2 rfl rfl rfl (.inl rfl)
  | initVar dt st name scope ty k s =>
    simp only [Sym.plain, Bool.and_eq_true] at h
    exact initForm_ok (x := .initVar dt (.var st name scope ty)) hE h.1 k h.2
  | initName dt name scope k s =>
    simp only [Sym.plain, Bool.and_eq_true] at h
    refine initForm_ok hE ?_ k h.2
    simp [Spc.plain, Path.isNil, Path.plain, Seg.plain, h.1.1, h.1.2]

theorem EndSym.form_ok {E : Env} (hE : E.flags = Flags.default) {key : Text} {y : EndSym} (h : y.plain key = true) : y.form.Ok E key := by
  cases y with
  | typeDescriptor t =>
    refine ⟨⟨h, ⟨by simp, ?_, ?_⟩⟩, ?_⟩
    · intro y hy; simp only [List.mem_singleton] at hy; rw [hy]; rfl
    · intro y hy; simp only [List.mem_singleton] at hy; rw [hy]; rfl
    · rw [Phrase.text, typed, Tl.mid]
      rcases Ty.right_gl hE t with h | h
      · rw [h, List.append_nil, ← List.append_assoc, ← List.append_assoc]
        exact NotName.ends (y := nmText E [.spc .desc]) (by simp [nmText, join, Nm.cpp, Spc.stem, Spc.rest]) (by simp [nmText, join, Nm.cpp, Spc.stem, Spc.rest])
      · exact (GL.append (GL.append (GL.append h))).notName
  | typeName t => exact h
  | guard th vis scope =>
    simp only [EndSym.plain, Bool.and_eq_true] at h
    exact named_ok trivial h.2 rfl rfl rfl (.inl rfl)

/-! ### They are read back -/

section
variable {E : Env} (hE : E.flags = Flags.default) {key : Text}
include hE

theorem snoc_rd {cls : Path} (hc : cls.plain key = true) {s : Spc} (h : s.plain key = true) (hs : s.isSym = true) : NmsRd E key (cls.nms ++ [.spc s]) := by
  intro y hy
  simp only [List.mem_append, List.mem_singleton] at hy
  rcases hy with hy | rfl
  · exact nms_rd (Path.rds hE cls hc) y hy
  · refine spc_rd hE h ?_ ?_ <;> rintro dt d rfl <;> simp [Spc.isSym] at hs

theorem initForm_rd {x : Spc} (hx : NmRd E key (.spc x)) (k : Kind) {s : Sig} (hs : s.plain key = true) : (initForm x k s).Rd E key := by
  have h := Sig.rdParts hE s hs
  obtain ⟨cc, ret, ps, va, ne⟩ := s
  refine ⟨h.1, ?_, h.2, by simp⟩
  intro y hy
  simp only [List.mem_singleton] at hy
  rw [hy]; exact hx

omit hE in
theorem nil_rd : NmsRd E key (Path.nms .nil) := by intro y hy; simp [Path.nms, Path.segs] at hy

theorem Sym.form_rd {y : Sym} (h : y.plain key = true) : y.form.Rd E key := by
  cases y with
  | decl d => exact Decl.rd hE d h
  | table t cls c v target =>
    simp only [Sym.plain, Bool.and_eq_true] at h
    exact ⟨snoc_rd hE h.1 rfl rfl, nms_rd (Path.rds hE target h.2)⟩
  | baseDescriptor nv vb vt fl cls => exact ⟨snoc_rd hE h rfl rfl, nil_rd⟩
  | baseArray cls => exact ⟨snoc_rd hE h rfl rfl, nil_rd⟩
  | hierarchy cls => exact ⟨snoc_rd hE h rfl rfl, nil_rd⟩
  | vcall cls n cc =>
    simp only [Sym.plain, Bool.and_eq_true] at h
    exact ⟨snoc_rd hE h.2 rfl rfl, nil_rd⟩
  | guard th vis scope n =>
    simp only [Sym.plain, Bool.and_eq_true] at h
    exact ⟨snoc_rd hE h.2 rfl rfl, nil_rd⟩
  | initVar dt st name scope ty k s =>
    simp only [Sym.plain, Bool.and_eq_true] at h
    refine initForm_rd hE (spc_rd (x := .initVar dt (.var st name scope ty)) hE h.1 (fun dt' d e => ?_) (fun dt' p e => by simp at e)) k h.2
    injection e with _ e
    rw [← e]
    exact decl_read hE h.1 (Decl.rd hE _ h.1)
  | initName dt name scope k s =>
    simp only [Sym.plain, Bool.and_eq_true] at h
    have hp : (Path.cons (.id name) scope).plain key = true := by simp [Path.plain, Seg.plain, h.1.1, h.1.2]
    refine initForm_rd hE (spc_rd hE (by simp [Spc.plain, Path.isNil, hp]) (fun dt' d e => by simp at e) (fun dt' p e => ?_)) k h.2
    injection e with _ e
    rw [← e]
    exact nms_rd (Path.rds hE _ hp)

theorem EndSym.form_rd {y : EndSym} (h : y.plain key = true) : y.form.Rd E key := by
  cases y with
  | typeDescriptor t =>
    refine ⟨Ty.parts hE t h, ?_⟩
    intro y hy
    simp only [List.mem_singleton] at hy
    rw [hy]
    exact spc_rd hE rfl (by simp) (by simp)
  | typeName t => trivial
  | guard th vis scope =>
    simp only [EndSym.plain, Bool.and_eq_true] at h
    exact ⟨snoc_rd hE h.2 rfl rfl, nil_rd⟩

end

/-! ### The forms of different symbols are different -/

theorem Head.nm_spc (h : Head) (x : Spc) : h.nm ≠ .spc x := by
  cases h with
  | op o ta => cases ta <;> simp [Head.nm]
  | _ => simp [Head.nm]

theorem decl_init {d : Decl} {x : Spc} {k : Kind} {s : Sig} : Form.phrase d.pre d.phrase ≠ initForm x k s := by
  obtain ⟨cc, ret, ps, va, ne⟩ := s
  intro e
  simp only [initForm, Form.phrase.injEq] at e
  replace e := e.2
  cases d with
  | var => simp [Decl.phrase] at e
  | fn k' name scope s' =>
    cases s'
    simp only [Decl.phrase, Phrase.ty.injEq, Tl.fnD.injEq, FnP.mk.injEq] at e
    have e := e.2.2.1
    exact Head.nm_spc name x (by simpa using (List.append_inj' (s₁ := scope.nms) (t₁ := [name.nm]) (s₂ := []) (t₂ := [.spc x]) e rfl).2)
  | structor => simp [Decl.phrase] at e
  | conv ta k cls s => cases s; simp [Decl.phrase] at e

theorem decl_desc {d : Decl} {x : Pre} {t : Ty} : Form.phrase d.pre d.phrase ≠ .phrase x (.ty t (.var [.spc .desc])) := by
  intro e
  simp only [Form.phrase.injEq] at e
  replace e := e.2
  cases d with
  | var st name scope ty =>
    simp only [Decl.phrase, Phrase.ty.injEq, Tl.var.injEq] at e
    have h : Nm.spc .desc ∈ (Path.cons name.seg scope).nms := by rw [e.2]; simp
    simp [Path.nms] at h
  | fn k' name scope s' => cases s'; simp [Decl.phrase] at e
  | structor => simp [Decl.phrase] at e
  | conv ta k cls s => cases s; simp [Decl.phrase] at e

theorem init_desc {y : Spc} {k : Kind} {s : Sig} {x : Pre} {t : Ty} : initForm y k s ≠ .phrase x (.ty t (.var [.spc .desc])) := by
  obtain ⟨cc, ret, ps, va, ne⟩ := s
  simp [initForm]

theorem init_named {y : Spc} {k : Kind} {s : Sig} {x : NPre} {l : List Nm} {t : Path} : initForm y k s ≠ .named x l t := by
  obtain ⟨cc, ret, ps, va, ne⟩ := s
  simp [initForm]

theorem init_tname {y : Spc} {k : Kind} {s : Sig} {t : Ty} : initForm y k s ≠ .tname t := by
  obtain ⟨cc, ret, ps, va, ne⟩ := s
  simp [initForm]

theorem init_inj {x x' : Spc} {k k' : Kind} {s s' : Sig} (e : initForm x k s = initForm x' k' s') : x = x' ∧ k = k' ∧ s = s' := by
  obtain ⟨cc, ret, ps, va, ne⟩ := s
  obtain ⟨cc', ret', ps', va', ne'⟩ := s'
  simp only [initForm, Form.phrase.injEq, Phrase.ty.injEq, Tl.fnD.injEq, FnP.mk.injEq, List.cons.injEq, Nm.spc.injEq, and_true] at e
  obtain ⟨h1, h2, h3, h4, h5, h6, h7, h8, h9⟩ := e
  exact ⟨h4, Kind.inj h1 h5 h9, by rw [h2, h3, h6, h7, h8]⟩

theorem Sym.form_inj {key : Text} {y z : Sym} (h : y.plain key = true) (h' : z.plain key = true) (e : y.form = z.form) : y = z := by
  have sp : ∀ {p q : Path} {x y : Spc}, p.nms ++ [.spc x] = q.nms ++ [.spc y] → p = q ∧ x = y := by
    intro p q x y h
    obtain ⟨h1, h2⟩ := path_snoc_inj h
    exact ⟨h1, by injection h2⟩
  cases y <;> cases z <;> simp only [Sym.form] at e
  case decl.decl d d' =>
    injection e with e1 e2
    rw [Decl.inj h h' e1 e2]
  case initVar.initVar =>
    obtain ⟨h1, h2, h3⟩ := init_inj e
    injection h1 with h1 h4
    injection h4 with h4 h5 h6 h7
    rw [h1, h2, h3, h4, h5, h6, h7]
  case initName.initName =>
    obtain ⟨h1, h2, h3⟩ := init_inj e
    injection h1 with h1 h4
    injection h4 with h4 h5
    injection h4 with h4
    rw [h1, h2, h3, h4, h5]
  case initVar.initName => have := (init_inj e).1; simp at this
  case initName.initVar => have := (init_inj e).1; simp at this
  case guard.guard th v scope n th' v' scope' n' =>
    injection e with e1 e2 e3
    obtain ⟨h1, h2⟩ := sp e2
    injection h2 with h2 h3
    simp only [Sym.plain, Bool.and_eq_true] at h h'
    rw [h1, h2, h3, h.1.1, h'.1.1]
  all_goals first
    | exact absurd e decl_init
    | exact absurd e.symm decl_init
    | exact absurd e init_named
    | exact absurd e.symm init_named
    | (simp only [reduceCtorEq] at e; done)
    | (injection e with e1 e2 e3
       obtain ⟨h1, h2⟩ := sp e2
       simp_all)

theorem EndSym.form_inj {key : Text} {y z : EndSym} (h : y.plain key = true) (h' : z.plain key = true) (e : y.form = z.form) : y = z := by
  cases y <;> cases z <;> simp only [EndSym.form, reduceCtorEq] at e
  case typeDescriptor.typeDescriptor => injection e with e1 e2; injection e2 with e2; rw [e2]
  case typeName.typeName => injection e with e; rw [e]
  case guard.guard =>
    injection e with e1 e2 e3
    obtain ⟨h1, h2⟩ := path_snoc_inj e2
    injection h2 with h2
    injection h2 with h2
    simp only [EndSym.plain, Bool.and_eq_true] at h h'
    rw [h1, h2, h.1, h'.1]

theorem form_cross {key : Text} {y : Sym} {z : EndSym} (h : y.plain key = true) : y.form ≠ z.form := by
  have sp : ∀ {p q : Path} {x y : Spc}, p.nms ++ [.spc x] = q.nms ++ [.spc y] → x = y := by
    intro p q x y h
    have := (path_snoc_inj h).2
    injection this
  intro e
  cases y <;> cases z <;> simp only [Sym.form, EndSym.form, reduceCtorEq] at e
  case guard.guard =>
    injection e with e1 e2 e3
    have h2 := sp e2
    injection h2 with _ h2
    simp [Sym.plain, h2] at h
  all_goals first
    | exact absurd e decl_desc
    | exact absurd e init_desc
    | exact absurd e init_named
    | exact absurd e init_tname
    | (injection e with e1 e2 e3
       have h1 := sp e2
       simp at h1; done)

section
variable {E : Env} (hE : E.flags = Flags.default) {key : Text}
include hE

theorem Sym.cpp_inj {y z : Sym} (h : y.plain key = true) (h' : z.plain key = true) (e : y.cpp E = z.cpp E) : y = z := by
  rw [Sym.text_eq hE h, Sym.text_eq hE h'] at e
  exact Sym.form_inj h h' (Form.read hE (Sym.form_ok hE h) (Sym.form_ok hE h') (Sym.form_rd hE h) e)

theorem EndSym.cpp_inj {y z : EndSym} (h : y.plain key = true) (h' : z.plain key = true) (e : y.cpp E = z.cpp E) : y = z := by
  rw [EndSym.text_eq hE, EndSym.text_eq hE] at e
  exact EndSym.form_inj h h' (Form.read hE (EndSym.form_ok hE h) (EndSym.form_ok hE h') (EndSym.form_rd hE h) e)

theorem cpp_cross {y : Sym} {z : EndSym} (h : y.plain key = true) (h' : z.plain key = true) : y.cpp E ≠ z.cpp E := by
  intro e
  rw [Sym.text_eq hE h, EndSym.text_eq hE] at e
  exact form_cross h (Form.read hE (Sym.form_ok hE h) (EndSym.form_ok hE h') (Sym.form_rd hE h) e)

end

/-! ### The names that a mangler remembers -/

theorem Sym.keys_plain {key : Text} {y : Sym} (h : y.plain key = true) : ∀ s ∈ y.keys, s.plain key = true := by
  intro s hs
  cases y with
  | decl d => exact Decl.keys_plain d h s hs
  | table t cls c v target =>
    simp only [Sym.plain, Bool.and_eq_true] at h
    simp only [Sym.keys, List.mem_append] at hs
    rcases hs with hs | hs
    · exact Path.keys_plain cls h.1 s hs
    · exact Path.keys_plain target h.2 s hs
  | baseDescriptor nv vb vt fl cls => exact Path.keys_plain cls h s hs
  | baseArray cls => exact Path.keys_plain cls h s hs
  | hierarchy cls => exact Path.keys_plain cls h s hs
  | vcall cls n cc =>
    simp only [Sym.plain, Bool.and_eq_true] at h
    exact Path.keys_plain cls h.2 s hs
  | guard th vis scope n =>
    simp only [Sym.plain, Bool.and_eq_true] at h
    exact Path.keys_plain scope h.2 s hs
  | initVar dt st name scope ty k sg =>
    simp only [Sym.plain, Bool.and_eq_true] at h
    simp only [Sym.keys, List.mem_append] at hs
    rcases hs with hs | hs
    · exact Decl.keys_plain _ h.1 s hs
    · exact Sig.keys_plain sg h.2 s hs
  | initName dt name scope k sg =>
    simp only [Sym.plain, Bool.and_eq_true] at h
    refine Decl.keys_plain (.fn k (.id name) scope sg) ?_ s hs
    simp [Decl.plain, Head.plain, h.1.1, h.1.2, h.2]

theorem EndSym.keys_plain {key : Text} {y : EndSym} (h : y.plain key = true) : ∀ s ∈ y.keys, s.plain key = true := by
  intro s hs
  cases y with
  | typeDescriptor t => exact Ty.keys_plain t h s hs
  | typeName t => exact Ty.keys_plain t h s hs
  | guard th vis scope =>
    simp only [EndSym.plain, Bool.and_eq_true] at h
    exact Path.keys_plain scope h.2 s hs

end Undname.Spec.Cxx
