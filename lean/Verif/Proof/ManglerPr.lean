/-
  The trees of the declarations of `Spec/Mangler.lean`, and what they print.
-/
import Verif.Proof.Named
import Verif.Spec.Mangler

namespace Undname
open Spec
namespace Spec.Cxx

/-! ### Trees -/

def PK.cv (k : PK) (u : Bool) : CV := { c := k.c, v := k.v, r := k.restrict, u }
def PK.aff : PK → PointerAffinity
  | .star .. => .Pointer
  | .ref => .Reference
  | .rref => .RValueReference
def This.cv (q : This) : CV := { c := q.c, v := q.v, r := q.restrict, u := q.unaligned }

def Storage.cls : Storage → StorageClass
  | .member .priv => .PrivateStatic
  | .member .prot => .ProtectedStatic
  | .member .publ => .PublicStatic
  | .global => .Global
  | .localStatic => .FunctionLocalStatic

def Adj.kind : Adj → AdjKind
  | .static _ => .static
  | .disp .. => .disp
  | .dispex .. => .dispex

def Adj.adjust : Adj → Adjust
  | .static n => .adjustor n
  | .disp d n => .vtordisp d n
  | .dispex a b d n => .vtordispex a b d n

/-- The class of a function. -/
def Kind.fk : Kind → FnKind
  | .free ec => { externC := ec }
  | .static a => { access := some a, isStatic := true }
  | .member a v _ => { access := some a, isVirtual := v }
  | .thunk a adj _ => { access := some a, isVirtual := adj.virtual a }

/-- The tree of a function from its signature. -/
def Kind.wrap (k : Kind) (f : Spec.Sig) (r ps : T) : T :=
  match k with
  | .thunk _ adj _ => .thunk f adj.adjust r ps
  | _ => .sig f r ps

/-- The attributes of a function. -/
def fsig (cc : Char) (vr ne : Bool) (k : FnKind) (q : This) : Spec.Sig :=
  { kind := k, cv := q.cv, conv := convOf cc, ref := q.ref, variadic := vr, isNoexcept := ne }

def Sig.fsig (s : Sig) (k : FnKind) (q : This) : Spec.Sig := match s with | .mk cc _ _ vr ne => Cxx.fsig cc vr ne k q

section
variable (E : Env)
mutual
def Ty.tree : Ty → T
  | .prim k c v => .prim { c, v } k
  | .tag k p c v => .tag { c, v } k (.qname p.tree)
  | .ptr k u to => .ptr (k.cv u) k.aff .nil to.tree
  | .fptr k s => .ptr (k.cv false) k.aff .nil (.sig (s.fsig {} {}) s.retT s.parT)
  | .aptr k c v dims el => .ptr (k.cv false) k.aff .nil (.array { c, v } dims el.tree)
  | .mptr k u cls to => .ptr (k.cv u) .Pointer (T.one (.qname cls.tree)) to.tree
  | .mfptr k cls q s => .ptr (k.cv false) .Pointer (T.one (.qname cls.tree)) (.sig (s.fsig {} q) s.retT s.parT)
def Sig.retT : Sig → T
  | .mk _ ret _ _ _ => ret.tree.one
def Sig.parT : Sig → T
  | .mk _ _ ps vr _ => ps.treeOf vr
def Tys.treeOf : Tys → Bool → T
  | .nil, variadic => if variadic then T.one (.arr .nil) else .nil
  | .cons t ts, _ => T.one (.arr (.cons t.tree ts.tree))
def Tys.tree : Tys → T
  | .nil => .nil
  | .cons t ts => .cons t.tree ts.tree
def Path.tree : Path → T
  | .nil => .nil
  | .cons s p => p.tree.snoc s.tree
def Seg.tree : Seg → T
  | .id s => .named s .nil
  | .tm s as => .named s (T.one (.arr as.tree))
  | .anon _ => .named c!"`anonymous namespace'" .nil
  | .loc n d => .named ((Seg.loc n d).cpp E) .nil
def Args.tree : Args → T
  | .nil => .nil
  | .ty t as => .cons t.tree as.tree
  | .int neg n as => .cons (.int n neg) as.tree
  | .pack as => as.tree
  | .fn s as => .cons (.sig (s.fsig {} {}) s.retT s.parT) as.tree
  | .mfn q s as => .cons (.sig (s.fsig {} q) s.retT s.parT) as.tree
  | .arr c v dims el as => .cons (.array { c, v } dims el.tree) as.tree
  | .tmpl p as => .cons (.qname p.tree) as.tree
  | .addr d as => .cons (.addr true d.tree.one []) as.tree
  | .ref d as => .cons (.addr false d.tree.one []) as.tree
  | .memFn d offs as => .cons (.addr true d.tree.one offs) as.tree
  | .memData offs as => .cons (.addr false .nil offs) as.tree
def Targs.tree : Targs → T
  | .none => .nil
  | .some as => T.one (.arr as.tree)
def Head.tree : Head → T
  | .id s => .named s .nil
  | .tm s as => .named s (T.one (.arr as.tree))
  | .op o ta => .op (some o) ta.tree
  | .lit s => .lit s .nil
def Decl.tree : Decl → T
  | .var st name scope ty => .var (some st.cls) (.qname (scope.tree.snoc name.tree)) ty.tree.one
  | .fn k name scope s => .fn (.qname (scope.tree.snoc name.tree)) (k.wrap (s.fsig k.fk k.this) s.retT s.parT)
  | .structor dtor targs k s scope cc ps vr ne =>
    .fn (.qname ((scope.tree.snoc s.tree).snoc (.structor dtor s.tree.one targs.tree))) (k.wrap (Cxx.fsig cc vr ne k.fk k.this) .nil (ps.treeOf vr))
  | .conv targs k cls s => .fn (.qname (cls.tree.snoc (.conv targs.tree s.retT))) (k.wrap (s.fsig k.fk k.this) s.retT s.parT)
end

/-- The type as written without its qualifiers. -/
def Ty.core : Ty → T
  | .prim k _ _ => .prim {} k
  | .tag k p _ _ => .tag {} k (.qname (p.tree E))
  | t => t.tree E

end

/-! ### Contexts -/

/-- A text after which a word needs no blank. -/
def Ctx (E : Env) (w : Text) : Prop := sp E w = w

theorem sp_ctx {E : Env} {w : Text} (h : Ctx E w) (L : Text) : sp E (w ++ L) = w ++ sp E L := by
  by_cases hL : L = []
  · subst hL; rw [List.append_nil, h]; simp [sp]
  · exact sp_append E w L hL

theorem Ctx.nil (E : Env) : Ctx E [] := by simp [Ctx, sp]

theorem Ctx.append {E : Env} {w L : Text} (h : Ctx E w) (hL : sp E L = L) : Ctx E (w ++ L) := by
  unfold Ctx; rw [sp_ctx h, hL]

theorem Ctx.of {E : Env} {L : Text} (hn : L ≠ []) (hL : sp E L = L) (w : Text) : Ctx E (w ++ L) := by
  unfold Ctx; rw [sp_append E w L hn, hL]

theorem Ctx.blank (E : Env) (w : Text) : Ctx E (w ++ c!" ") := sp_blank E w
theorem Ctx.paren (E : Env) (w : Text) : Ctx E (w ++ c!"(") := Ctx.of (by decide) rfl w
theorem Ctx.comma (E : Env) (w : Text) : Ctx E (w ++ c!", ") := Ctx.of (by decide) rfl w
theorem Ctx.angle (E : Env) (w : Text) : Ctx E (w ++ c!"<") := Ctx.of (by decide) rfl w
theorem Ctx.amp (E : Env) (w : Text) : Ctx E (w ++ c!"&") := Ctx.of (by decide) rfl w
theorem Ctx.brace (E : Env) (w : Text) : Ctx E (w ++ c!"{") := Ctx.of (by decide) rfl w
theorem Ctx.tick (E : Env) (w : Text) : Ctx E (w ++ c!"`") := Ctx.of (by decide) rfl w

/-- A text that ends in a blank, or nothing. -/
def Blank (t : Text) : Prop := t = [] ∨ ∃ z, t = z ++ c!" "

theorem Blank.append {a b : Text} (ha : Blank a) (hb : Blank b) : Blank (a ++ b) := by
  rcases hb with rfl | ⟨z, rfl⟩
  · simpa using ha
  · exact .inr ⟨a ++ z, by simp⟩

theorem Blank.part {a : Text} (h : Blank a) (b : Bool) : Blank (part b a) := by
  cases b
  · exact .inl rfl
  · exact h

theorem Blank.of (z : Text) : Blank (z ++ c!" ") := .inr ⟨z, rfl⟩

theorem Ctx.add {E : Env} {w b : Text} (h : Ctx E w) (hb : Blank b) : Ctx E (w ++ b) := by
  rcases hb with rfl | ⟨z, rfl⟩
  · simpa using h
  · rw [← List.append_assoc]; exact Ctx.blank E _

/-! ### Attributes -/

theorem part_if (b : Bool) (t : Text) : (if b then t else []) = part b t := rfl
theorem part_true (t : Text) : part true t = t := rfl
theorem part_false (t : Text) : part false t = [] := rfl

theorem PK.out (k : PK) (E : Env) (u : Bool) : affName k.aff ++ (k.cv u).sep E = k.cpp E := by
  cases k with
  | star c v r =>
    simp only [PK.cv, PK.aff, PK.c, PK.v, PK.restrict, PK.cpp, CV.sep, CV.after, CV.words, shows.ms]
    cases E.flags.no_ms_keywords <;> cases c <;> cases v <;> cases r <;> simp [words, join, affName, part]
  | ref => rfl
  | rref => rfl

theorem PK.cpp_ne (k : PK) (E : Env) : k.cpp E ≠ [] := by cases k <;> simp [PK.cpp]

theorem This.out (q : This) (E : Env) : q.cv.this E = q.cpp E := by
  obtain ⟨c, v, r, u, rf⟩ := q
  simp only [CV.this, This.cv, This.cpp, shows.ms]
  cases E.flags.no_ms_keywords <;> cases c <;> cases v <;> cases r <;> cases u <;> simp [part, Spec.Ty.cvAfter]

theorem This.ref_out (q : This) : refName q.ref = q.refCpp := by
  obtain ⟨c, v, r, u, rf⟩ := q
  cases rf with
  | none => rfl
  | some x => cases x <;> rfl

theorem cvAfter_eq (E : Env) (c v : Bool) : CV.after E { c, v } = Spec.Ty.cvAfter c v := Spec.Ty.after_eq E c v

theorem Storage.out (st : Storage) (E : Env) : storageText E (some st.cls) = st.cpp E := by
  cases st with
  | member a => cases a <;> simp [storageText, storageAccess, Storage.cls, Storage.cpp, shows.access, shows.member, part]
  | _ => rfl

theorem accessName_blank (a : Access) : Blank (accessName a) := by
  cases a
  · exact .inr ⟨c!"private:", rfl⟩
  · exact .inr ⟨c!"protected:", rfl⟩
  · exact .inr ⟨c!"public:", rfl⟩

theorem Storage.blank (st : Storage) (E : Env) : Blank (st.cpp E) := by
  cases st with
  | member a => exact (accessName_blank a).part _ |>.append (Blank.part (.inr ⟨c!"static", rfl⟩) _)
  | _ => exact .inl rfl

theorem Adj.out (a : Adj) : a.adjust.text = a.cpp := by cases a <;> rfl

theorem conv_out {cc : Char} (h : (convWord cc).isSome = true) (E : Env) :
    ∃ k, convOf cc = some k ∧ convName E k = convCpp E cc ∧ convCpp E cc ≠ [] ∧ sp E (convCpp E cc) = convCpp E cc ++ c!" " := by
  obtain ⟨conv, hc⟩ := Option.isSome_iff_exists.1 h
  unfold convCpp
  rw [hc]
  revert hc
  unfold convWord
  split <;> intro h <;> first | cases h | skip
  all_goals
    refine ⟨_, rfl, ?_⟩
    simp only [convName, msWord]
    cases E.flags.no_leading_underscores <;> exact ⟨rfl, by decide, rfl⟩

/-! ### Functions -/

/-- A parameter list. -/
theorem paramsOut_eq {E : Env} {f : Spec.Sig} {P : Pr} {l : List Text} {vr : Bool} (hf : f.variadic = vr)
    (hs : P.some = !(l.isEmpty && !vr)) (ho : P.some = true → ∀ w, Ctx E w → P.out w = w ++ join c!", " l) (hl : ∀ a ∈ l, a ≠ [])
    (hv : variadicOk l vr) (w : Text) : paramsOut f P w = w ++ paramsCpp l vr := by
  unfold paramsOut paramsCpp
  unfold variadicOk at hv
  have hc := Ctx.paren E w
  simp only [hf]
  cases l with
  | nil =>
    cases vr with
    | true =>
      simp only [List.isEmpty_nil, Bool.not_true, Bool.and_false, Bool.not_false] at hs
      simp [hs, ho hs _ hc, join]
    | false =>
      simp only [List.isEmpty_nil, Bool.not_false, Bool.and_true, Bool.not_true] at hs
      simp [hs]
  | cons a l =>
    have hs' : P.some = true := by rw [hs]; rfl
    have hj : join c!", " (a :: l) ≠ [] := by
      rw [join_cons]; simp [hl a (by simp)]
    simp only [hs', ho hs' _ hc, if_true, List.isEmpty_cons]
    cases vr with
    | false => simp
    | true =>
      have h1 : (w ++ c!"(" ++ join c!", " (a :: l)).getLast? ≠ some '(' := by
        intro h
        rw [List.getLast?_append] at h
        refine hv rfl ?_
        rw [List.getLast?_eq_some_getLast hj] at h ⊢
        simpa using h
      rw [if_pos rfl, if_neg (by simpa using h1)]
      simp

/-- The words of a kind of function. -/
def kindCpp (E : Env) (k : FnKind) : Text :=
  part (shows.access E) (match k.access with | some a => accessName a | none => []) ++
  part (shows.member E) (part k.isStatic c!"static " ++ part k.isVirtual c!"virtual " ++ part k.externC c!"extern \"C\" ")

theorem kindCpp_blank (E : Env) (k : FnKind) : Blank (kindCpp E k) := by
  refine Blank.append (Blank.part ?_ _) (Blank.part (Blank.append (Blank.append ?_ ?_) ?_) _)
  · cases k.access
    · exact .inl rfl
    · exact accessName_blank _
  · exact Blank.part (.inr ⟨c!"static", rfl⟩) _
  · exact Blank.part (.inr ⟨c!"virtual", rfl⟩) _
  · exact Blank.part (.inr ⟨c!"extern \"C\"", rfl⟩) _

/-- What prints the result type: the type, or nothing. -/
def RetPr (E : Env) (R : Pr) (L : Option Text) : Prop :=
  match L with
  | some L => R.some = true ∧ ∀ w, Ctx E w → R.pre false w = w ++ L
  | none => R.some = false

def retCpp (E : Env) (L : Option Text) : Text := match L with | some L => part (shows.ret E) (L ++ c!" ") | none => []

theorem retCpp_blank (E : Env) (L : Option Text) : Blank (retCpp E L) := by
  cases L with
  | none => exact .inl rfl
  | some L => exact Blank.part (.of L) _

/-- The result type of a pointer to a function. -/
theorem sigPre_ptr {E : Env} {f : Spec.Sig} (hk : f.kind = {}) {R : Pr} {L : Text} (hR : RetPr E R (some L)) (w : Text) (hw : Ctx E w) :
    sigPre E f R true w = w ++ part (shows.ptrRet E) (L ++ c!" ") := by
  unfold sigPre
  by_cases h : E.flags.no_return_type = true <;> simp [hk, hR.1, hR.2 w hw, shows.ptrRet, part, h]

/-- Kind, result type and convention of a function. -/
theorem sigPre_fn {E : Env} {f : Spec.Sig} {R : Pr} {L : Option Text} (hR : RetPr E R L)
    {cc : Char} (hc : (convWord cc).isSome = true) (hf : f.conv = convOf cc) (w : Text) (hw : Ctx E w) :
    sigPre E f R false w = w ++ (kindCpp E f.kind ++ retCpp E L ++ part (shows.conv E) (convCpp E cc)) := by
  obtain ⟨kc, h1, h2, _⟩ := conv_out hc E
  have e1 : ∀ w : Text, Ctx E w → (if (!E.flags.no_return_type && (false || !E.flags.name_only) && R.some) = true then R.pre false w ++ c!" " else w) =
      w ++ retCpp E L := by
    intro w hw
    cases L with
    | none => rw [show R.some = false from hR]; simp [retCpp]
    | some L =>
      rw [hR.1, hR.2 w hw]
      by_cases h : E.flags.no_return_type = true <;> by_cases h' : E.flags.name_only = true <;> simp [retCpp, part, shows.ret, h, h']
  have e0 : w ++ (if (!E.flags.no_access_specifier && !E.flags.name_only) = true then (match f.kind.access with | some a => accessName a | none => []) else []) ++
      (if (!E.flags.no_member_type && !E.flags.name_only) = true then
        (if f.kind.isStatic then c!"static " else []) ++ (if f.kind.isVirtual then c!"virtual " else []) ++
        (if f.kind.externC then c!"extern \"C\" " else []) else []) = w ++ kindCpp E f.kind := by
    rw [List.append_assoc]; rfl
  have hw1 := hw.add (kindCpp_blank E f.kind)
  have hw2 := hw1.add (retCpp_blank E L)
  have e2 : sigPre E f R false w = (fun w0 : Text => (fun w1 : Text =>
      if (!false && !E.flags.no_calling_convention && !E.flags.no_ms_keywords && !E.flags.name_only) = true then
        (match f.conv with | some cc => sp E w1 ++ convName E cc | none => w1) else w1)
      (if (!E.flags.no_return_type && (false || !E.flags.name_only) && R.some) = true then R.pre false w0 ++ c!" " else w0)) (w ++ kindCpp E f.kind) := by
    rw [← e0]; rfl
  rw [e2]
  dsimp only
  rw [e1 _ hw1, hf, h1]
  dsimp only
  rw [show sp E _ = _ from hw2, h2]
  by_cases h : E.flags.no_calling_convention = true <;> by_cases h' : E.flags.no_ms_keywords = true <;> by_cases h'' : E.flags.name_only = true <;>
    simp [shows.conv, shows.ptrConv, part, h, h', h'']

/-- The blank between the convention and the name. -/
theorem sp_fn {E : Env} {w k r : Text} {cc : Char} (hc : (convWord cc).isSome = true) (hw : Ctx E w) (hk : Blank k) (hr : Blank r) :
    sp E (w ++ (k ++ r ++ part (shows.conv E) (convCpp E cc))) = w ++ (k ++ r ++ part (shows.conv E) (convCpp E cc ++ c!" ")) := by
  obtain ⟨_, _, _, h3, h4⟩ := conv_out hc E
  have hw2 : Ctx E (w ++ (k ++ r)) := hw.add (hk.append hr)
  cases shows.conv E with
  | true => simp only [part_true]; rw [← List.append_assoc, sp_append E _ _ h3, h4]; simp
  | false => unfold Ctx at hw2; simpa [part_false] using hw2

/-- What follows the name of a function. -/
theorem sigPost_eq {E : Env} {f : Spec.Sig} {R P : Pr} (fp : Bool) (hb : f.kind.bare = false) {ps rt : Text}
    (hp : ∀ w, paramsOut f P w = w ++ ps) (hr : ∀ w, R.post false w = w ++ rt) (w : Text) :
    sigPost E f R P fp w = w ++ (part (fp || shows.params E) ps ++ (part (shows.this E) (f.cv.this E) ++ noexcCpp f.isNoexcept ++
      part (shows.this E) (refName f.ref) ++ part (shows.ret E) rt)) := by
  unfold sigPost
  by_cases h : E.flags.name_only = true <;> by_cases h' : E.flags.no_this_type = true <;> by_cases h'' : E.flags.no_return_type = true <;>
    cases fp <;> simp [hb, hp, hr, shows.params, shows.this, shows.ret, noexcCpp, part, h, h', h'']

theorem snoc_seq (E : Env) (t : T) (x : T) (hx : ∃ l, t = tl l) (sep w : Text) :
    ((t.snoc x).pr E).seq sep w = (x.pr E).out (if (t.pr E).some then (t.pr E).seq sep w ++ sep else w) := by
  obtain ⟨l, rfl⟩ := hx
  rw [tl_snoc]
  have tail : ∀ (l : List T) w, ((tl (l ++ [x])).pr E).tail sep w = (x.pr E).out (((tl l).pr E).tail sep w ++ sep) := by
    intro l
    induction l with
    | nil => intro w; simp [tl, T.pr, Pr.cons, Pr.nil]
    | cons a l ih => intro w; simp only [List.cons_append, tl, T.pr, Pr.cons, ih]
  cases l with
  | nil => simp [tl, T.pr, Pr.cons, Pr.nil]
  | cons a l => simp only [List.cons_append, tl, T.pr, Pr.cons, tail, if_true]

theorem Path.tree_tl (E : Env) : (p : Path) → ∃ l, p.tree E = tl l
  | .nil => ⟨[], by simp [Path.tree, tl]⟩
  | .cons s p => by
    obtain ⟨l, h⟩ := Path.tree_tl E p
    exact ⟨l ++ [s.tree E], by rw [Path.tree, h, tl_snoc]⟩

theorem showPath_cons (s : Text) (l : List Text) (h : l ≠ []) : showPath (s :: l) = showPath l ++ c!"::" ++ s := by
  unfold showPath
  rw [List.reverse_cons]
  generalize hr : l.reverse = r
  have : r ≠ [] := by rw [← hr]; simpa using h
  cases r with
  | nil => exact absurd rfl this
  | cons a r => rw [List.cons_append, join_cons, join_cons]; simp

theorem Path.IsType.ok {E : Env} {p : Path} (h : p.IsType E) : p.Ok E := by
  cases p with
  | nil => simp [Path.IsType] at h
  | cons s p => simp only [Path.IsType] at h; rw [Path.Ok]; exact h.2

theorem Seg.cpp_ne {E : Env} {s : Seg} (h : s.Ok E) : s.cpp E ≠ [] := by
  cases s with
  | id s => rw [Seg.Ok] at h; rw [Seg.cpp]; exact h.ne
  | tm s as => simp [Seg.cpp]
  | anon k => simp [Seg.cpp]
  | loc n d => simp [Seg.cpp]

theorem Path.names_ne {E : Env} {p : Path} (h : p.IsType E) : showPath (p.names E) ≠ [] := by
  cases p with
  | nil => simp [Path.IsType] at h
  | cons s p =>
    rw [Path.IsType] at h
    rw [Path.names]
    by_cases hn : p.names E = []
    · rw [hn]; simp [showPath, join, Seg.cpp_ne h.2.1]
    · rw [showPath_cons _ _ hn]; simp

theorem Ty.left_ne {E : Env} {t : Ty} (h : t.Ok E) : t.left E ≠ [] := by
  have hk : ∀ k : PK, k.cpp E ≠ [] := fun k => k.cpp_ne E
  have hp : ∀ k, primName k ≠ [] := by intro k; cases k <;> decide
  cases t with
  | tag k p c v => rw [Ty.Ok] at h; simp [Ty.left, Path.names_ne h]
  | _ => simp [Ty.left, hk, hp]

theorem Tys.list_ne {E : Env} : (ts : Tys) → ts.Ok E → ∀ a ∈ ts.list E, a ≠ []
  | .nil, _ => by simp [Tys.list]
  | .cons t ts, h => by
    rw [Tys.Ok] at h
    intro a ha
    rw [Tys.list, List.mem_cons] at ha
    rcases ha with rfl | ha
    · simp [Ty.left_ne h.2.2.1]
    · exact Tys.list_ne ts h.2.2.2 a ha

theorem np_ptr (q : CV) (a : PointerAffinity) (c t : T) : needsParens (.ptr q a c t) = false := rfl
theorem op_ptr (E : Env) (q : CV) (a : PointerAffinity) (c t : T) (w : Text) : openParen E (.ptr q a c t) w = w := rfl
theorem np_arr (q : CV) (d : List Nat) (t : T) : needsParens (.array q d t) = true := rfl
theorem op_arr (E : Env) (q : CV) (d : List Nat) (t : T) (w : Text) : openParen E (.array q d t) w = w ++ c!"(" := rfl
theorem np_sig (f : Spec.Sig) (r p : T) : needsParens (.sig f r p) = true := rfl

theorem op_sig {E : Env} {f : Spec.Sig} {cc : Char} (hc : (convWord cc).isSome = true) (hf : f.conv = convOf cc) (r p : T) (w : Text) :
    openParen E (.sig f r p) w = w ++ (c!"(" ++ part (shows.ptrConv E) (convCpp E cc ++ c!" ")) := by
  obtain ⟨kc, h1, h2, _⟩ := conv_out hc E
  have : sp E (w ++ c!"(") = w ++ c!"(" := Ctx.paren E w
  by_cases h : E.flags.no_calling_convention = true <;> by_cases h' : E.flags.no_ms_keywords = true <;>
    simp [openParen, hf, h1, h2, this, shows.ptrConv, part, h, h']

theorem pr_sig (E : Env) (f : Spec.Sig) (r p : T) :
    (T.sig f r p).pr E = Pr.ofType (sigPre E f (r.pr E)) (sigPost E f (r.pr E) (p.pr E)) := by simp only [T.pr]
theorem pr_thunk (E : Env) (f : Spec.Sig) (adj : Adjust) (r p : T) :
    (T.thunk f adj r p).pr E = Pr.ofType (fun fp w => sigPre E f (r.pr E) fp (w ++ thunkPrefix E))
      (fun fp w => sigPost E f (r.pr E) (p.pr E) fp (w ++ adj.text)) := by simp only [T.pr]

/-- What the tree of a type prints. -/
structure TyPr (E : Env) (t : Ty) : Prop where
  some : ((t.tree E).pr E).some = true
  pre : ∀ fp w, Ctx E w → ((t.tree E).pr E).pre fp w = w ++ t.left E
  post : ∀ fp w, ((t.tree E).pr E).post fp w = w ++ t.right E
  out : ∀ w, Ctx E w → ((t.tree E).pr E).out w = w ++ (t.left E ++ t.right E)
  np : needsParens (t.tree E) = false
  op : ∀ w, openParen E (t.tree E) w = w

def Sig.result : Sig → Ty
  | .mk _ ret _ _ _ => ret
def Sig.cc : Sig → Char
  | .mk cc .. => cc

/-- What the parts of a function type print. -/
structure SigPr (E : Env) (s : Sig) : Prop where
  ret : TyPr E s.result
  cc : (convWord s.cc).isSome = true
  params : ∀ k q w, paramsOut (s.fsig k q) ((s.parT E).pr E) w = w ++ s.params E

theorem SigPr.retPr {E : Env} {s : Sig} (h : SigPr E s) : RetPr E ((s.retT E).pr E) (some (s.result.left E)) := by
  cases s
  rw [Sig.retT]
  exact ⟨rfl, fun w hw => h.ret.pre false w hw⟩

theorem SigPr.retPost {E : Env} {s : Sig} (h : SigPr E s) (w : Text) : ((s.retT E).pr E).post false w = w ++ s.result.right E := by
  cases s
  rw [Sig.retT]
  exact h.ret.post false w

theorem SigPr.retOut {E : Env} {s : Sig} (h : SigPr E s) (w : Text) (hw : Ctx E w) : ((s.retT E).pr E).out w = w ++ s.retType E := by
  cases s
  rw [Sig.retT, Sig.retType]
  exact h.ret.out w hw

theorem Sig.fsig_conv (s : Sig) (k : FnKind) (q : This) : (s.fsig k q).conv = convOf s.cc := by cases s; rfl
theorem Sig.fsig_kind (s : Sig) (k : FnKind) (q : This) : (s.fsig k q).kind = k := by cases s; rfl

/-- A function's tail. -/
theorem SigPr.postEq {E : Env} {s : Sig} (h : SigPr E s) (k : FnKind) (q : This) (hb : k.bare = false) (fp : Bool) (w : Text) :
    sigPost E (s.fsig k q) ((s.retT E).pr E) ((s.parT E).pr E) fp w = w ++ (part (fp || shows.params E) (s.params E) ++ s.right E q) := by
  rw [sigPost_eq fp (by rw [s.fsig_kind]; exact hb) (h.params k q) h.retPost]
  cases s
  simp only [Sig.fsig, Cxx.fsig, This.out, This.ref_out, Sig.right, Sig.result]

theorem SigPr.preEq {E : Env} {s : Sig} (h : SigPr E s) (k : FnKind) (q : This) (w : Text) (hw : Ctx E w) :
    sigPre E (s.fsig k q) ((s.retT E).pr E) false w = w ++ (kindCpp E k ++ s.ret E ++ part (shows.conv E) (convCpp E s.cc)) := by
  rw [sigPre_fn h.retPr h.cc (s.fsig_conv k q) w hw, s.fsig_kind]
  cases s
  simp only [Sig.ret, retCpp, Sig.result]

/-- A function type without a name. -/
theorem SigPr.typeOut {E : Env} {s : Sig} (h : SigPr E s) (q : This) (w : Text) (hw : Ctx E w) :
    ((T.sig (s.fsig {} q) (s.retT E) (s.parT E)).pr E).out w = w ++ s.type E q := by
  rw [pr_sig]
  show sigPost E _ _ _ false (sigPre E _ _ false w) = _
  rw [h.preEq {} q w hw, h.postEq {} q rfl]
  have : kindCpp E {} = [] := by simp [kindCpp, part]
  cases s
  simp [this, Sig.ret, Sig.type, Sig.cc, Sig.params, Sig.right]

/-- The target of a pointer to a function. -/
theorem SigPr.ptrPre {E : Env} {s : Sig} (h : SigPr E s) (q : This) (w : Text) (hw : Ctx E w) :
    openParen E (.sig (s.fsig {} q) (s.retT E) (s.parT E)) (sp E (((T.sig (s.fsig {} q) (s.retT E) (s.parT E)).pr E).pre true w)) = w ++ s.left E := by
  rw [op_sig h.cc (s.fsig_conv {} q), pr_sig]
  show sp E (sigPre E _ _ true w) ++ _ = _
  rw [sigPre_ptr (s.fsig_kind {} q) h.retPr w hw, show sp E _ = _ from hw.add (Blank.part (.of _) _)]
  cases s
  simp [Sig.left, Sig.result, Sig.cc]

theorem SigPr.ptrPost {E : Env} {s : Sig} (h : SigPr E s) (q : This) (w : Text) :
    ((T.sig (s.fsig {} q) (s.retT E) (s.parT E)).pr E).post true w = w ++ (s.params E ++ s.right E q) := by
  rw [pr_sig]
  exact h.postEq {} q rfl true w

/-- The fields of what a pointer prints. -/
theorem ptr_some (E : Env) (q : CV) (a : PointerAffinity) (c t : T) : ((T.ptr q a c t).pr E).some = true := by simp [T.pr, Pr.ofType]
theorem ptr_post (E : Env) (q : CV) (a : PointerAffinity) (c t : T) (fp : Bool) (w : Text) :
    ((T.ptr q a c t).pr E).post fp w = (t.pr E).post true (w ++ (if needsParens t then c!")" else [])) := by simp only [T.pr, Pr.ofType]
theorem ptr_pre (E : Env) (q : CV) (a : PointerAffinity) (c t : T) (fp : Bool) (w : Text) :
    ((T.ptr q a c t).pr E).pre fp w =
      (let w := openParen E t (sp E ((t.pr E).pre true w) ++ (if !E.flags.no_ms_keywords && q.u then msWord E c!"unaligned" ++ c!" " else []))
       (if (c.pr E).some then (c.pr E).out w ++ c!"::" else w) ++ affName a ++ q.sep E) := by simp only [T.pr, Pr.ofType]
theorem ptr_out (E : Env) (q : CV) (a : PointerAffinity) (c t : T) (w : Text) :
    ((T.ptr q a c t).pr E).out w = ((T.ptr q a c t).pr E).post false (((T.ptr q a c t).pr E).pre false w) := by simp only [T.pr, Pr.ofType]

/-- A pointer from its two sides. -/
theorem TyPr.ofPtr {E : Env} {t : Ty} {q : CV} {a : PointerAffinity} {c to : T} (h : t.tree E = .ptr q a c to)
    (pre : ∀ fp w, Ctx E w → ((T.ptr q a c to).pr E).pre fp w = w ++ t.left E)
    (post : ∀ fp w, ((T.ptr q a c to).pr E).post fp w = w ++ t.right E) : TyPr E t := by
  constructor
  · rw [h]; exact ptr_some ..
  · rw [h]; exact pre
  · rw [h]; exact post
  · intro w hw; rw [h, ptr_out, pre _ _ hw, post, List.append_assoc]
  · rw [h]; rfl
  · rw [h]; intro w; rfl

theorem pr_nil_some (E : Env) : (T.nil.pr E).some = false := rfl
theorem pr_one_some (E : Env) (t : T) : (t.one.pr E).some = true := rfl
theorem pr_one_out (E : Env) (t : T) (w : Text) : (t.one.pr E).out w = (t.pr E).out w := rfl
theorem pr_qname_out (E : Env) (t : T) (w : Text) : ((T.qname t).pr E).out w = (t.pr E).seq c!"::" w := rfl
theorem pr_arr_out (E : Env) (t : T) (w : Text) : ((T.arr t).pr E).out w = (t.pr E).seq c!", " w := rfl

/-- A qualified name from its parts. -/
theorem qname_snoc {E : Env} {i : T} {t : Text} (hi : ∀ u, (i.pr E).out u = u ++ t) {p : Path}
    (hp : ((p.tree E).pr E).some = !(p.names E).isEmpty ∧ ∀ w, ((p.tree E).pr E).seq c!"::" w = w ++ showPath (p.names E)) (u : Text) :
    (((p.tree E).snoc i).pr E).seq c!"::" u = u ++ showPath (t :: p.names E) := by
  obtain ⟨h1, h2⟩ := hp
  rw [snoc_seq E _ _ (p.tree_tl E), hi, h2, h1]
  cases hn : p.names E with
  | nil => simp [showPath, join]
  | cons a l => rw [showPath_cons t (a :: l) (by simp)]; simp

theorem snoc_some (E : Env) (p : Path) (i : T) : (((p.tree E).snoc i).pr E).some = true := by
  obtain ⟨l, hl⟩ := p.tree_tl E
  rw [hl, tl_snoc]
  cases l <;> simp [tl, T.pr, Pr.cons]

/-- The kind of a function, as text. -/
theorem Kind.fk_cpp (E : Env) (k : Kind) : k.cpp E = (match k with | .thunk .. => thunkPrefix E | _ => []) ++ kindCpp E k.fk := by
  cases k with
  | free ec => cases ec <;> simp [Kind.cpp, kindCpp, Kind.fk, part]
  | static a => simp [Kind.cpp, kindCpp, Kind.fk, part]
  | member a v q => cases v <;> simp [Kind.cpp, kindCpp, Kind.fk, part]
  | thunk a adj q =>
    have : thunkPrefix E = part (!E.flags.name_only) c!"[thunk]: " := by
      unfold thunkPrefix part; cases E.flags.name_only <;> rfl
    simp only [Kind.cpp, this, kindCpp, Kind.fk]
    cases adj.virtual a <;> simp [part]

theorem Kind.bare (k : Kind) : k.fk.bare = false := by cases k <;> rfl

/-- What a function prints. -/
theorem Kind.fn_pr {E : Env} (k : Kind) {n : T} {nt : Text} (hn : ∀ u, (n.pr E).out u = u ++ nt)
    {f : Spec.Sig} {r ps : T} {R conv C post : Text}
    (h1 : ∀ u, Ctx E u → sigPre E f (r.pr E) false u = u ++ (kindCpp E k.fk ++ R ++ conv))
    (hc : ∀ u, Ctx E u → sp E (u ++ (kindCpp E k.fk ++ R ++ conv)) = u ++ (kindCpp E k.fk ++ R ++ C))
    (h2 : ∀ u, sigPost E f (r.pr E) (ps.pr E) false u = u ++ post) (u : Text) (hu : Ctx E u) :
    ((T.fn n (k.wrap f r ps)).pr E).out u = u ++ (k.cpp E ++ R ++ C ++ nt ++ k.adjCpp ++ post) := by
  have key : ∀ sg : T, ((T.fn n sg).pr E).out u = (sg.pr E).post false ((n.pr E).out (sp E ((sg.pr E).pre false u))) := fun _ => rfl
  rw [key, k.fk_cpp]
  cases k with
  | thunk a adj q =>
    have hb : Blank (thunkPrefix E) := by
      unfold thunkPrefix
      split
      · exact .inl rfl
      · exact .inr ⟨c!"[thunk]:", rfl⟩
    simp only [Kind.wrap, pr_thunk, Pr.ofType]
    rw [h1 _ (hu.add hb), hc _ (hu.add hb), hn, h2, adj.out]
    simp [Kind.adjCpp]
  | _ =>
    simp only [Kind.wrap, pr_sig, Pr.ofType]
    rw [h1 _ hu, hc _ hu, hn, h2]
    simp [Kind.adjCpp]

/-- A function with a result type. -/
theorem SigPr.fnOut {E : Env} {s : Sig} (h : SigPr E s) (k : Kind) {n : T} {nt : Text} (hn : ∀ u, (n.pr E).out u = u ++ nt)
    (u : Text) (hu : Ctx E u) :
    ((T.fn n (k.wrap (s.fsig k.fk k.this) (s.retT E) (s.parT E))).pr E).out u =
      u ++ (k.cpp E ++ s.ret E ++ s.conv E ++ nt ++ k.adjCpp ++ part (shows.params E) (s.params E) ++ s.right E k.this) := by
  have hr : Blank (s.ret E) := by cases s; rw [Sig.ret]; exact Blank.part (.of _) _
  rw [k.fn_pr hn (h.preEq k.fk k.this) (fun u hu => sp_fn h.cc hu (kindCpp_blank E _) hr) (h.postEq k.fk k.this k.bare false) u hu]
  cases s
  simp [Sig.conv, Sig.cc]

theorem args_out {E : Env} {as : Args} (h : ∀ w, Ctx E w → ((as.tree E).pr E).seq c!", " w = w ++ join c!", " (as.list E)) (w : Text) :
    targsOut ((T.one (.arr (as.tree E))).pr E) w = w ++ (c!"<" ++ join c!", " (as.list E) ++ c!">") := by
  unfold targsOut
  rw [pr_one_some, pr_one_out, pr_arr_out, h _ (Ctx.angle E w)]
  simp

theorem sints_out (offs : List Int) : (List.intersperse c!", " (offs.map sint)).flatten = join c!", " (offs.map sint) := by
  cases offs with
  | nil => rfl
  | cons a l =>
    rw [List.map_cons, join_cons]
    induction l generalizing a with
    | nil => simp
    | cons b l ih =>
      have := ih b
      simp only [List.map_cons, List.intersperse_cons₂, List.flatten_cons, List.flatMap_cons] at this ⊢
      rw [this]
      simp

theorem join_ne {l : List Text} {sep : Text} (w : Text) : join sep (w :: l) = w ++ l.flatMap (sep ++ ·) := join_cons ..

/-- One more element of a list. -/
theorem arg_seq {E : Env} {a : T} {t : Text} {as : T} {l : List Text} (ha : ∀ w, Ctx E w → (a.pr E).out w = w ++ t)
    (hs : ∀ w, (as.pr E).tail c!", " w = w ++ l.flatMap (c!", " ++ ·)) (w : Text) (hw : Ctx E w) :
    ((T.cons a as).pr E).seq c!", " w = w ++ join c!", " (t :: l) := by
  show (as.pr E).tail c!", " ((a.pr E).out w) = _
  rw [ha w hw, hs, join_cons, List.append_assoc]

theorem arg_tail {E : Env} {a : T} {t : Text} {as : T} {l : List Text} (ha : ∀ w, Ctx E w → (a.pr E).out w = w ++ t)
    (hs : ∀ w, (as.pr E).tail c!", " w = w ++ l.flatMap (c!", " ++ ·)) (w : Text) :
    ((T.cons a as).pr E).tail c!", " w = w ++ (t :: l).flatMap (c!", " ++ ·) := by
  show (as.pr E).tail c!", " ((a.pr E).out (w ++ c!", ")) = _
  rw [ha _ (Ctx.comma E w), hs]
  simp

/-- The three ways to print a list of arguments. -/
structure ArgsPr (E : Env) (t : T) (l : List Text) : Prop where
  seq : ∀ w, Ctx E w → (t.pr E).seq c!", " w = w ++ join c!", " l
  tail : ∀ w, (t.pr E).tail c!", " w = w ++ l.flatMap (c!", " ++ ·)

theorem ArgsPr.nil (E : Env) : ArgsPr E .nil [] := ⟨by simp [T.pr, Pr.nil, join], by simp [T.pr, Pr.nil]⟩

theorem ArgsPr.cons {E : Env} {a : T} {t : Text} {as : T} {l : List Text} (ha : ∀ w, Ctx E w → (a.pr E).out w = w ++ t) (h : ArgsPr E as l) :
    ArgsPr E (.cons a as) (t :: l) := ⟨arg_seq ha h.tail, arg_tail ha h.tail⟩

/-- Variables. -/
theorem var_pr {E : Env} (st : Storage) {n : T} {nt : Text} (hn : ∀ u, (n.pr E).out u = u ++ nt) {ty : Ty} (ht : TyPr E ty) (u : Text) (hu : Ctx E u) :
    ((T.var (some st.cls) n (ty.tree E).one).pr E).out u =
      u ++ (st.cpp E ++ if shows.varType E then sp E (ty.left E) ++ nt ++ ty.right E else nt) := by
  have key : ((T.var (some st.cls) n (ty.tree E).one).pr E).out u =
    if shows.varType E && true then ((ty.tree E).pr E).post false ((n.pr E).out (sp E (((ty.tree E).pr E).pre false (u ++ storageText E (some st.cls)))))
    else (n.pr E).out (u ++ storageText E (some st.cls)) := rfl
  have hc : Ctx E (u ++ st.cpp E) := hu.add (st.blank E)
  rw [key, st.out, ht.pre _ _ hc, sp_ctx hc, hn, hn, ht.post]
  cases shows.varType E <;> simp

mutual
theorem Ty.pr_eq {E : Env} : (t : Ty) → t.Ok E → TyPr E t
  | .prim k c v, _ => by
    constructor <;> simp [Ty.tree, T.pr, Pr.ofType, Ty.left, Ty.right, cvAfter_eq, needsParens, openParen]
  | .tag k p c v, h => by
    rw [Ty.Ok] at h
    have hp := (Path.pr_eq p h.ok).2
    have e : ∀ w, ((T.tag { c, v } k (.qname (p.tree E))).pr E).out w = w ++ Ty.left E (.tag k p c v) := by
      intro w
      show ((p.tree E).pr E).seq c!"::" _ ++ CV.after E _ = _
      rw [hp, cvAfter_eq, Ty.left]
      simp [part, shows.tag]
    refine ⟨?_, ?_, ?_, ?_, ?_, ?_⟩
    · rw [Ty.tree]; rfl
    · intro fp w _; rw [Ty.tree]; exact e w
    · intro fp w; rw [Ty.tree, Ty.right]; simp [T.pr, Pr.ofType]
    · intro w _; rw [Ty.tree, Ty.right, List.append_nil]; exact e w
    · rw [Ty.tree]; rfl
    · rw [Ty.tree]; exact fun _ => rfl
  | .ptr k u to, h => by
    rw [Ty.Ok] at h
    have ht := Ty.pr_eq to h
    refine .ofPtr (by rw [Ty.tree]) (fun fp w hw => ?_) (fun fp w => ?_)
    · rw [ptr_pre, ht.pre _ _ hw, ht.op, sp_ctx hw, pr_nil_some, Ty.left, ← k.out E u]
      have hu : (k.cv u).u = u := rfl
      rw [hu]
      simp [part, shows.ms]
    · rw [ptr_post, ht.post, ht.np, Ty.right]
      simp
  | .fptr k s, h => by
    rw [Ty.Ok] at h
    have hs := Sig.pr_eq s h.2
    refine .ofPtr (by rw [Ty.tree]) (fun fp w hw => ?_) (fun fp w => ?_)
    · have hu : (k.cv false).u = false := rfl
      rw [ptr_pre, hu, Bool.and_false, pr_nil_some]
      simp only [Bool.false_eq_true, if_false, List.append_nil]
      rw [hs.ptrPre {} w hw, Ty.left, ← k.out E false]
      simp
    · rw [ptr_post, hs.ptrPost, np_sig, Ty.right]
      simp
  | .aptr k c v dims el, h => by
    rw [Ty.Ok] at h
    have ht := Ty.pr_eq el h.2.2
    refine .ofPtr (by rw [Ty.tree]) (fun fp w hw => ?_) (fun fp w => ?_)
    · have hu : (k.cv false).u = false := rfl
      have e : ((T.array { c, v } dims (el.tree E)).pr E).pre true w = w ++ (el.left E ++ Spec.Ty.cvAfter c v) := by
        show ((el.tree E).pr E).pre false w ++ CV.after E _ = _
        rw [ht.pre _ _ hw, cvAfter_eq, List.append_assoc]
      rw [ptr_pre, hu, Bool.and_false, pr_nil_some, e, sp_ctx hw, op_arr, Ty.left, ← k.out E false]
      simp
    · have e : ∀ w, ((T.array { c, v } dims (el.tree E)).pr E).post true w = w ++ (bounds dims ++ el.right E) := by
        intro w
        show ((el.tree E).pr E).post false (w ++ bounds dims) = _
        rw [ht.post, List.append_assoc]
      rw [ptr_post, e, np_arr, Ty.right]
      simp
  | .mptr k u cls to, h => by
    rw [Ty.Ok] at h
    have ht := Ty.pr_eq to h.2.2.2
    have hc := (Path.pr_eq cls h.2.1.ok).2
    have ha : k.aff = .Pointer := by
      have := h.1; cases k <;> first | rfl | cases this
    have hk := k.out E u
    rw [ha] at hk
    refine .ofPtr (by rw [Ty.tree]) (fun fp w hw => ?_) (fun fp w => ?_)
    · have hu : (k.cv u).u = u := rfl
      rw [ptr_pre, ht.pre _ _ hw, ht.op, sp_ctx hw, pr_one_some, hu]
      dsimp only
      rw [pr_one_out, pr_qname_out]
      rw [hc, Ty.left, ← hk]
      simp [part, shows.ms]
    · rw [ptr_post, ht.post, ht.np, Ty.right]
      simp
  | .mfptr k cls q s, h => by
    rw [Ty.Ok] at h
    have hs := Sig.pr_eq s h.2.2
    have hc := (Path.pr_eq cls h.2.1.ok).2
    have ha : k.aff = .Pointer := by
      have := h.1.1; cases k <;> first | rfl | cases this
    have hk := k.out E false
    rw [ha] at hk
    refine .ofPtr (by rw [Ty.tree]) (fun fp w hw => ?_) (fun fp w => ?_)
    · have hu : (k.cv false).u = false := rfl
      rw [ptr_pre, hu, Bool.and_false, pr_one_some]
      simp only [Bool.false_eq_true, if_false, List.append_nil, if_true]
      rw [pr_one_out, pr_qname_out, hs.ptrPre q w hw, hc, Ty.left, ← hk]
      simp
    · rw [ptr_post, hs.ptrPost, np_sig, Ty.right]
      simp
theorem Sig.pr_eq {E : Env} : (s : Sig) → s.Ok E → SigPr E s
  | .mk cc ret ps vr ne, h => by
    rw [Sig.Ok] at h
    refine ⟨Ty.pr_eq ret h.2.1, h.1, fun k q w => ?_⟩
    rw [Sig.parT, Sig.params]
    have := Tys.treeOf_pr ps h.2.2.1 vr
    exact paramsOut_eq rfl this.1 this.2 (Tys.list_ne ps h.2.2.1) h.2.2.2 w
theorem Tys.treeOf_pr {E : Env} : (ts : Tys) → ts.Ok E → (vr : Bool) →
    ((ts.treeOf E vr).pr E).some = !((ts.list E).isEmpty && !vr) ∧
    (((ts.treeOf E vr).pr E).some = true → ∀ w, Ctx E w → ((ts.treeOf E vr).pr E).out w = w ++ join c!", " (ts.list E))
  | .nil, _, vr => by cases vr <;> simp [Tys.treeOf, T.pr, Pr.nil, T.one, Pr.cons, Pr.ofText, Tys.list, join]
  | .cons t ts, h, vr => by
    rw [Tys.Ok] at h
    have h1 := Ty.pr_eq t h.2.2.1
    have h2 := Tys.args_pr ts h.2.2.2
    rw [Tys.treeOf, Tys.list]
    exact ⟨rfl, fun _ w hw => (h2.cons h1.out).seq w hw⟩
theorem Tys.args_pr {E : Env} : (ts : Tys) → ts.Ok E → ArgsPr E (ts.tree E) (ts.list E)
  | .nil, _ => by rw [Tys.tree, Tys.list]; exact .nil E
  | .cons t ts, h => by
    rw [Tys.Ok] at h
    rw [Tys.tree, Tys.list]
    exact (Tys.args_pr ts h.2.2.2).cons (Ty.pr_eq t h.2.2.1).out
theorem Path.pr_eq {E : Env} : (p : Path) → p.Ok E →
    ((p.tree E).pr E).some = !(p.names E).isEmpty ∧ ∀ w, ((p.tree E).pr E).seq c!"::" w = w ++ showPath (p.names E)
  | .nil, _ => by simp [Path.tree, T.pr, Pr.nil, Path.names, showPath, join]
  | .cons s p, h => by
    rw [Path.Ok] at h
    have h1 := Seg.pr_eq s h.1
    have h2 := Path.pr_eq p h.2
    rw [Path.tree, Path.names]
    exact ⟨by rw [snoc_some]; rfl, qname_snoc h1 h2⟩
theorem Seg.pr_eq {E : Env} : (s : Seg) → s.Ok E → ∀ w, ((s.tree E).pr E).out w = w ++ s.cpp E
  | .id s, _ => by simp [Seg.tree, T.pr, Pr.ofText, Pr.nil, targsOut, Seg.cpp]
  | .tm s as, h => by
    rw [Seg.Ok] at h
    have h1 := Args.pr_eq as h.2.2
    intro w
    rw [Seg.tree, Seg.cpp]
    show targsOut ((T.one (.arr (as.tree E))).pr E) (w ++ s) = _
    rw [args_out h1.seq]
    simp
  | .anon _, _ => by simp [Seg.tree, T.pr, Pr.ofText, Pr.nil, targsOut, Seg.cpp]
  | .loc _ _, _ => by simp [Seg.tree, T.pr, Pr.ofText, Pr.nil, targsOut]
theorem Args.pr_eq {E : Env} : (as : Args) → as.Ok E → ArgsPr E (as.tree E) (as.list E)
  | .nil, _ => by rw [Args.tree, Args.list]; exact .nil E
  | .ty t as, h => by
    rw [Args.Ok] at h
    rw [Args.tree, Args.list]
    exact (Args.pr_eq as h.2).cons (Ty.pr_eq t h.1).out
  | .int neg n as, h => by
    rw [Args.Ok] at h
    rw [Args.tree, Args.list]
    exact (Args.pr_eq as h.2).cons fun w _ => by simp [T.pr, Pr.ofText, part]
  | .pack as, h => by
    rw [Args.Ok] at h
    rw [Args.tree, Args.list]
    exact Args.pr_eq as h
  | .fn s as, h => by
    rw [Args.Ok] at h
    rw [Args.tree, Args.list]
    exact (Args.pr_eq as h.2).cons ((Sig.pr_eq s h.1).typeOut {})
  | .mfn q s as, h => by
    rw [Args.Ok] at h
    rw [Args.tree, Args.list]
    exact (Args.pr_eq as h.2).cons ((Sig.pr_eq s h.1).typeOut q)
  | .arr c v dims el as, h => by
    rw [Args.Ok] at h
    have ht := Ty.pr_eq el h.2.2.1
    rw [Args.tree, Args.list]
    refine (Args.pr_eq as h.2.2.2).cons fun w hw => ?_
    show ((el.tree E).pr E).post false (((el.tree E).pr E).pre false w ++ CV.after E _ ++ bounds dims) = _
    rw [ht.pre _ _ hw, ht.post, cvAfter_eq]
    simp
  | .tmpl p as, h => by
    rw [Args.Ok] at h
    rw [Args.tree, Args.list]
    exact (Args.pr_eq as h.2).cons fun w _ => (Path.pr_eq p h.1.ok).2 w
  | .addr d as, h => by
    rw [Args.Ok] at h
    have hd := Decl.pr_eq d h.2.1
    rw [Args.tree, Args.list]
    refine (Args.pr_eq as h.2.2).cons fun w hw => ?_
    show ((d.tree E).pr E).out (w ++ c!"&") = _
    rw [hd _ (Ctx.amp E w), List.append_assoc]
  | .ref d as, h => by
    rw [Args.Ok] at h
    have hd := Decl.pr_eq d h.1
    rw [Args.tree, Args.list]
    refine (Args.pr_eq as h.2).cons fun w hw => ?_
    show ((d.tree E).pr E).out (w ++ []) = _
    rw [List.append_nil, hd _ hw]
  | .memFn d offs as, h => by
    rw [Args.Ok] at h
    have hd := Decl.pr_eq d h.2.1
    rw [Args.tree, Args.list]
    refine (Args.pr_eq as h.2.2).cons fun w hw => ?_
    have ho : offs.isEmpty = false := by
      have := h.1.2.1; cases offs <;> simp at this ⊢
    show addrOut true (T.pr E _) offs w = _
    unfold addrOut
    rw [ho, pr_one_some, sints_out]
    simp only [Bool.false_eq_true, if_false, if_true]
    rw [pr_one_out, hd _ (Ctx.brace E w)]
    simp
  | .memData offs as, h => by
    rw [Args.Ok] at h
    rw [Args.tree, Args.list]
    refine (Args.pr_eq as h.2).cons fun w hw => ?_
    have ho : offs.isEmpty = false := by
      have := h.1.1; cases offs <;> simp at this ⊢
    show addrOut false (T.pr E _) offs w = _
    unfold addrOut
    rw [ho, pr_nil_some, sints_out]
    simp
theorem Targs.pr_eq {E : Env} : (ta : Targs) → ta.Ok E → ∀ w, targsOut ((ta.tree E).pr E) w = w ++ ta.cpp E
  | .none, _ => by simp [Targs.tree, T.pr, Pr.nil, targsOut, Targs.cpp]
  | .some as, h => by
    rw [Targs.Ok] at h
    rw [Targs.tree, Targs.cpp]
    exact args_out (Args.pr_eq as h).seq
theorem Head.pr_eq {E : Env} : (n : Head) → n.Ok E → ∀ w, ((n.tree E).pr E).out w = w ++ n.cpp E
  | .id s, _ => by simp [Head.tree, T.pr, Pr.ofText, Pr.nil, targsOut, Head.cpp]
  | .tm s as, h => by
    rw [Head.Ok] at h
    have h1 := Args.pr_eq as h.2
    intro w
    rw [Head.tree, Head.cpp]
    show targsOut ((T.one (.arr (as.tree E))).pr E) (w ++ s) = _
    rw [args_out h1.seq]
    simp
  | .op o ta, h => by
    rw [Head.Ok] at h
    have h1 := Targs.pr_eq ta h
    intro w
    rw [Head.tree, Head.cpp]
    show targsOut ((ta.tree E).pr E) (w ++ opName o) = _
    rw [h1]
    simp
  | .lit s, _ => by simp [Head.tree, T.pr, Pr.ofText, Pr.nil, targsOut, Head.cpp]
theorem Decl.pr_eq {E : Env} : (d : Decl) → d.Ok E → ∀ w, Ctx E w → ((d.tree E).pr E).out w = w ++ d.cpp E
  | .var st name scope ty, h => by
    rw [Decl.Ok] at h
    have h1 := Head.pr_eq name h.1
    have h2 := Path.pr_eq scope h.2.1
    have h3 := Ty.pr_eq ty h.2.2
    intro w hw
    rw [Decl.tree, Decl.cpp, var_pr st (n := .qname _) (qname_snoc h1 h2) h3 w hw]
  | .fn k name scope s, h => by
    rw [Decl.Ok] at h
    have h1 := Head.pr_eq name h.2.1
    have h2 := Path.pr_eq scope h.2.2.1
    have h3 := Sig.pr_eq s h.2.2.2
    intro w hw
    rw [Decl.tree, Decl.cpp, h3.fnOut k (n := .qname _) (qname_snoc h1 h2) w hw]
  | .structor dtor targs k s scope cc ps vr ne, h => by
    rw [Decl.Ok] at h
    obtain ⟨⟨hk, hc, hv⟩, h0, _, h1, h2, h3⟩ := h
    have h0 := Targs.pr_eq targs h0
    have h1 := Seg.pr_eq s h1
    have h2 := Path.pr_eq scope h2
    have h4 := Tys.treeOf_pr ps h3 vr
    have h5 := fun w => paramsOut_eq (f := Cxx.fsig cc vr ne k.fk k.this) rfl h4.1 h4.2 (Tys.list_ne ps h3) hv w
    have hi : ∀ u, ((T.structor dtor (s.tree E).one (targs.tree E)).pr E).out u = u ++ (part dtor c!"~" ++ s.cpp E ++ targs.cpp E) := by
      intro u
      show targsOut ((targs.tree E).pr E) (((s.tree E).pr E).out _) = _
      rw [h0, h1]
      cases dtor <;> simp [part]
    have hq : ∀ u, ((((scope.tree E).snoc (s.tree E)).snoc (.structor dtor (s.tree E).one (targs.tree E))).pr E).seq c!"::" u =
        u ++ showPath ((part dtor c!"~" ++ s.cpp E ++ targs.cpp E) :: s.cpp E :: scope.names E) := by
      have := qname_snoc hi (p := .cons s scope) (by
        rw [Path.tree, Path.names]
        exact ⟨by rw [snoc_some]; rfl, qname_snoc h1 h2⟩)
      rw [Path.tree, Path.names] at this
      exact this
    intro w hw
    rw [Decl.tree, Decl.cpp]
    have hpost : ∀ w, (T.nil.pr E).post false w = w ++ [] := by simp [T.pr, Pr.nil]
    rw [k.fn_pr (n := .qname _) (R := []) (conv := part (shows.conv E) (convCpp E cc)) (C := part (shows.conv E) (convCpp E cc ++ c!" ")) hq
      (fun u hu => by
        have := sigPre_fn (f := Cxx.fsig cc vr ne k.fk k.this) (R := T.nil.pr E) (L := none) rfl hc rfl u hu
        simpa [retCpp, Cxx.fsig] using this)
      (fun u hu => sp_fn hc hu (kindCpp_blank E _) (.inl rfl))
      (sigPost_eq false k.bare h5 hpost) w hw]
    simp [Cxx.fsig, This.out, This.ref_out, part]
  | .conv targs k cls s, h => by
    rw [Decl.Ok] at h
    have h0 := Targs.pr_eq targs h.2.1
    have h2 := Path.pr_eq cls h.2.2.1
    have h3 := Sig.pr_eq s h.2.2.2
    have hi : ∀ u, ((T.conv (targs.tree E) (s.retT E)).pr E).out u = u ++ (c!"operator" ++ targs.cpp E ++ c!" " ++ s.retType E) := by
      intro u
      show ((s.retT E).pr E).out (targsOut ((targs.tree E).pr E) _ ++ c!" ") = _
      rw [h0, h3.retOut _ (Ctx.blank E _)]
      simp
    intro w hw
    rw [Decl.tree, Decl.cpp, h3.fnOut k (n := .qname _) (qname_snoc hi h2) w hw]
end

end Spec.Cxx
end Undname
