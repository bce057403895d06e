/-
  Reading template arguments.
-/
import Verif.Proof.ReadDecl

namespace Undname.Spec.Cxx

/-- A template argument that leaves a trace. -/
inductive Arg where
  | ty (t : Ty)
  | int (neg : Bool) (n : Nat)
  | fn (s : Sig)
  | mfn (q : This) (s : Sig)
  | arr (c v : Bool) (dims : List Nat) (el : Ty)
  | tmpl (p : Path)
  | addr (d : Decl)
  | ref (d : Decl)
  | memFn (d : Decl) (offs : List Int)
  | memData (offs : List Int)

def Args.toList : Args → List Arg
  | .nil => []
  | .ty t as => .ty t :: as.toList
  | .int neg n as => .int neg n :: as.toList
  | .pack as => as.toList
  | .fn s as => .fn s :: as.toList
  | .mfn q s as => .mfn q s :: as.toList
  | .arr c v dims el as => .arr c v dims el :: as.toList
  | .tmpl p as => .tmpl p :: as.toList
  | .addr d as => .addr d :: as.toList
  | .ref d as => .ref d :: as.toList
  | .memFn d offs as => .memFn d offs :: as.toList
  | .memData offs as => .memData offs :: as.toList

def Arg.cpp (E : Env) : Arg → Text
  | .ty t => t.left E ++ t.right E
  | .int neg n => part neg c!"-" ++ nat n
  | .fn s => s.type E {}
  | .mfn q s => s.type E q
  | .arr c v dims el => el.left E ++ Spec.Ty.cvAfter c v ++ bounds dims ++ el.right E
  | .tmpl p => showPath (p.names E)
  | .addr d => c!"&" ++ d.cpp E
  | .ref d => d.cpp E
  | .memFn d offs => c!"{" ++ d.cpp E ++ c!", " ++ join c!", " (offs.map sint) ++ c!"}"
  | .memData offs => c!"{" ++ join c!", " (offs.map sint) ++ c!"}"

theorem Args.list_eq (E : Env) : ∀ as : Args, as.list E = as.toList.map (Arg.cpp E)
  | .nil => by rw [Args.list, Args.toList]; rfl
  | .ty t as => by rw [Args.list, Args.toList, Args.list_eq E as]; rfl
  | .int neg n as => by rw [Args.list, Args.toList, Args.list_eq E as]; rfl
  | .pack as => by rw [Args.list, Args.toList, Args.list_eq E as]
  | .fn s as => by rw [Args.list, Args.toList, Args.list_eq E as]; rfl
  | .mfn q s as => by rw [Args.list, Args.toList, Args.list_eq E as]; rfl
  | .arr c v dims el as => by rw [Args.list, Args.toList, Args.list_eq E as]; rfl
  | .tmpl p as => by rw [Args.list, Args.toList, Args.list_eq E as]; rfl
  | .addr d as => by rw [Args.list, Args.toList, Args.list_eq E as]; rfl
  | .ref d as => by rw [Args.list, Args.toList, Args.list_eq E as]; rfl
  | .memFn d offs as => by rw [Args.list, Args.toList, Args.list_eq E as]; rfl
  | .memData offs as => by rw [Args.list, Args.toList, Args.list_eq E as]; rfl

def Arg.plain (key : Text) : Arg → Bool
  | .ty t => t.plain key
  | .int _ _ => true
  | .fn s => s.plain key
  | .mfn q s => decide (q ≠ {}) && s.plain key
  | .arr c v dims el => (el.isBase || (!c && !v)) && el.bare && !el.isRef && !dims.isEmpty && el.plain key
  | .tmpl p => !p.isNil && p.plain key
  | .addr d => d.plain key
  | .ref d => d.plain key
  | .memFn d offs => !offs.isEmpty && d.plain key
  | .memData offs => !offs.isEmpty

theorem Args.plain_mem {key : Text} : ∀ {as : Args}, as.plain key = true → ∀ x ∈ as.toList, x.plain key = true
  | .nil, _, x, hx => by simp [Args.toList] at hx
  | .ty t as, h, x, hx => by
    simp only [Args.plain, Bool.and_eq_true] at h
    simp only [Args.toList, List.mem_cons] at hx
    rcases hx with rfl | hx
    · exact h.1
    · exact Args.plain_mem h.2 x hx
  | .int neg n as, h, x, hx => by
    simp only [Args.plain] at h
    simp only [Args.toList, List.mem_cons] at hx
    rcases hx with rfl | hx
    · rfl
    · exact Args.plain_mem h x hx
  | .pack as, h, x, hx => by simp [Args.plain] at h
  | .fn s as, h, x, hx => by
    simp only [Args.plain, Bool.and_eq_true] at h
    simp only [Args.toList, List.mem_cons] at hx
    rcases hx with rfl | hx
    · exact h.1
    · exact Args.plain_mem h.2 x hx
  | .mfn q s as, h, x, hx => by
    simp only [Args.plain, Bool.and_eq_true] at h
    simp only [Args.toList, List.mem_cons] at hx
    rcases hx with rfl | hx
    · simp only [Arg.plain, Bool.and_eq_true]; exact h.1
    · exact Args.plain_mem h.2 x hx
  | .arr c v dims el as, h, x, hx => by
    rw [Args.plain, Bool.and_eq_true] at h
    simp only [Args.toList, List.mem_cons] at hx
    rcases hx with rfl | hx
    · exact h.1
    · exact Args.plain_mem h.2 x hx
  | .tmpl p as, h, x, hx => by
    rw [Args.plain, Bool.and_eq_true] at h
    simp only [Args.toList, List.mem_cons] at hx
    rcases hx with rfl | hx
    · exact h.1
    · exact Args.plain_mem h.2 x hx
  | .addr d as, h, x, hx => by
    rw [Args.plain, Bool.and_eq_true] at h
    simp only [Args.toList, List.mem_cons] at hx
    rcases hx with rfl | hx
    · exact h.1
    · exact Args.plain_mem h.2 x hx
  | .ref d as, h, x, hx => by
    rw [Args.plain, Bool.and_eq_true] at h
    simp only [Args.toList, List.mem_cons] at hx
    rcases hx with rfl | hx
    · exact h.1
    · exact Args.plain_mem h.2 x hx
  | .memFn d offs as, h, x, hx => by
    rw [Args.plain, Bool.and_eq_true] at h
    simp only [Args.toList, List.mem_cons] at hx
    rcases hx with rfl | hx
    · exact h.1
    · exact Args.plain_mem h.2 x hx
  | .memData offs as, h, x, hx => by
    rw [Args.plain, Bool.and_eq_true] at h
    simp only [Args.toList, List.mem_cons] at hx
    rcases hx with rfl | hx
    · exact h.1
    · exact Args.plain_mem h.2 x hx

/-- The arguments are determined by the list. -/
def Args.ofList : List Arg → Args
  | [] => .nil
  | .ty t :: l => .ty t (ofList l)
  | .int neg n :: l => .int neg n (ofList l)
  | .fn s :: l => .fn s (ofList l)
  | .mfn q s :: l => .mfn q s (ofList l)
  | .arr c v dims el :: l => .arr c v dims el (ofList l)
  | .tmpl p :: l => .tmpl p (ofList l)
  | .addr d :: l => .addr d (ofList l)
  | .ref d :: l => .ref d (ofList l)
  | .memFn d offs :: l => .memFn d offs (ofList l)
  | .memData offs :: l => .memData offs (ofList l)

theorem Args.of_toList {key : Text} : ∀ as : Args, as.plain key = true → Args.ofList as.toList = as
  | .nil, _ => rfl
  | .ty t as, h => by
    rw [Args.plain, Bool.and_eq_true] at h
    rw [Args.toList, Args.ofList, Args.of_toList as h.2]
  | .int neg n as, h => by
    rw [Args.plain] at h
    rw [Args.toList, Args.ofList, Args.of_toList as h]
  | .pack as, h => by simp [Args.plain] at h
  | .fn s as, h => by
    rw [Args.plain, Bool.and_eq_true] at h
    rw [Args.toList, Args.ofList, Args.of_toList as h.2]
  | .mfn q s as, h => by
    rw [Args.plain, Bool.and_eq_true] at h
    rw [Args.toList, Args.ofList, Args.of_toList as h.2]
  | .arr c v dims el as, h => by
    rw [Args.plain, Bool.and_eq_true] at h
    rw [Args.toList, Args.ofList, Args.of_toList as h.2]
  | .tmpl p as, h => by
    rw [Args.plain, Bool.and_eq_true] at h
    rw [Args.toList, Args.ofList, Args.of_toList as h.2]
  | .addr d as, h => by
    rw [Args.plain, Bool.and_eq_true] at h
    rw [Args.toList, Args.ofList, Args.of_toList as h.2]
  | .ref d as, h => by
    rw [Args.plain, Bool.and_eq_true] at h
    rw [Args.toList, Args.ofList, Args.of_toList as h.2]
  | .memFn d offs as, h => by
    rw [Args.plain, Bool.and_eq_true] at h
    rw [Args.toList, Args.ofList, Args.of_toList as h.2]
  | .memData offs as, h => by
    rw [Args.plain, Bool.and_eq_true] at h
    rw [Args.toList, Args.ofList, Args.of_toList as h.2]

theorem Args.toList_inj {key : Text} {as bs : Args} (ha : as.plain key = true) (hb : bs.plain key = true) (h : as.toList = bs.toList) : as = bs := by
  rw [← Args.of_toList as ha, ← Args.of_toList bs hb, h]

/-! ### Arguments that are phrases -/

/-- A base with other qualifiers. -/
def Ty.withCv (c v : Bool) : Ty → Ty
  | .prim k _ _ => .prim k c v
  | .tag k p _ _ => .tag k p c v
  | t => t

/-- The phrase of an argument. -/
def Arg.phrase : Arg → Option (Pre × Phrase)
  | .ty t => some (.none, .ty t .abs)
  | .fn (.mk cc ret ps va ne) => some (.none, .ty ret (.fn cc ps va ne {}))
  | .mfn q (.mk cc ret ps va ne) => some (.none, .ty ret (.fn cc ps va ne q))
  | .arr c v dims el => some (.none, .ty (el.withCv c v) (.arr dims))
  | .ref d => some (d.pre, d.phrase)
  | _ => none

theorem withCv_left {E : Env} {c v : Bool} {el : Ty} (h1 : (el.isBase || (!c && !v)) = true) (h2 : el.bare = true) :
    (el.withCv c v).left E = el.left E ++ Spec.Ty.cvAfter c v := by
  cases el <;> simp [Ty.isBase, Ty.bare] at h1 h2
  case prim => rw [Ty.withCv, Ty.left, Ty.left, h2.1, h2.2, cvAfter_ff, List.append_nil]
  case tag => rw [Ty.withCv, Ty.left, Ty.left, h2.1, h2.2, cvAfter_ff, List.append_nil]
  all_goals (rw [h1.1, h1.2, cvAfter_ff, List.append_nil]; rfl)

theorem withCv_right {E : Env} {c v : Bool} {el : Ty} : (el.withCv c v).right E = el.right E := by
  cases el <;> simp [Ty.withCv, Ty.right]

theorem withCv_plain {key : Text} {c v : Bool} {el : Ty} : (el.withCv c v).plain key = el.plain key := by
  cases el <;> simp [Ty.withCv, Ty.plain]

theorem withCv_inj {c v c' v' : Bool} {el el' : Ty} (h1 : (el.isBase || (!c && !v)) = true) (h2 : el.bare = true)
    (h1' : (el'.isBase || (!c' && !v')) = true) (h2' : el'.bare = true) (h : el.withCv c v = el'.withCv c' v') : c = c' ∧ v = v' ∧ el = el' := by
  cases el <;> cases el' <;> simp_all [Ty.withCv, Ty.isBase, Ty.bare]

theorem Arg.phrase_text {E : Env} (hE : E.flags = Flags.default) {key : Text} {x : Arg} (hx : x.plain key = true) {p : Pre} {q : Phrase}
    (h : x.phrase = some (p, q)) : x.cpp E = p.text ++ q.text E := by
  cases x with
  | ty t => simp [Arg.phrase] at h; obtain ⟨rfl, rfl⟩ := h; rfl
  | fn s =>
    cases s
    simp [Arg.phrase] at h; obtain ⟨rfl, rfl⟩ := h
    rw [Arg.cpp, Sig.type, dflt_ret hE, dflt_conv hE, dflt_params hE, dflt_this hE, dflt_convCpp hE]
    simp [Pre.text, Phrase.text, typed, Tl.mid, part, quals, cword]
  | mfn q s =>
    cases s
    simp [Arg.phrase] at h; obtain ⟨rfl, rfl⟩ := h
    rw [Arg.cpp, Sig.type, dflt_ret hE, dflt_conv hE, dflt_params hE, dflt_this hE, dflt_convCpp hE]
    simp [Pre.text, Phrase.text, typed, Tl.mid, part, quals, cword]
  | arr c v dims el =>
    simp [Arg.phrase] at h; obtain ⟨rfl, rfl⟩ := h
    simp only [Arg.plain, Bool.and_eq_true] at hx
    rw [Arg.cpp, Phrase.text, typed, withCv_left hx.1.1.1.1 hx.1.1.1.2, withCv_right]
    simp [Pre.text, Tl.mid]
  | ref d =>
    simp only [Arg.phrase, Option.some.injEq, Prod.mk.injEq] at h; obtain ⟨rfl, rfl⟩ := h
    rw [Arg.cpp]; exact Decl.text_eq hE hx
  | int | tmpl | addr | memFn | memData => simp [Arg.phrase] at h

theorem Arg.phrase_ok {key : Text} {x : Arg} (hx : x.plain key = true) {p : Pre} {q : Phrase} (h : x.phrase = some (p, q)) : q.Ok key := by
  cases x with
  | ty t => simp [Arg.phrase] at h; obtain ⟨rfl, rfl⟩ := h; exact ⟨hx, trivial⟩
  | fn s =>
    cases s
    simp [Arg.phrase] at h; obtain ⟨rfl, rfl⟩ := h
    simp only [Arg.plain, Sig.plain, Bool.and_eq_true] at hx
    exact ⟨hx.1.2, hx.1.1, hx.2⟩
  | mfn q s =>
    cases s
    simp [Arg.phrase] at h; obtain ⟨rfl, rfl⟩ := h
    simp only [Arg.plain, Sig.plain, Bool.and_eq_true] at hx
    exact ⟨hx.2.1.2, hx.2.1.1, hx.2.2⟩
  | arr c v dims el =>
    simp [Arg.phrase] at h; obtain ⟨rfl, rfl⟩ := h
    simp only [Arg.plain, Bool.and_eq_true] at hx
    exact ⟨by rw [withCv_plain]; exact hx.2, by simpa [Tl.Ok] using hx.1.2⟩
  | ref d =>
    simp only [Arg.phrase, Option.some.injEq, Prod.mk.injEq] at h; obtain ⟨rfl, rfl⟩ := h
    exact Decl.phrase_ok hx
  | int | tmpl | addr | memFn | memData => simp [Arg.phrase] at h

/-- A declared entity has a name. -/
def Phrase.named : Phrase → Bool
  | .ty _ (.var _) | .ty _ (.fnD _) | .ctor _ => true
  | _ => false

theorem Decl.named {key : Text} {d : Decl} (h : d.plain key = true) : d.phrase.named = true := by
  cases d with
  | var => rfl
  | fn k n sc s => cases s; rfl
  | structor => rfl
  | conv ta k cls s => cases s; rfl

theorem Arg.phrase_inj {key : Text} {x y : Arg} (hx : x.plain key = true) (hy : y.plain key = true) {z : Pre × Phrase} (h : x.phrase = some z) (h' : y.phrase = some z) : x = y := by
  have e : x.phrase = y.phrase := by rw [h, h']
  have dn : ∀ {d : Decl}, d.plain key = true → d.phrase.named = true := Decl.named
  cases x with
  | ty t =>
    cases y with
    | ty t' => simp [Arg.phrase] at e; rw [e]
    | fn s => cases s; simp [Arg.phrase] at e
    | mfn q s => cases s; simp [Arg.phrase] at e
    | arr => simp [Arg.phrase] at e
    | ref d => simp only [Arg.phrase, Option.some.injEq, Prod.mk.injEq] at e; have := dn hy; rw [← e.2] at this; simp [Phrase.named] at this
    | int | tmpl | addr | memFn | memData => simp [Arg.phrase] at h'
  | fn s =>
    cases s
    cases y with
    | ty t' => simp [Arg.phrase] at e
    | fn s => cases s; simp [Arg.phrase] at e; simp [e]
    | mfn q s => cases s; simp [Arg.phrase] at e; simp [Arg.plain] at hy; exact absurd e.2.2.2.2.2.symm hy.1
    | arr => simp [Arg.phrase] at e
    | ref d => simp only [Arg.phrase, Option.some.injEq, Prod.mk.injEq] at e; have := dn hy; rw [← e.2] at this; simp [Phrase.named] at this
    | int | tmpl | addr | memFn | memData => simp [Arg.phrase] at h'
  | mfn q s =>
    cases s
    cases y with
    | ty t' => simp [Arg.phrase] at e
    | fn s => cases s; simp [Arg.phrase] at e; simp [Arg.plain] at hx; exact absurd e.2.2.2.2.2 hx.1
    | mfn q s => cases s; simp [Arg.phrase] at e; simp [e]
    | arr => simp [Arg.phrase] at e
    | ref d => simp only [Arg.phrase, Option.some.injEq, Prod.mk.injEq] at e; have := dn hy; rw [← e.2] at this; simp [Phrase.named] at this
    | int | tmpl | addr | memFn | memData => simp [Arg.phrase] at h'
  | arr c v dims el =>
    cases y with
    | ty t' => simp [Arg.phrase] at e
    | fn s => cases s; simp [Arg.phrase] at e
    | mfn q s => cases s; simp [Arg.phrase] at e
    | arr c' v' dims' el' =>
      simp only [Arg.phrase, Option.some.injEq, Prod.mk.injEq, Phrase.ty.injEq, Tl.arr.injEq, true_and] at e
      simp only [Arg.plain, Bool.and_eq_true] at hx hy
      obtain ⟨h1, h2, h3⟩ := withCv_inj hx.1.1.1.1 hx.1.1.1.2 hy.1.1.1.1 hy.1.1.1.2 e.1
      rw [h1, h2, h3, e.2]
    | ref d => simp only [Arg.phrase, Option.some.injEq, Prod.mk.injEq] at e; have := dn hy; rw [← e.2] at this; simp [Phrase.named] at this
    | int | tmpl | addr | memFn | memData => simp [Arg.phrase] at h'
  | ref d =>
    have hd := dn hx
    cases y with
    | ty t' => simp only [Arg.phrase, Option.some.injEq, Prod.mk.injEq] at e; rw [e.2] at hd; simp [Phrase.named] at hd
    | fn s => cases s; simp only [Arg.phrase, Option.some.injEq, Prod.mk.injEq] at e; rw [e.2] at hd; simp [Phrase.named] at hd
    | mfn q s => cases s; simp only [Arg.phrase, Option.some.injEq, Prod.mk.injEq] at e; rw [e.2] at hd; simp [Phrase.named] at hd
    | arr => simp only [Arg.phrase, Option.some.injEq, Prod.mk.injEq] at e; rw [e.2] at hd; simp [Phrase.named] at hd
    | ref d' => simp only [Arg.phrase, Option.some.injEq, Prod.mk.injEq] at e; rw [Decl.inj hx hy e.1 e.2]
    | int | tmpl | addr | memFn | memData => simp [Arg.phrase] at h'
  | int | tmpl | addr | memFn | memData => simp [Arg.phrase] at h

/-! ### Reading arguments -/

section
variable (E : Env) (key : Text)

def ArgRd (x : Arg) : Prop := ∀ y, y.plain key = true → ∀ a b, Stop a → Stop b → x.cpp E ++ a = y.cpp E ++ b → x = y ∧ a = b

/-- All parts of an argument are read back. -/
def Arg.Parts : Arg → Prop
  | .ty t => TyParts E key t
  | .int _ _ => True
  | .fn (.mk _ ret ps _ _) => TyParts E key ret ∧ ParamsRd E key ps
  | .mfn _ (.mk _ ret ps _ _) => TyParts E key ret ∧ ParamsRd E key ps
  | .arr _ _ _ el => TyParts E key el
  | .tmpl p => NmsRd E key p.nms
  | .addr d => DeclRd E key d
  | .ref d => d.phrase.Rd E key
  | .memFn d _ => DeclRd E key d
  | .memData _ => True

end

theorem withCv_parts {E : Env} {key : Text} {c v : Bool} {el : Ty} (h : TyParts E key el) : TyParts E key (el.withCv c v) := by
  cases el <;> first | exact h | (obtain ⟨h1, h2, h3⟩ := h; simp only [Ty.withCv, Ty.bk, Ty.lays] at *; exact ⟨by simpa [Ty.withCv, Ty.bk] using h1, by simpa [Ty.withCv, Ty.lays] using h2, by simpa [Ty.withCv, Ty.lays] using h3⟩)

theorem Arg.phrase_rd {E : Env} {key : Text} {x : Arg} (hx : x.Parts E key) {p : Pre} {q : Phrase} (h : x.phrase = some (p, q)) : q.Rd E key := by
  cases x with
  | ty t => simp [Arg.phrase] at h; obtain ⟨rfl, rfl⟩ := h; exact ⟨hx, trivial⟩
  | fn s =>
    cases s
    simp [Arg.phrase] at h; obtain ⟨rfl, rfl⟩ := h
    exact hx
  | mfn q s =>
    cases s
    simp [Arg.phrase] at h; obtain ⟨rfl, rfl⟩ := h
    exact hx
  | arr c v dims el =>
    simp [Arg.phrase] at h; obtain ⟨rfl, rfl⟩ := h
    exact ⟨withCv_parts hx, trivial⟩
  | ref d =>
    simp only [Arg.phrase, Option.some.injEq, Prod.mk.injEq] at h; obtain ⟨rfl, rfl⟩ := h
    exact hx
  | int | tmpl | addr | memFn | memData => simp [Arg.phrase] at h

/-- How other arguments start. -/
inductive Odd : Arg → Text → Prop
  | int (s n X) : (∃ c r, X = c :: r ∧ (c.isDigit = true ∨ c = '-')) → Odd (.int s n) X
  | addr (d X) : Odd (.addr d) ('&' :: X)
  | memFn (d offs X) : Odd (.memFn d offs) ('{' :: X)
  | memData (offs X) : Odd (.memData offs) ('{' :: X)
  | tmpl (p X) : WStart X → Odd (.tmpl p) X

theorem Arg.odd {E : Env} {key : Text} {x : Arg} (hx : x.plain key = true) (h : x.phrase = none) {a : Text} (ha : Stop a) : Odd x (x.cpp E ++ a) := by
  cases x with
  | ty | arr | ref => simp [Arg.phrase] at h
  | fn s => cases s; simp [Arg.phrase] at h
  | mfn q s => cases s; simp [Arg.phrase] at h
  | int s n =>
    refine .int s n _ ?_
    obtain ⟨c, r, hc, hd⟩ := nat_head n
    cases s
    · exact ⟨c, r ++ a, by simp [Arg.cpp, part, hc], .inl hd⟩
    · exact ⟨'-', _, rfl, .inr rfl⟩
  | addr d => exact .addr d _
  | memFn d offs =>
    rw [Arg.cpp, List.append_assoc, List.append_assoc, List.append_assoc, List.append_assoc]; exact .memFn d offs _
  | memData offs => rw [Arg.cpp, List.append_assoc, List.append_assoc]; exact .memData offs _
  | tmpl p =>
    simp only [Arg.plain, Bool.and_eq_true, Bool.not_eq_true'] at hx
    rw [Arg.cpp, Path.text_eq]
    exact .tmpl p _ (Path.start hx.2 hx.1 ha.ni)

theorem phraseWords_head : ∀ w ∈ phraseWords ++ [c!"extern", c!"private", c!"protected", c!"public"],
    ∃ c r, w = c :: r ∧ idc c = true ∧ c.isDigit = false := by
  have : ∀ w ∈ phraseWords ++ [c!"extern", c!"private", c!"protected", c!"public"], (w.head?.any fun c => idc c && !c.isDigit) = true := by decide +kernel
  intro w hw
  have := this w hw
  cases w with
  | nil => simp at this
  | cons c r => exact ⟨c, r, rfl, by simpa using this⟩

theorem DStart.head {X : Text} (h : DStart X) : ∃ c r, X = c :: r ∧ (c = '[' ∨ (idc c = true ∧ c.isDigit = false)) := by
  cases X with
  | nil => rcases h with h | h
           · simp at h
           · exact absurd h (by decide +kernel)
  | cons c r =>
    refine ⟨c, r, rfl, ?_⟩
    rcases h with h | h
    · left; simpa using h
    · right
      obtain ⟨d, s, h1, h2, h3⟩ := phraseWords_head _ h
      rw [firstWord, List.takeWhile_cons] at h1
      split at h1
      · injection h1 with h1 _; rw [h1]; exact ⟨h2, h3⟩
      · simp at h1

theorem words_reserved : ∀ w ∈ phraseWords ++ [c!"extern", c!"private", c!"protected", c!"public"], w ∈ reserved ∨ w = c!"std" := by decide +kernel

/-- A qualified name does not start a phrase, except `std`. -/
theorem WStart.dstart {X : Text} (h : WStart X) (h' : DStart X) : ∃ r, X = c!"std" ++ r ∧ NI r := by
  cases h with
  | @word w r h1 h2 =>
    rcases h' with h' | h'
    · cases w with
      | nil => exact absurd rfl (ident_ne h1)
      | cons c w =>
        simp at h'
        have := ident_idc h1 c (by simp)
        rw [h'] at this; exact absurd this (by decide)
    · rw [firstWord_eq (ident_idc h1) h2] at h'
      rcases words_reserved w h' with h | h
      · exact absurd h (ident_reserved h1)
      · rw [h]; exact ⟨r, rfl, h2⟩
  | star r => obtain ⟨c, s, h1, h2⟩ := h'.head; injection h1 with h1 _; rw [← h1] at h2; exact absurd h2 (by decide)
  | amp r => obtain ⟨c, s, h1, h2⟩ := h'.head; injection h1 with h1 _; rw [← h1] at h2; exact absurd h2 (by decide)
  | quote r => obtain ⟨c, s, h1, h2⟩ := h'.head; injection h1 with h1 _; rw [← h1] at h2; exact absurd h2 (by decide)

/-- Only `std::nullptr_t` starts with `std`. -/
theorem full_std {E : Env} (hE : E.flags = Flags.default) {key : Text} {x : Pre} {p : Phrase} (hp : p.Ok key) {a r : Text} (ha : Stop a) (hr : NI r)
    (e : x.text ++ p.text E ++ a = c!"std" ++ r) : ∃ s, r = c!"::nullptr_t" ++ s ∧ NI s := by
  have fw : firstWord (x.text ++ p.text E ++ a) = c!"std" := by rw [e]; exact firstWord_eq (by decide) hr
  have hx : x.text = [] := by
    rcases pre_first x (mem_pres x) with h | h | ⟨h, h'⟩
    · exact h
    · cases hx : x.text with
      | nil => rfl
      | cons c s => rw [hx] at h e; simp at h e; rw [h] at e; simp at e
    · rw [List.append_assoc, firstWord_append h] at fw
      rw [fw] at h'; exact absurd h' (by decide)
  rw [hx, List.nil_append] at fw e
  cases p with
  | ctor f =>
    rw [Phrase.text, FnP.first hp] at fw
    have : ∀ c ∈ convLetters, cword c ≠ c!"std" := by decide
    exact absurd fw (this f.cc (by simpa using hp.conv))
  | ty t u =>
    rw [Phrase.text, typed, List.append_assoc, List.append_assoc] at fw e
    have hX : Follow E (t.left E) (u.mid E (t.left E) ++ (t.right E ++ a)) := Tl.follow hp.2 _ (by rw [Ty.right_eq hE]; exact rights_stop _ ha)
    generalize u.mid E (t.left E) ++ (t.right E ++ a) = X at fw e hX
    obtain ⟨b1, l1, c1⟩ := Ty.lays_ok hp.1
    have e1 := Ty.left_eq hE t hp.1
    rw [e1] at hX fw e
    have fl : Follow E (t.baseText E) (adds E (t.baseText E) t.lays ++ X) := by
      cases hl : t.lays with
      | nil => rw [hl] at hX; simpa [adds] using hX
      | cons l L => rw [adds, List.append_assoc]; exact Lay.follow (l1 l (by simp [hl])) _
    have be := BaseEnd.of (P := t.bk.text E) (c := t.cvOf.1) (v := t.cvOf.2) fl
    rw [List.append_assoc] at fw e
    have e2 : t.bk.text E ++ (Spec.Ty.cvAfter t.cvOf.1 t.cvOf.2 ++ (adds E (t.baseText E) t.lays ++ X)) = c!"std" ++ r := by
      rw [← List.append_assoc]; exact e
    have fw2 : firstWord (t.bk.text E ++ (Spec.Ty.cvAfter t.cvOf.1 t.cvOf.2 ++ (adds E (t.baseText E) t.lays ++ X))) = c!"std" := by
      rw [e2]; exact firstWord_eq (by decide) hr
    generalize Spec.Ty.cvAfter t.cvOf.1 t.cvOf.2 ++ (adds E (t.baseText E) t.lays ++ X) = Z at be e2 fw2
    cases hb : t.bk with
    | tag k p =>
      rw [hb, BK.text, List.append_assoc (tagName k ++ c!" "), firstWord_append (tag_any k (mem_tags k))] at fw2
      have : ∀ k ∈ allTags, firstWord (tagName k ++ c!" ") ≠ c!"std" := by decide +kernel
      exact absurd fw2 (this k (mem_tags k))
    | prim k =>
      have tbl : ∀ k ∈ allPrims, k = .Nullptr ∨ ∃ w s, primName k = w ++ s ∧ w.length = 3 ∧ w ≠ c!"std" := by
        have : ∀ k ∈ allPrims, k = .Nullptr ∨ ((primName k).take 3).length = 3 ∧ (primName k).take 3 ≠ c!"std" := by decide +kernel
        intro k hk
        rcases this k hk with h | ⟨h, h'⟩
        · exact .inl h
        · exact .inr ⟨_, (primName k).drop 3, (List.take_append_drop 3 _).symm, h, h'⟩
      rcases tbl k (mem_prims k) with h | ⟨w, s, h1, h2, h3⟩
      · rw [hb, h] at e2 be
        simp only [BK.text, primName] at e2 be
        refine ⟨Z, ?_, be.ni (wordEnd_of_any (by decide))⟩
        exact (List.append_cancel_left (as := c!"std") e2).symm
      · rw [hb, BK.text, h1, List.append_assoc] at e2
        exact absurd (List.append_inj e2 (by rw [h2]; rfl)).1 h3

/-- No plain qualified name is `std::nullptr_t`. -/
theorem place_nullptr {E : Env} {key : Text} {l : List Nm} (h : PlaceOk key l) {a s : Text} (ha : NI a) (ha' : a.head? ≠ some ':') (hs : NI s) :
    nmText E l ++ a ≠ c!"std" ++ (c!"::nullptr_t" ++ s) := by
  intro e
  have hne := h.ne
  have hpl := h.plain
  have hseg : ∀ x ∈ l, (∃ s, x = .seg s) ∨ ∃ y, x = .spc y := by
    intro x hx
    have := h.place x hx
    cases x <;> simp [Nm.isPlace] at this ⊢
  have one : ∀ {sg : Seg} {w c d : Text}, sg.plain key = true → (∀ x ∈ w, idc x = true) → w ≠ [] → NI c → NI d → d.head? ≠ some '<' → sg.cpp E ++ c = w ++ d → sg = .id w ∧ c = d := by
    intro sg w c d h hw hw0 hc hd hd' e
    cases sg with
    | id t =>
      rw [Seg.cpp] at e
      obtain ⟨h1, h2⟩ := word_read (ident_idc h) hw hc hd e
      rw [h1]; exact ⟨rfl, h2⟩
    | tm t as =>
      simp only [Seg.plain, Bool.and_eq_true] at h
      rw [Seg.cpp, List.append_assoc, List.append_assoc, List.append_assoc] at e
      obtain ⟨h1, h2⟩ := word_read (ident_idc h.1) hw (NI.cons (by decide)) hd e
      rw [← h2] at hd'; simp at hd'
    | anon k =>
      cases w with
      | nil => exact absurd rfl hw0
      | cons x w =>
        have := hw x (by simp)
        rw [Seg.cpp] at e; simp at e; rw [← e.1] at this; exact absurd this (by decide)
    | loc n dd =>
      cases w with
      | nil => exact absurd rfl hw0
      | cons x w =>
        have := hw x (by simp)
        rw [Seg.cpp] at e; simp at e; rw [← e.1] at this; exact absurd this (by decide)
  have ni : ∀ {m : List Nm} {Z : Text}, NI Z → NI (tails c!"::" (Nm.cpp E) m ++ Z) := by
    intro m Z hZ
    cases m with
    | nil => exact hZ
    | cons x m => rw [tails_cons]; exact NI.cons (by decide)
  cases l with
  | nil => exact hne rfl
  | cons x l =>
    obtain ⟨sg, rfl⟩ : ∃ s, x = .seg s := by
      rcases hseg x (by simp) with h | ⟨y, rfl⟩
      · exact h
      · obtain ⟨r, hr⟩ := y.stem_head
        rw [nmText, join_cons, Nm.cpp, hr] at e
        simp at e
    rw [nmText, join_cons, List.append_assoc] at e
    obtain ⟨-, e⟩ := one (hpl _ (List.mem_cons_self)) (by decide) (by decide) (ni ha) (NI.cons (by decide)) (by simp) e
    cases l with
    | nil => rw [tails_nil, List.nil_append] at e; rw [e] at ha'; exact ha' rfl
    | cons y l =>
      obtain ⟨sg', rfl⟩ : ∃ s, y = .seg s := by
        rcases hseg y (by simp) with h | ⟨y, rfl⟩
        · exact h
        · obtain ⟨r, hr⟩ := y.stem_head
          rw [tails_cons, Nm.cpp, hr] at e
          simp at e
      rw [tails_cons, List.append_assoc, List.append_assoc] at e
      have e := List.append_cancel_left (as := c!"::") (cs := c!"nullptr_t" ++ s) e
      have hsg := hpl (.seg sg') (by simp)
      rw [Nm.plain] at hsg
      cases sg' with
      | id t =>
        have := word_read (ident_idc hsg) (w' := c!"nullptr_t") (by decide) (ni ha) hs (by rw [Nm.cpp, Seg.cpp] at e; exact e)
        rw [Seg.plain, this.1] at hsg
        exact absurd hsg (by decide)
      | tm t as =>
        simp only [Seg.plain, Bool.and_eq_true] at hsg
        rw [Nm.cpp, Seg.cpp, List.append_assoc, List.append_assoc, List.append_assoc] at e
        obtain ⟨h1, -⟩ := word_read (ident_idc hsg.1) (w' := c!"nullptr_t") (by decide) (NI.cons (by decide)) hs e
        rw [h1] at hsg
        exact absurd hsg.1 (by decide)
      | anon k => rw [Nm.cpp, Seg.cpp] at e; simp at e
      | loc n dd => rw [Nm.cpp, Seg.cpp] at e; simp at e

theorem path_nullptr {E : Env} {key : Text} {p : Path} (hp : p.plain key = true) (hn : p.isNil = false) {a s : Text} (ha : Stop a) (hs : NI s) :
    nmText E p.nms ++ a ≠ c!"std" ++ (c!"::nullptr_t" ++ s) :=
  place_nullptr (Path.place hp hn) ha.ni (ha.not (by decide)) hs

theorem offs_read {offs offs' : List Int} (h : offs ≠ []) (h' : offs' ≠ []) {a b : Text}
    (e : join c!", " (offs.map sint) ++ '}' :: a = join c!", " (offs'.map sint) ++ '}' :: b) : offs = offs' ∧ a = b := by
  cases offs with
  | nil => exact absurd rfl h
  | cons i l =>
    cases offs' with
    | nil => exact absurd rfl h'
    | cons j l' =>
      rw [join_cons, join_cons, List.append_assoc, List.append_assoc] at e
      have ni : ∀ {m : List Int} {Z : Text}, NI Z → NI (tails c!", " sint m ++ Z) := by
        intro m Z hZ
        cases m with
        | nil => exact hZ
        | cons x m => rw [tails_cons]; exact NI.cons (by decide)
      obtain ⟨h1, e⟩ := sint_read (ni (NI.cons (by decide))) (ni (NI.cons (by decide))) e
      obtain ⟨h2, e⟩ := tails_read (f := sint) (sep := c!", ") (Ok := fun _ => True) (St := fun _ a => NI a) (l := l) (l' := l')
        (fun x _ y _ a b ha hb e => sint_read ha hb e) (fun _ _ => trivial) (fun _ _ => trivial) (fun _ _ r => NI.cons (by decide))
        (fun _ _ => NI.cons (by decide)) (fun _ _ => NI.cons (by decide)) (fun y r _ _ => by simp) (fun y r _ _ => by simp) e
      rw [h1, h2]; exact ⟨rfl, by simpa using e⟩

theorem offs_head {offs : List Int} (h : offs ≠ []) (a : Text) : ∃ c r, join c!", " (offs.map sint) ++ a = c :: r ∧ (c.isDigit = true ∨ c = '-') := by
  cases offs with
  | nil => exact absurd rfl h
  | cons i l =>
    rw [join_cons, sint_eq]
    obtain ⟨c, r, hc, hd⟩ := nat_head i.natAbs
    rw [hc]
    by_cases hi : i < 0
    · rw [decide_eq_true hi]; exact ⟨'-', _, rfl, .inr rfl⟩
    · rw [decide_eq_false hi]; exact ⟨c, _, rfl, .inl hd⟩

theorem Arg.addr_cpp (E : Env) (d : Decl) (a : Text) : (Arg.addr d).cpp E ++ a = '&' :: (d.cpp E ++ a) := rfl
theorem Arg.memFn_cpp (E : Env) (d : Decl) (offs : List Int) (a : Text) : ∃ r, (Arg.memFn d offs).cpp E ++ a = '{' :: r :=
  ⟨_, by simp only [Arg.cpp, List.append_assoc]; rfl⟩
theorem Arg.memData_cpp (E : Env) (offs : List Int) (a : Text) : ∃ r, (Arg.memData offs).cpp E ++ a = '{' :: r :=
  ⟨_, by simp only [Arg.cpp, List.append_assoc]; rfl⟩

theorem Odd.not_phrase {E : Env} (hE : E.flags = Flags.default) {key : Text} {x : Arg} {X : Text} (hx : x.plain key = true) (ho : x.phrase = none) {a : Text} (ha : Stop a)
    (hX : X = x.cpp E ++ a) {y : Pre} {p : Phrase} (hp : p.Ok key) {b : Text} (hb : Stop b) : X ≠ y.text ++ p.text E ++ b := by
  intro e
  have ds := full_start hE (x := y) hp hb
  rw [← e] at ds
  have od := Arg.odd (E := E) hx ho ha
  rw [← hX] at od
  obtain ⟨c, r, h1, h2⟩ := ds.head
  cases od with
  | int s n X h =>
    obtain ⟨c', r', h3, h4⟩ := h
    rw [h3] at h1
    injection h1 with h1 _
    rw [h1] at h4
    rcases h2 with rfl | ⟨h2, h5⟩
    · exact absurd h4 (by decide)
    · rcases h4 with h4 | rfl
      · rw [h4] at h5; simp at h5
      · exact absurd h2 (by decide)
  | addr => injection h1 with h1 _; rw [← h1] at h2; exact absurd h2 (by decide)
  | memFn => injection h1 with h1 _; rw [← h1] at h2; exact absurd h2 (by decide)
  | memData => injection h1 with h1 _; rw [← h1] at h2; exact absurd h2 (by decide)
  | tmpl q X hw =>
    obtain ⟨r, h3, h4⟩ := hw.dstart ds
    rw [h3] at e hX
    obtain ⟨s, h5, h6⟩ := full_std hE hp hb h4 e.symm
    rw [h5, Arg.cpp, Path.text_eq] at hX
    simp only [Arg.plain, Bool.and_eq_true, Bool.not_eq_true'] at hx
    exact path_nullptr hx.2 hx.1 ha h6 hX.symm

theorem arg_read {E : Env} (hE : E.flags = Flags.default) {key : Text} {x : Arg} (hx : x.plain key = true) (rd : x.Parts E key) : ArgRd E key x := by
  intro y hy a b ha hb e
  cases hpx : x.phrase with
  | some z =>
    obtain ⟨p, q⟩ := z
    cases hpy : y.phrase with
    | some z' =>
      obtain ⟨p', q'⟩ := z'
      rw [Arg.phrase_text hE hx hpx, Arg.phrase_text hE hy hpy] at e
      obtain ⟨h1, h2, h3⟩ := full_read hE (Arg.phrase_ok hx hpx) (Arg.phrase_ok hy hpy) (Arg.phrase_rd rd hpx) ha hb e
      rw [← h1, ← h2] at hpy
      exact ⟨Arg.phrase_inj hx hy hpx hpy, h3⟩
    | none =>
      rw [Arg.phrase_text hE hx hpx] at e
      exact absurd e.symm (Odd.not_phrase hE hy hpy hb rfl (Arg.phrase_ok hx hpx) ha)
  | none =>
    cases hpy : y.phrase with
    | some z' =>
      obtain ⟨p', q'⟩ := z'
      rw [Arg.phrase_text hE hy hpy] at e
      exact absurd e (Odd.not_phrase hE hx hpx ha rfl (Arg.phrase_ok hy hpy) hb)
    | none =>
      have ox := Arg.odd (E := E) hx hpx ha
      have oy := Arg.odd (E := E) hy hpy hb
      have o1 := ox
      have o2 := oy
      rw [← e] at oy
      have wd : ∀ {A : Text}, WStart A → ∀ c r, A = c :: r → (c.isDigit = true ∨ c = '-') → False := by
        intro A hA c r h1 h2
        cases hA with
        | @word w s h3 h4 =>
          cases w with
          | nil => exact ident_ne h3 rfl
          | cons d w =>
            injection h1 with h1 _
            rw [← h1] at h2
            rcases h2 with h2 | h2
            · rw [ident_digit h3 d rfl] at h2; simp at h2
            · have := ident_idc h3 d (by simp); rw [h2] at this; exact absurd this (by decide)
        | star | amp | quote => injection h1 with h1 _; rw [← h1] at h2; exact absurd h2 (by decide)
      have wa : ∀ {p : Path} {c A : Text}, p.plain key = true → p.isNil = false → Stop c → (Arg.tmpl p).cpp E ++ c ≠ '&' :: A := by
        intro p c A hp hn hc e
        obtain ⟨x, r, h1, h2⟩ := nms_head (E := E) (Path.plain_nms hp) (Path.nms_ne hn)
        rw [Arg.cpp, Path.text_eq, h1] at e
        injection e with e _
        rw [e] at h2; exact absurd h2 (by decide)
      have wb : ∀ {A r : Text}, WStart A → A ≠ '{' :: r := fun hA => hA.not_head (by decide) (by decide) (by decide) (by decide)
      cases x with
      | ty | arr | ref => simp [Arg.phrase] at hpx
      | fn s => cases s; simp [Arg.phrase] at hpx
      | mfn q s => cases s; simp [Arg.phrase] at hpx
      | int s n =>
        cases y with
        | ty | arr | ref => simp [Arg.phrase] at hpy
        | fn s => cases s; simp [Arg.phrase] at hpy
        | mfn q s => cases s; simp [Arg.phrase] at hpy
        | int s' n' =>
          rw [Arg.cpp, Arg.cpp, List.append_assoc, List.append_assoc] at e
          obtain ⟨h1, h2, h3⟩ := signed_read ha.ni hb.ni e
          rw [h1, h2]; exact ⟨rfl, h3⟩
        | addr d =>
          rw [Arg.addr_cpp] at e
          obtain ⟨_, _, _, c, r, h1, h2⟩ := ox
          all_goals (rw [h1] at e; injection e with e _; rw [e] at h2; exact absurd h2 (by decide))
        | memFn d offs =>
          obtain ⟨_, _, _, c, r, h1, h2⟩ := ox
          all_goals (obtain ⟨z, hz⟩ := Arg.memFn_cpp E d offs b; rw [h1, hz] at e; injection e with e _; rw [e] at h2; exact absurd h2 (by decide))
        | memData offs =>
          obtain ⟨_, _, _, c, r, h1, h2⟩ := ox
          all_goals (obtain ⟨z, hz⟩ := Arg.memData_cpp E offs b; rw [h1, hz] at e; injection e with e _; rw [e] at h2; exact absurd h2 (by decide))
        | tmpl p =>
          obtain ⟨_, _, _, c, r, h1, h2⟩ := ox
          cases oy with
          | tmpl _ _ hw => exact (wd hw c r h1 h2).elim
      | addr d =>
        cases y with
        | ty | arr | ref => simp [Arg.phrase] at hpy
        | fn s => cases s; simp [Arg.phrase] at hpy
        | mfn q s => cases s; simp [Arg.phrase] at hpy
        | int s' n' =>
          cases o2 with
          | int _ _ _ h =>
            obtain ⟨c, r, h1, h2⟩ := h
            rw [h1] at e; injection e with e _; rw [← e] at h2; exact absurd h2 (by decide)
        | addr d' =>
          rw [Arg.cpp, Arg.cpp, List.append_assoc, List.append_assoc, List.append_cancel_left_eq] at e
          obtain ⟨h1, h2⟩ := rd d' hy a b ha hb e
          rw [h1]; exact ⟨rfl, h2⟩
        | memFn d offs => simp [Arg.cpp] at e
        | memData offs => simp [Arg.cpp] at e
        | tmpl p =>
          simp only [Arg.plain, Bool.and_eq_true, Bool.not_eq_true'] at hy
          exact absurd e.symm (wa hy.2 hy.1 hb)
      | memFn d offs =>
        simp only [Arg.plain, Bool.and_eq_true, Bool.not_eq_true', List.isEmpty_eq_false_iff] at hx
        cases y with
        | ty | arr | ref => simp [Arg.phrase] at hpy
        | fn s => cases s; simp [Arg.phrase] at hpy
        | mfn q s => cases s; simp [Arg.phrase] at hpy
        | int s' n' =>
          cases o2 with
          | int _ _ _ h =>
            obtain ⟨c, r, h1, h2⟩ := h
            rw [h1] at e; injection e with e _; rw [← e] at h2; exact absurd h2 (by decide)
        | addr d' => simp [Arg.cpp] at e
        | memFn d' offs' =>
          simp only [Arg.plain, Bool.and_eq_true, Bool.not_eq_true', List.isEmpty_eq_false_iff] at hy
          simp only [Arg.cpp, List.append_assoc, List.append_cancel_left_eq] at e
          obtain ⟨h1, e⟩ := rd d' hy.2 _ _ (Stop.cons (by decide)) (Stop.cons (by decide)) e
          have e := List.append_cancel_left (as := c!", ") e
          obtain ⟨h2, e⟩ := offs_read hx.1 hy.1 e
          rw [h1, h2]; exact ⟨rfl, e⟩
        | memData offs' =>
          simp only [Arg.plain, Bool.not_eq_true', List.isEmpty_eq_false_iff] at hy
          simp only [Arg.cpp, List.append_assoc, List.append_cancel_left_eq] at e
          have ds := Decl.start hE hx.2 (a := c!", " ++ (join c!", " (offs.map sint) ++ (c!"}" ++ a))) (Stop.cons (by decide))
          obtain ⟨c, r, h1, h2⟩ := ds.head
          obtain ⟨c', r', h3, h4⟩ := offs_head hy (c!"}" ++ b)
          rw [e, h3] at h1
          injection h1 with h1 _
          rw [h1] at h4
          rcases h2 with rfl | ⟨h2, h5⟩
          · exact absurd h4 (by decide)
          · rcases h4 with h4 | rfl
            · rw [h4] at h5; simp at h5
            · exact absurd h2 (by decide)
        | tmpl p =>
          cases o2 with
          | tmpl _ _ hw =>
            obtain ⟨z, hz⟩ := Arg.memFn_cpp E d offs a
            rw [hz] at e
            exact absurd e.symm (wb hw)
      | memData offs =>
        simp only [Arg.plain, Bool.not_eq_true', List.isEmpty_eq_false_iff] at hx
        cases y with
        | ty | arr | ref => simp [Arg.phrase] at hpy
        | fn s => cases s; simp [Arg.phrase] at hpy
        | mfn q s => cases s; simp [Arg.phrase] at hpy
        | int s' n' =>
          cases o2 with
          | int _ _ _ h =>
            obtain ⟨c, r, h1, h2⟩ := h
            rw [h1] at e; injection e with e _; rw [← e] at h2; exact absurd h2 (by decide)
        | addr d' => simp [Arg.cpp] at e
        | memFn d' offs' =>
          simp only [Arg.plain, Bool.and_eq_true, Bool.not_eq_true', List.isEmpty_eq_false_iff] at hy
          simp only [Arg.cpp, List.append_assoc, List.append_cancel_left_eq] at e
          have ds := Decl.start hE hy.2 (a := c!", " ++ (join c!", " (offs'.map sint) ++ (c!"}" ++ b))) (Stop.cons (by decide))
          obtain ⟨c, r, h1, h2⟩ := ds.head
          obtain ⟨c', r', h3, h4⟩ := offs_head hx (c!"}" ++ a)
          rw [← e, h3] at h1
          injection h1 with h1 _
          rw [h1] at h4
          rcases h2 with rfl | ⟨h2, h5⟩
          · exact absurd h4 (by decide)
          · rcases h4 with h4 | rfl
            · rw [h4] at h5; simp at h5
            · exact absurd h2 (by decide)
        | memData offs' =>
          simp only [Arg.plain, Bool.not_eq_true', List.isEmpty_eq_false_iff] at hy
          simp only [Arg.cpp, List.append_assoc, List.append_cancel_left_eq] at e
          obtain ⟨h2, e⟩ := offs_read hx hy e
          rw [h2]; exact ⟨rfl, e⟩
        | tmpl p =>
          cases o2 with
          | tmpl _ _ hw =>
            obtain ⟨z, hz⟩ := Arg.memData_cpp E offs a
            rw [hz] at e
            exact absurd e.symm (wb hw)
      | tmpl p =>
        simp only [Arg.plain, Bool.and_eq_true, Bool.not_eq_true'] at hx
        cases ox with
        | tmpl _ _ hw =>
          cases y with
          | ty | arr | ref => simp [Arg.phrase] at hpy
          | fn s => cases s; simp [Arg.phrase] at hpy
          | mfn q s => cases s; simp [Arg.phrase] at hpy
          | int s' n' =>
            cases oy with
            | int _ _ _ h =>
              obtain ⟨c, r, h1, h2⟩ := h
              exact (wd hw c r h1 h2).elim
          | addr d' => exact absurd e (wa hx.2 hx.1 ha)
          | memFn d' offs' => rw [e] at hw; simp only [Arg.cpp, List.append_assoc] at hw; exact absurd rfl (wb hw)
          | memData offs' => rw [e] at hw; simp only [Arg.cpp, List.append_assoc] at hw; exact absurd rfl (wb hw)
          | tmpl p' =>
            simp only [Arg.plain, Bool.and_eq_true, Bool.not_eq_true'] at hy
            rw [Arg.cpp, Arg.cpp, Path.text_eq, Path.text_eq] at e
            obtain ⟨h, e⟩ := names_read rd (Path.plain_nms hx.2) (Path.plain_nms hy.2) (Path.nms_ne hx.1) (Path.nms_ne hy.1)
              (seg_sts ha.seg) (seg_sts hb.seg) ha.pathEnd hb.pathEnd e
            rw [Path.nms_inj h]; exact ⟨rfl, e⟩

theorem Arg.cpp_head {E : Env} (hE : E.flags = Flags.default) {key : Text} {x : Arg} (hx : x.plain key = true) {a : Text} (ha : Stop a) (r : Text) : x.cpp E ++ a ≠ '>' :: r := by
  intro e
  cases hp : x.phrase with
  | some z =>
    obtain ⟨p, q⟩ := z
    rw [Arg.phrase_text hE hx hp] at e
    obtain ⟨c, s, h1, h2⟩ := (full_start hE (x := p) (Arg.phrase_ok hx hp) ha).head
    rw [e] at h1; injection h1 with h1 _; rw [← h1] at h2; exact absurd h2 (by decide)
  | none =>
    have := Arg.odd (E := E) hx hp ha
    rw [e] at this
    cases this with
    | int _ _ _ h => obtain ⟨c, s, h1, h2⟩ := h; injection h1 with h1 _; rw [← h1] at h2; exact absurd h2 (by decide)
    | tmpl _ _ h => exact h.not_head (by decide) (by decide) (by decide) (by decide) rfl

theorem args_read {E : Env} (hE : E.flags = Flags.default) {key : Text} {as bs : Args} (ha : as.plain key = true) (hb : bs.plain key = true)
    (rd : ∀ x ∈ as.toList, ArgRd E key x) {a b : Text} (e : join c!", " (as.list E) ++ '>' :: a = join c!", " (bs.list E) ++ '>' :: b) : as = bs ∧ a = b := by
  suffices h : as.toList = bs.toList ∧ a = b from ⟨Args.toList_inj ha hb h.1, h.2⟩
  have pa := Args.plain_mem ha
  have pb := Args.plain_mem hb
  rw [Args.list_eq, Args.list_eq] at e
  generalize as.toList = l at *
  generalize bs.toList = l' at *
  have st : ∀ {m : List Arg} {c : Text}, Stop c → Stop (tails c!", " (Arg.cpp E) m ++ c) := by
    intro m c hc
    cases m with
    | nil => exact hc
    | cons w m => rw [tails_cons]; exact Stop.cons (by decide)
  cases l with
  | nil =>
    cases l' with
    | nil => exact ⟨rfl, by simpa [join] using e⟩
    | cons y l' =>
      rw [join_cons, List.append_assoc] at e
      exact absurd e.symm (Arg.cpp_head hE (pb y (by simp)) (st (Stop.cons (by decide))) _)
  | cons x l =>
    cases l' with
    | nil =>
      rw [join_cons, List.append_assoc] at e
      exact absurd e (Arg.cpp_head hE (pa x (by simp)) (st (Stop.cons (by decide))) _)
    | cons y l' =>
      rw [join_cons, join_cons, List.append_assoc, List.append_assoc] at e
      obtain ⟨h1, e⟩ := rd x (by simp) y (pb y (by simp)) _ _ (st (Stop.cons (by decide))) (st (Stop.cons (by decide))) e
      obtain ⟨h2, e⟩ := tails_read (f := Arg.cpp E) (sep := c!", ") (Ok := fun t => t.plain key = true) (St := fun _ a => Stop a) (l := l) (l' := l')
        (fun x hx y hy a b ha hb e => rd x (by simp [hx]) y hy a b ha hb e)
        (fun x hx => pa x (by simp [hx])) (fun x hx => pb x (by simp [hx])) (fun x _ r => Stop.cons (by decide))
        (fun _ _ => Stop.cons (by decide)) (fun _ _ => Stop.cons (by decide)) (fun y r _ _ => by simp) (fun y r _ _ => by simp) e
      rw [h1, h2]; exact ⟨rfl, by simpa using e⟩

end Undname.Spec.Cxx
