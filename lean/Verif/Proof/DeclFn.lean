/-
  Functions of the small language inside the grammar.
-/
import Verif.Proof.Decl

namespace Undname
open Spec

namespace Spec.Fn

theorem param_ok {t : Ty} (h : IsParam t) : t.Ok ∧ t.core = t.tree := by
  cases t with
  | prim k c v => obtain ⟨_, rfl, rfl⟩ := h; exact ⟨trivial, rfl⟩
  | tag k p c v => obtain ⟨h, rfl, rfl⟩ := h; exact ⟨h, rfl⟩
  | ptr c v to => exact ⟨h, rfl⟩
  | ref to => exact ⟨h, rfl⟩
  | rref to => exact ⟨h, rfl⟩

theorem mangle_head (w : Bool) (t : Ty) : (t.mangle w).head? ≠ some '?' ∧ t.mangle w ≠ [] := by
  cases t with
  | prim k c v => show (primCode k).head? ≠ _ ∧ primCode k ≠ _; cases k <;> decide
  | tag k p c v => cases k <;> simp [Ty.mangle, tagCode]
  | ptr c v to => cases c <;> cases v <;> simp [Ty.mangle, Ty.ptrLetter]
  | ref to => simp [Ty.mangle]
  | rref to => simp [Ty.mangle]

theorem param_head {t : Ty} (h : IsParam t) (w : Bool) : (t.mangle w).head? ≠ some 'X' := by
  cases t with
  | prim k c v =>
    have := h.1
    revert this
    cases k <;> first | (intro h; exact absurd rfl h) | (intro _; show (primCode _).head? ≠ _; decide)
  | tag k p c v => cases k <;> simp [Ty.mangle, tagCode]
  | ptr c v to => cases c <;> cases v <;> simp [Ty.mangle, Ty.ptrLetter]
  | ref to => simp [Ty.mangle]
  | rref to => simp [Ty.mangle]

def retT : Option Ty → T
  | none => .nil
  | some t => t.tree.one

theorem ret_gram {E : Env} (w : Bool) {r : Option Ty} (h : ∀ t, r = some t → t.Ok) (tb : Tbl) :
    ∃ tb', Gram E .ret tb (retT r) (mangleRet w r) tb' := by
  cases r with
  | none => exact ⟨tb, .retNone⟩
  | some t =>
    obtain ⟨tb', g⟩ := Ty.core_gram (E := E) w (h t rfl) tb
    refine ⟨tb', .retSome ?_⟩
    have hl := List.mem_append_left memberCvCodes t.letter_mem
    cases t with
    | prim k c v =>
      show Gram E .tyR tb _ (if c || v then _ else _) tb'
      cases hcv : c || v with
      | false =>
        obtain ⟨rfl, rfl⟩ : c = false ∧ v = false := by simpa using hcv
        rw [if_neg (by decide)]
        exact .resPlain g (mangle_head w (.prim k false false)).1
      | true =>
        rw [if_pos rfl]
        exact cast (by rw [Ty.core_addQ]; rfl) (Gram.resQual hl g)
    | tag k p c v => exact cast (by rw [Ty.core_addQ]; rfl) (Gram.resQual hl g)
    | ptr c v to => exact .resPlain g (mangle_head w _).1
    | ref to => exact .resPlain g (mangle_head w _).1
    | rref to => exact .resPlain g (mangle_head w _).1

theorem plist_gram {E : Env} (w : Bool) {ts : List Ty} (h : ∀ t ∈ ts, IsParam t) (tb : Tbl) :
    ∃ tb', Gram E .plist tb (tl (ts.map Ty.tree)) (ts.flatMap (Ty.mangle w)) tb' := by
  induction ts generalizing tb with
  | nil => exact ⟨tb, .pNil⟩
  | cons t ts ih =>
    obtain ⟨ht, hc⟩ := param_ok (h t (by simp))
    obtain ⟨tb1, g⟩ := Ty.core_gram (E := E) w ht tb
    rw [hc] at g
    have h' : ∀ t ∈ ts, IsParam t := fun t ht => h t (by simp [ht])
    by_cases hl : (t.mangle w).length = 1
    · obtain ⟨tb', g'⟩ := ih h' tb1
      exact ⟨tb', .pLetter g hl g'⟩
    · obtain ⟨tb', g'⟩ := ih h' (tb1.noteParam t.tree)
      exact ⟨tb', .pType g hl g'⟩

theorem plist_head (w : Bool) {ts : List Ty} (h : ∀ t ∈ ts, IsParam t) :
    (ts.flatMap (Ty.mangle w)).head? ≠ some 'X' := by
  cases ts with
  | nil => simp
  | cons t ts =>
    rw [List.flatMap_cons, List.head?_append]
    have h1 := param_head (h t (by simp)) w
    have h2 := (mangle_head w t).2
    revert h1 h2
    cases t.mangle w <;> simp

/-- The parameters as a tree. -/
def paramsT (f : Fn) : T := if f.params.isEmpty && !f.variadic then .nil else T.one (.arr (tl (f.params.map Ty.tree)))

theorem params_gram {E : Env} (w : Bool) {f : Fn} (h : f.Ok) (tb : Tbl) :
    ∃ tb', Gram E (.params f.variadic) tb f.paramsT (mangleParams w f) tb' := by
  unfold paramsT mangleParams
  cases hv : f.variadic with
  | true =>
    obtain ⟨tb', g⟩ := plist_gram (E := E) w h.params tb
    refine ⟨tb', ?_⟩
    simpa using Gram.pVariadic g (plist_head w h.params)
  | false =>
    cases he : f.params.isEmpty with
    | true => exact ⟨tb, by simpa using Gram.pVoid⟩
    | false =>
      obtain ⟨tb', g⟩ := plist_gram (E := E) w h.params tb
      refine ⟨tb', ?_⟩
      simpa using Gram.pFixed g (plist_head w h.params)

/-- The signature as a tree. -/
def sg (f : Fn) : Sig := { conv := convOf f.cc, variadic := f.variadic, isNoexcept := f.noexc }

theorem throw_eq (b : Bool) : throwCode b = if b then c!"_E" else c!"Z" := rfl

theorem fty_gram {E : Env} (w : Bool) {f : Fn} (h : f.Ok) (tb : Tbl) :
    ∃ tb', Gram E (.fty false) tb (.sig f.sg (retT f.ret) f.paramsT) (f.mangle w) tb' := by
  obtain ⟨tb1, g1⟩ := ret_gram (E := E) w h.ret tb
  obtain ⟨tb2, g2⟩ := params_gram (E := E) w h tb1
  exact ⟨tb2, .fn f.cc f.noexc g1 g2⟩

theorem ftyThis_gram {E : Env} (w : Bool) (c v : Bool) {f : Fn} (h : f.Ok) (tb : Tbl) :
    ∃ tb', Gram E (.fty true) tb (.sig { f.sg with cv := { c, v } } (retT f.ret) f.paramsT)
      (Ty.wide w ++ [Ty.cvLetter c v] ++ f.mangle w) tb' := by
  obtain ⟨tb1, g1⟩ := ret_gram (E := E) w h.ret tb
  obtain ⟨tb2, g2⟩ := params_gram (E := E) w h tb1
  refine ⟨tb2, ?_⟩
  have hl := List.mem_append_left memberCvCodes (Ty.prim .Int c v).letter_mem
  have := Gram.fnThis ⟨w, false, false⟩ none f.cc f.noexc hl g1 g2
  rw [Ty.wide_code, Ty.wide_cv, Ty.nil_or] at this
  exact cast (by simp [sg, Ty.letter, Ty.ctxCV, refCode, mangle, throwCode]) this

theorem seq_tys {E : Env} (hE : Plain E) (ts : List Ty) (sep w : Text) :
    ((tl (ts.map Ty.tree)).pr E).seq sep w = w ++ join sep (ts.map (Ty.cpp E)) := by
  have tail : ∀ (ts : List Ty) w, ((tl (ts.map Ty.tree)).pr E).tail sep w = w ++ (ts.map (Ty.cpp E)).flatMap (sep ++ ·) := by
    intro ts
    induction ts with
    | nil => intro w; simp [tl, T.pr, Pr.nil]
    | cons t ts ih => intro w; simp [tl, T.pr, Pr.cons, ih, (Ty.tree_pr hE t).2.2.2]
  cases ts with
  | nil => simp [tl, T.pr, Pr.nil, join]
  | cons t ts => 
    have := tail ts
    simp only [List.map_cons, tl, T.pr, Pr.cons, (Ty.tree_pr hE t).2.2.2, join_cons, this]
    simp

theorem join_ne {sep : Text} {l : List Text} (h : ∀ a ∈ l, a ≠ []) (hl : l ≠ []) : join sep l ≠ [] := by
  cases l with
  | nil => exact absurd rfl hl
  | cons a l => rw [join_cons]; simp [h a (by simp)]

/-- The complete signature. -/
def sgOf (f : Fn) (c v : Bool) (k : FnKind) : Sig :=
  { kind := k, cv := { c, v }, conv := convOf f.cc, variadic := f.variadic, isNoexcept := f.noexc }

theorem params_out {E : Env} (hE : Plain E) (f : Fn) (c v : Bool) (k : FnKind) (w : Text)
    (hv : f.variadic = true → '(' ∉ (f.params.map (Ty.cpp E)).flatten) :
    paramsOut (f.sgOf c v k) (f.paramsT.pr E) w = w ++ f.cppParams E := by
  obtain ⟨cc, ret, params, vr, ne⟩ := f
  unfold paramsOut paramsT cppParams
  simp only [sgOf] at hv ⊢
  have hs := seq_tys hE params c!", "
  cases params with
  | nil =>
    cases vr with
    | true => simp [T.pr, T.one, Pr.cons, Pr.ofText, tl, Pr.nil]
    | false => simp [T.pr, Pr.nil]
  | cons t ts =>
    simp only [List.isEmpty_cons, Bool.false_and, Bool.false_eq_true, if_false, T.one, T.pr, Pr.cons, Pr.ofText, if_true, hs]
    generalize hl : List.map (Ty.cpp E) (t :: ts) = l at hv
    have hj : join c!", " l ≠ [] := by
      subst hl
      refine join_ne ?_ (by simp)
      intro a ha
      obtain ⟨t, _, rfl⟩ := List.mem_map.1 ha
      exact Ty.cpp_ne E t
    cases vr with
    | false => simp
    | true =>
      have h1 : (w ++ c!"(" ++ join c!", " l).getLast? ≠ some '(' := by
        intro h
        rw [List.getLast?_append] at h
        have h : (join c!", " l).getLast? = some '(' := by
          rw [List.getLast?_eq_some_getLast hj] at h ⊢
          simpa using h
        have := List.mem_of_getLast? h
        refine hv rfl ?_
        cases l with
        | nil => exact absurd rfl hj
        | cons a l =>
          rw [join_cons] at this
          simp only [List.mem_append, List.mem_flatMap, List.flatten_cons, List.mem_flatten] at this ⊢
          rcases this with h | ⟨b, hb, h⟩
          · exact .inl h
          · rcases h with h | h
            · exact absurd h (by decide)
            · exact .inr ⟨b, hb, h⟩
      rw [if_pos rfl, if_neg (by simpa using h1)]
      simp

end Spec.Fn


theorem convWord_conv {cc : Char} {conv : Text} (h : convWord cc = some conv) {E : Env} (hE : Plain E) :
    ∃ k, convOf cc = some k ∧ convName E k = conv := by
  revert h
  unfold convWord
  split <;> intro h <;> first | cases h | skip
  all_goals
    refine ⟨_, rfl, ?_⟩
    simp only [convName, msWord, hE.n8]
    rfl

theorem sp_conv {cc : Char} {conv : Text} (h : convWord cc = some conv) (E : Env) (w : Text) :
    sp E (w ++ conv) = w ++ conv ++ c!" " := by
  have : conv ≠ [] ∧ sp E conv = conv ++ c!" " := by
    revert h
    unfold convWord
    split <;> intro h <;> first | cases h | skip
    all_goals exact ⟨by decide, rfl⟩
  rw [sp_append E w conv this.1, this.2, List.append_assoc]

/-- The words of a kind of function. -/
def kindText (k : FnKind) : Text :=
  (match k.access with | some a => accessName a | none => []) ++
  ((if k.isStatic then c!"static " else []) ++ (if k.isVirtual then c!"virtual " else []) ++
    (if k.externC then c!"extern \"C\" " else []))

/-- The part of a signature before the name. -/
theorem fn_pre {E : Env} (hE : Plain E) {f : Fn} {conv : Text} (hc : convWord f.cc = some conv) (k : FnKind) (c v : Bool)
    (u : Text) (hk : sp E (u ++ kindText k) = u ++ kindText k) :
    sigPre E (f.sgOf c v k) ((Fn.retT f.ret).pr E) false u = u ++ (kindText k ++ f.cppRet E ++ conv) := by
  obtain ⟨kc, hk1, hk2⟩ := convWord_conv hc hE
  unfold sigPre
  simp only [hE.n1, hE.n3, hE.n4, hE.n5, hE.n9, hE.n10, Fn.sgOf, hk1, hk2]
  unfold Fn.cppRet
  cases hr : f.ret with
  | none =>
    obtain ⟨acc, st, vi, ec, ba⟩ := k
    simp only [kindText] at hk ⊢
    simp only [Fn.retT, T.pr, Pr.nil]
    cases acc <;> simpa using congrArg (· ++ conv) hk
  | some t =>
    simp [Fn.retT, T.one, T.pr, Pr.cons, (Ty.tree_pr hE t).2.1]
    simp only [← List.append_assoc]
    rw [sp_blank]
    simp [kindText]
    rfl

/-- The part of a signature after the name. -/
theorem fn_post {E : Env} (hE : Plain E) {f : Fn}
    (hv : f.variadic = true → '(' ∉ (f.params.map (Ty.cpp E)).flatten) (k : FnKind) (hb : k.bare = false) (c v : Bool) (w : Text) :
    sigPost E (f.sgOf c v k) ((Fn.retT f.ret).pr E) (f.paramsT.pr E) false w =
      w ++ f.cppParams E ++ Ty.cvAfter c v ++ (if f.noexc then c!" noexcept" else []) := by
  have hp := fun w => Fn.params_out hE f c v k w hv
  have hpost : ∀ w, ((Fn.retT f.ret).pr E).post false w = w := by
    intro w
    cases hr : f.ret with
    | none => simp [Fn.retT, T.pr, Pr.nil]
    | some t => simp [Fn.retT, T.one, T.pr, Pr.cons, (Ty.tree_pr hE t).2.2.1]
  have hthis : CV.this E { c, v } = Ty.cvAfter c v := by
    simp only [CV.this, hE.n9]
    cases c <;> cases v <;> rfl
  unfold sigPost
  simp only [hE.n5, hE.n7, hE.n10, hpost]
  have h1 : (f.sgOf c v k).ref = none := rfl
  have h2 : (f.sgOf c v k).isNoexcept = f.noexc := rfl
  have h3 : (f.sgOf c v k).kind = k := rfl
  have h4 : (f.sgOf c v k).cv = { c, v } := rfl
  rw [h1, h2, h3, h4]
  simp only [hb, hp, hthis]
  simp [refName]

/-- The text of a function whose words before the return type end in a blank. -/
theorem fn_text {E : Env} (hE : Plain E) {f : Fn} {conv : Text} (hc : convWord f.cc = some conv)
    (hv : f.variadic = true → '(' ∉ (f.params.map (Ty.cpp E)).flatten) (k : FnKind) (hb : k.bare = false) (c v : Bool)
    (hk : sp E (kindText k) = kindText k)
    (name : T) (nt : Text) (hn : ∀ w, (name.pr E).out w = w ++ nt) :
    (T.fn name (.sig (f.sgOf c v k) (Fn.retT f.ret) f.paramsT)).text E =
      kindText k ++ f.cppRet E ++ conv ++ c!" " ++ nt ++ f.cppParams E ++ Ty.cvAfter c v ++
        (if f.noexc then c!" noexcept" else []) := by
  have hpre := fn_pre hE hc k c v [] (by simpa using hk)
  simp only [T.text, T.pr, Pr.ofText, Pr.ofType, hpre, fn_post hE hv k hb c v, hn]
  simp only [List.nil_append]
  rw [sp_conv hc]

/-- The text of a thunk. -/
theorem thunk_text {E : Env} (hE : Plain E) {f : Fn} {conv : Text} (hc : convWord f.cc = some conv)
    (hv : f.variadic = true → '(' ∉ (f.params.map (Ty.cpp E)).flatten) (k : FnKind) (hb : k.bare = false) (c v : Bool)
    (hk : kindText k ≠ []) (hk' : sp E (kindText k) = kindText k) (adj : Adjust)
    (name : T) (nt : Text) (hn : ∀ w, (name.pr E).out w = w ++ nt) :
    (T.fn name (.thunk (f.sgOf c v k) adj (Fn.retT f.ret) f.paramsT)).text E =
      c!"[thunk]: " ++ kindText k ++ f.cppRet E ++ conv ++ c!" " ++ nt ++ adj.text ++ f.cppParams E ++ Ty.cvAfter c v ++
        (if f.noexc then c!" noexcept" else []) := by
  have hpre := fn_pre hE hc k c v c!"[thunk]: " (by rw [sp_append E _ _ hk, hk'])
  have ht : thunkPrefix E = c!"[thunk]: " := by simp [thunkPrefix, hE.n10]
  simp only [T.text, T.pr, Pr.ofText, Pr.ofType, ht, List.nil_append, hpre, fn_post hE hv k hb c v, hn]
  rw [← List.append_assoc, sp_conv hc]
  simp

theorem fn_gram {E : Env} {name : List Text} (hn : IsPath name) {sg : T} {z : Text}
    (hz : ∀ tb, ∃ tb', Gram E .fenc tb sg z tb') (tb : Tbl) :
    ∃ tb', Gram E .sym tb (.fn (.qname (pathT name)) sg) (c!"?" ++ manglePath name ++ z) tb' := by
  obtain ⟨hne, hp⟩ := hn
  cases name with
  | nil => exact absurd rfl hne
  | cons s p =>
    obtain ⟨tb1, h1⟩ := scopes_gram (E := E) (p := p) (fun s hs => hp s (by simp [hs])) (tb.note s)
    obtain ⟨tb2, h2⟩ := hz tb1
    refine ⟨tb2, ?_⟩
    have hs := sname_gram (E := E) (hp s (by simp)) tb
    rw [pathT_cons, manglePath_cons]
    exact cast (by simp) (sym_of (.func hs rfl h1 h2) hs rfl)

theorem global_fenc {E : Env} (w : Bool) {f : Fn} (h : f.Ok) (tb : Tbl) :
    ∃ tb', Gram E .fenc tb (.sig (f.sgOf false false {}) (Fn.retT f.ret) f.paramsT)
      (c!"Y" ++ f.mangle w) tb' := by
  obtain ⟨tb', g⟩ := Fn.fty_gram (E := E) w h tb
  have hm : (c!"Y", ({} : FnKind), AdjKind.none) ∈ classCodes := by decide
  exact ⟨tb', cast (by simp [Fn.sg, Fn.sgOf]) (Gram.fenc false hm .none g)⟩

theorem member_code {code : Char} {what : Text} {this : Bool} (h : (code, what, this) ∈ memberCodes) :
    ∃ k : FnKind, ([code], k, AdjKind.none) ∈ classCodes ∧ k.hasThis = this ∧ k.bare = false ∧ k.externC = false ∧
      kindText k = what ∧ ∀ E, sp E what = what := by
  simp only [memberCodes, List.mem_cons, Prod.mk.injEq, List.not_mem_nil, or_false] at h
  rcases h with ⟨rfl, rfl, rfl⟩ | ⟨rfl, rfl, rfl⟩ | ⟨rfl, rfl, rfl⟩ | ⟨rfl, rfl, rfl⟩ | ⟨rfl, rfl, rfl⟩ |
    ⟨rfl, rfl, rfl⟩ | ⟨rfl, rfl, rfl⟩ | ⟨rfl, rfl, rfl⟩ | ⟨rfl, rfl, rfl⟩
  · exact ⟨{ access := some .priv }, by decide, rfl, rfl, rfl, rfl, fun _ => rfl⟩
  · exact ⟨{ access := some .priv, isStatic := true }, by decide, rfl, rfl, rfl, rfl, fun _ => rfl⟩
  · exact ⟨{ access := some .priv, isVirtual := true }, by decide, rfl, rfl, rfl, rfl, fun _ => rfl⟩
  · exact ⟨{ access := some .prot }, by decide, rfl, rfl, rfl, rfl, fun _ => rfl⟩
  · exact ⟨{ access := some .prot, isStatic := true }, by decide, rfl, rfl, rfl, rfl, fun _ => rfl⟩
  · exact ⟨{ access := some .prot, isVirtual := true }, by decide, rfl, rfl, rfl, rfl, fun _ => rfl⟩
  · exact ⟨{ access := some .publ }, by decide, rfl, rfl, rfl, rfl, fun _ => rfl⟩
  · exact ⟨{ access := some .publ, isStatic := true }, by decide, rfl, rfl, rfl, rfl, fun _ => rfl⟩
  · exact ⟨{ access := some .publ, isVirtual := true }, by decide, rfl, rfl, rfl, rfl, fun _ => rfl⟩

theorem member_fenc {E : Env} (w : Bool) {f : Fn} (h : f.Ok) (c v : Bool) {code : Char} {k : FnKind}
    (hm : ([code], k, AdjKind.none) ∈ classCodes) (he : k.externC = false) (tb : Tbl) :
    ∃ tb', Gram E .fenc tb
      (.sig (f.sgOf (k.hasThis && c) (k.hasThis && v) k) (Fn.retT f.ret) f.paramsT)
      ([code] ++ (if k.hasThis then Ty.wide w ++ [Ty.cvLetter c v] else []) ++ f.mangle w) tb' := by
  have hk : { k with externC := false } = k := by cases k; simp_all
  cases ht : k.hasThis with
  | true =>
    obtain ⟨tb', g⟩ := Fn.ftyThis_gram (E := E) w c v h tb
    rw [← ht] at g
    exact ⟨tb', cast (by simp [Fn.sg, Fn.sgOf, hk]) (Gram.fenc false hm .none g)⟩
  | false =>
    obtain ⟨tb', g⟩ := Fn.fty_gram (E := E) w h tb
    rw [← ht] at g
    exact ⟨tb', cast (by simp [Fn.sg, Fn.sgOf, hk]) (Gram.fenc false hm .none g)⟩

end Undname
