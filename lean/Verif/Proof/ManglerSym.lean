/-
  What the mangler of `Spec/MangledSym.lean` writes is read by the grammar as the intended tree.
-/
import Verif.Proof.ManglerGram
import Verif.Spec.MangledSym

namespace Undname
open Spec
namespace Spec.Cxx

/-! ### Texts of the trees -/

/-- A leaf with a fixed text. -/
def Leaf (E : Env) (t : T) (s : Text) : Prop := ∀ u, (t.pr E).out u = u ++ s

theorem leaf_named (E : Env) (s : Text) : Leaf E (.named s .nil) s := by
  intro u; simp [T.pr, Pr.ofText, targsOut, Pr.nil]

theorem leaf_qname {E : Env} {p : Path} (h : p.Ok E) {i : T} {s : Text} (hi : Leaf E i s) :
    Leaf E (.qname ((p.tree E).snoc i)) (showPath (s :: p.names E)) :=
  qname_snoc hi (Path.pr_eq p h)

theorem Path.IsType.ok' {E : Env} {p : Path} (h : p.IsType E) : p.Ok E := by
  cases p with
  | nil => rw [Path.IsType] at h; cases h
  | cons s p => rw [Path.IsType] at h; rw [Path.Ok]; exact h.2

theorem before_cv (E : Env) (c v : Bool) : CV.before E { c, v } = cvBefore c v := by
  cases c <;> cases v <;> simp [CV.before, CV.sep, CV.after, CV.words, cvBefore]

theorem table_text {E : Env} {cls target : Path} (hc : cls.Ok E) (ht : target.Ok E) (t : Table) (c v : Bool) :
    (T.table { c, v } (.qname ((cls.tree E).snoc (.named t.name .nil))) (if target = .nil then .nil else T.one (.qname (target.tree E)))).text E =
      (Sym.table t cls c v target).cpp E := by
  have h1 := leaf_qname hc (leaf_named E t.name)
  unfold T.text Sym.cpp
  have key : ∀ q n tg, ((T.table q n tg).pr E).out [] =
      (if (tg.pr E).some then (tg.pr E).out ((n.pr E).out ([] ++ (if E.flags.name_only then [] else q.before E)) ++ c!"{for `") ++ c!"'}"
        else (n.pr E).out ([] ++ (if E.flags.name_only then [] else q.before E))) := fun _ _ _ => rfl
  rw [key, h1, before_cv]
  by_cases hn : target = .nil
  · subst hn
    by_cases hf : E.flags.name_only = true <;> simp [T.pr, Pr.nil, part, hf]
  · have h2 := (Path.pr_eq target ht).2
    rw [if_neg hn, if_pos (by rfl)]
    dsimp only
    rw [if_neg hn]
    have e : ∀ u, ((T.one (.qname (target.tree E))).pr E).out u = u ++ showPath (target.names E) := h2
    rw [e]
    by_cases hf : E.flags.name_only = true <;> simp [part, hf]

theorem untyped_text {E : Env} {n : T} {s : Text} (h : Leaf E n s) : (T.var none n .nil).text E = s := by
  have key : (T.var none n .nil).text E = (if !E.flags.no_variable_type && !E.flags.name_only && false then
    (T.nil.pr E).post false ((n.pr E).out (sp E ((T.nil.pr E).pre false ([] ++ storageText E none)))) else (n.pr E).out ([] ++ storageText E none)) := rfl
  rw [key, h, h]
  simp [storageText, storageAccess]

theorem vcall_text {E : Env} {cls : Path} (hc : cls.Ok E) (n : Nat) {cc : Char} (h : (convWord cc).isSome = true) :
    (T.fn (.qname ((cls.tree E).snoc (.vcall n))) (.thunk { kind := { bare := true }, conv := convOf cc } .none .nil .nil)).text E =
      (Sym.vcall cls n cc).cpp E := by
  have h0 : Leaf E (.vcall n) (c!"`vcall'{" ++ nat n ++ part (!E.flags.name_only) c!", {flat}" ++ c!"}") := by
    intro u
    by_cases hf : E.flags.name_only = true <;> simp [T.pr, Pr.ofText, part, hf]
  have h1 := leaf_qname hc h0
  have key : ∀ n sg, (T.fn n sg).text E = (sg.pr E).post false ((n.pr E).out (sp E ((sg.pr E).pre false []))) := fun _ _ => rfl
  have hb : Ctx E (thunkPrefix E) := by
    unfold thunkPrefix
    split
    · exact Ctx.nil E
    · exact Ctx.of (by decide) rfl []
  have e1 : ∀ f ad, ((T.thunk f ad .nil .nil).pr E).pre false [] = sigPre E f (T.nil.pr E) false (thunkPrefix E) := fun _ _ => rfl
  have e2 : ∀ f (ad : Adjust) (u : Text), ((T.thunk f ad .nil .nil).pr E).post false u = sigPost E f (T.nil.pr E) (T.nil.pr E) false (u ++ ad.text) := fun _ _ _ => rfl
  rw [key, e1, e2, sigPre_fn (R := T.nil.pr E) (L := none) (by rfl) h rfl _ hb]
  have e3 : kindCpp E ({ bare := true } : FnKind) ++ retCpp E none = [] := by
    by_cases h1 : E.flags.no_access_specifier = true <;> by_cases h2 : E.flags.name_only = true <;> by_cases h3 : E.flags.no_member_type = true <;>
      simp [kindCpp, retCpp, part]
  have := sp_fn (E := E) (w := thunkPrefix E) (k := []) (r := []) h hb (.inl rfl) (.inl rfl)
  simp only [List.nil_append, List.append_nil] at this e3
  rw [e3, List.nil_append, this, h1]
  unfold Sym.cpp sigPost
  by_cases hf : E.flags.name_only = true <;> simp [thunkPrefix, part, hf, T.pr, Pr.nil, CV.this, refName, Adjust.text]

theorem init_text {E : Env} {k : Kind} {s : Sig} (h : s.Ok E) {n : T} {nt : Text} (hn : Leaf E n nt) :
    (T.fn (.qname (T.one n)) (k.wrap (s.fsig k.fk k.this) (s.retT E) (s.parT E))).text E =
      k.cpp E ++ s.ret E ++ s.conv E ++ nt ++ k.adjCpp ++ part (shows.params E) (s.params E) ++ s.right E k.this := by
  have h1 : Leaf E (.qname (T.one n)) nt := by
    have := leaf_qname (E := E) (p := .nil) (by rw [Path.Ok]; trivial) hn
    rw [Path.names] at this
    rw [Path.tree] at this
    exact this
  exact ((Sig.pr_eq s h).fnOut k h1 [] (Ctx.nil E)).trans (List.nil_append _)

/-! ### Reading -/

theorem tyR_gram {E : Env} {L : List Seg} {t : Ty} {st st' : Seen} {x : Text} (g0 : Reads E L .ty st (t.core E) x st') (hx : x.head? ≠ some '?') :
    Reads E L .tyR st (t.tree E) (t.retCode ++ x) st' := by
  intro tb hl
  obtain ⟨t', tb', g, ha, hl⟩ := g0 tb hl
  cases t with
  | prim k c v =>
    show ∃ (t' : T) (tb' : Tbl), Gram E _ tb t' ((if c || v then ['?', Spec.Ty.cvLetter c v] else []) ++ x) tb' ∧ _
    split
    · have := Gram.resQual (List.mem_append_left memberCvCodes (cvLetter_mem c v)) g
      refine ⟨_, _, this, ?_, hl⟩
      exact cast (by simp [Ty.core, T.addQ, Ty.tree, CV.or]) (ha.addQ { c, v })
    · next h =>
      have hc : c = false ∧ v = false := by cases c <;> cases v <;> simp_all
      obtain ⟨rfl, rfl⟩ := hc
      exact ⟨_, _, .resPlain g hx, ha, hl⟩
  | tag k p c v =>
    have := Gram.resQual (List.mem_append_left memberCvCodes (cvLetter_mem c v)) g
    refine ⟨_, _, this, ?_, hl⟩
    exact cast (by simp [Ty.core, T.addQ, Ty.tree, CV.or]) (ha.addQ { c, v })
  | _ => exact ⟨_, _, .resPlain g hx, ha, hl⟩

theorem Table.mem (t : Table) : ∃ code, t.code = '?' :: code ∧ (code, t.name) ∈ tableCodes := by
  cases t
  · exact ⟨c!"?_7", rfl, by decide⟩
  · exact ⟨c!"?_8", rfl, by decide⟩
  · exact ⟨c!"?_S", rfl, by decide⟩
  · exact ⟨c!"?_R4", rfl, by decide⟩

theorem alike_var {E : Env} {t : T} {sc : Option StorageClass} {n ty : T} (h : Alike E t (.var sc n ty)) :
    ∃ (n' ty' : T), t = .var sc n' ty' ∧ Alike E n' n ∧ Alike E ty' ty := by
  cases h with
  | refl => exact ⟨_, _, rfl, .refl _, .refl _⟩
  | var _ h1 h2 => exact ⟨_, _, rfl, h1, h2⟩

theorem alike_fn {E : Env} {t n s : T} (h : Alike E t (.fn n s)) : ∃ (n' s' : T), t = .fn n' s' ∧ Alike E n' n ∧ Alike E s' s := by
  cases h with
  | refl => exact ⟨_, _, rfl, .refl _, .refl _⟩
  | fn h1 h2 => exact ⟨_, _, rfl, h1, h2⟩

/-- The text of the symbol, and what the grammar reads of it. -/
def SymRead (E : Env) (y : Sym) (w : Bool) : Prop :=
  ∃ (t : T) (x rest : Text) (tb : Tbl), y.mangle w = x ++ rest ∧ Gram E .sym {} t x tb ∧ t.text E = y.cpp E

theorem Sym.read {E : Env} (w : Bool) {y : Sym} (h : y.Ok E) (hd : Distinct E y.keys) : SymRead E y w := by
  cases y with
  | decl d =>
    obtain ⟨t, x, tb', g⟩ := d.gram hd w h (fun _ h => h) {} {} (Seen.like_nil E _)
    refine ⟨t, _, [], tb', by rw [List.append_nil]; exact g.eq, g.sym, ?_⟩
    rw [g.alike.text_eq]
    exact (d.pr_eq h [] (Ctx.nil E)).trans (List.nil_append _)
  | table t cls c v target =>
    obtain ⟨h1, h2⟩ := h
    obtain ⟨p', tb1, g1, ha, hl⟩ := Path.scopes_gram hd w cls h1 (fun a h => List.mem_append_left _ h) {} {} (Seen.like_nil E _)
    obtain ⟨code, e, hm⟩ := t.mem
    have ht : target.Ok E := by
      rcases h2 with rfl | h2
      · rw [Path.Ok]; trivial
      · exact h2.ok'
    have htx := table_text h1 ht t c v
    by_cases hn : target = .nil
    · subst hn
      rw [if_pos rfl] at htx
      refine ⟨_, _, [], tb1, ?_, Gram.table hm g1 (d := '6') (by decide) (List.mem_append_left _ (cvLetter_mem c v)), ?_⟩
      · simp [Sym.mangle, Path.mangle, e]
      · rw [← htx]
        exact Alike.text_eq (.table _ (.qname (ha.snoc (.refl _))) (.refl _))
    · rw [if_neg hn] at htx
      have h2 := h2.resolve_left hn
      obtain ⟨q', tb2, g2, hb, hl⟩ := Path.qtn_gram hd w target h2 (fun a h => List.mem_append_right _ h) _ tb1 hl
      refine ⟨_, _, c!"@", tb2, ?_, Gram.tableFor hm g1 (d := '6') (by decide) (List.mem_append_left _ (cvLetter_mem c v)) g2, ?_⟩
      · simp [Sym.mangle, e, hn]
      · rw [← htx]
        exact Alike.text_eq (.table _ (.qname (ha.snoc (.refl _))) hb.one)
  | baseDescriptor nv vb vt fl cls =>
    obtain ⟨⟨h1, h2, h3, h4⟩, h5⟩ := h
    obtain ⟨p', tb1, g1, ha, hl⟩ := Path.scopes_gram hd w cls h5 (fun a h => h) {} {} (Seen.like_nil E _)
    have g := Gram.baseDescr (encode_spec nv (by omega)) (encodeInt_enc (i := vb) (by unfold Int32 at h2; omega)) (encode_spec vt (by omega))
      (encode_spec fl (by omega)) h1 h2 h3 h4 g1
    refine ⟨_, _, [], tb1, ?_, g, ?_⟩
    · simp [Sym.mangle]
    · rw [Alike.text_eq (.var _ (.qname (ha.snoc (.refl _))) (.refl _)), untyped_text (leaf_qname h5
        (s := c!"`RTTI Base Class Descriptor at (" ++ nat nv ++ c!", " ++ sint vb ++ c!", " ++ nat vt ++ c!", " ++ nat fl ++ c!")'")
        (fun u => by simp [T.pr, Pr.ofText]))]
      rfl
  | baseArray cls =>
    obtain ⟨p', tb1, g1, ha, hl⟩ := Path.scopes_gram hd w cls h (fun a h => h) {} {} (Seen.like_nil E _)
    refine ⟨_, _, [], tb1, ?_, Gram.untyped (code := c!"?_R2") (nm := c!"`RTTI Base Class Array'") (by decide) g1, ?_⟩
    · simp [Sym.mangle]
    · rw [Alike.text_eq (.var _ (.qname (ha.snoc (.refl _))) (.refl _)), untyped_text (leaf_qname h (leaf_named E _))]
      rfl
  | hierarchy cls =>
    obtain ⟨p', tb1, g1, ha, hl⟩ := Path.scopes_gram hd w cls h (fun a h => h) {} {} (Seen.like_nil E _)
    refine ⟨_, _, [], tb1, ?_, Gram.untyped (code := c!"?_R3") (nm := c!"`RTTI Class Hierarchy Descriptor'") (by decide) g1, ?_⟩
    · simp [Sym.mangle]
    · rw [Alike.text_eq (.var _ (.qname (ha.snoc (.refl _))) (.refl _)), untyped_text (leaf_qname h (leaf_named E _))]
      rfl
  | vcall cls n cc =>
    obtain ⟨h1, h2, h3⟩ := h
    obtain ⟨p', tb1, g1, ha, hl⟩ := Path.scopes_gram hd w cls h3 (fun a h => h) {} {} (Seen.like_nil E _)
    refine ⟨_, _, [], tb1, ?_, Gram.vcall cc g1 (encode_spec n h1), ?_⟩
    · simp [Sym.mangle]
    · rw [Alike.text_eq (.fn (.qname (ha.snoc (.refl _))) (.refl _)), vcall_text h3 n h2]
  | guard th vis scope n =>
    obtain ⟨h1, h2⟩ := h
    obtain ⟨p', tb1, g1, ha, hl⟩ := Path.scopes_gram hd w scope h2 (fun a h => h) {} {} (Seen.like_nil E _)
    refine ⟨_, _, [], tb1, ?_, Gram.guardVar th vis g1 (encode_spec n (by omega)) h1, ?_⟩
    · simp [Sym.mangle]
    · rw [Alike.text_eq (.same (.qname (ha.snoc (.refl _))))]
      exact (leaf_qname h2 (s := guardName th n) (fun u => by simp [T.pr, Pr.ofText, guardName]) []).trans (List.nil_append _)
  | initVar dt st name scope ty k s =>
    obtain ⟨h1, h2, h3⟩ := h
    obtain ⟨t, x, tb1, g⟩ := Decl.gram hd w _ h1 (fun a h => List.mem_append_left _ h) {} {} (Seen.like_nil E _)
    have ha := g.alike
    rw [Decl.tree] at ha
    obtain ⟨n', ty', rfl, hn, hty⟩ := alike_var ha
    obtain ⟨cc, ne, vr, r, x2, prs, y2, tb3, tb4, g3, g4, hl, e, e2, hr, hq⟩ :=
      Sig.parts hd w s h3 (fun a h => List.mem_append_right _ h) _ tb1 g.like
    have gf := Kind.fenc w k h2 (cc := cc) (ne := ne) g3 g4
    refine ⟨_, _, [], tb4, ?_, Gram.dynVar dt true g.decl (.inl rfl) gf, ?_⟩
    · simp [Sym.mangle, g.eq, e]
    · have := init_text (E := E) (k := k) h3 (n := .dynVar dt ((Decl.var st name scope ty).tree E))
        (nt := initText dt ++ c!"`" ++ (Decl.var st name scope ty).cpp E ++ c!"''") (by
          intro u
          show ((((Decl.var st name scope ty).tree E).pr E).out (u ++ initText dt ++ c!"`")) ++ c!"''" = _
          rw [Decl.pr_eq _ h1 _ (Ctx.tick E _)]
          simp)
      rw [e2] at this
      rw [Alike.text_eq (.fn (.qname (Alike.one (.dynVar dt g.alike))) (k.wrap_alike _ hr hq)), this]
      simp [Sym.cpp]
  | initName dt name scope k s =>
    obtain ⟨t, x, tb1, g⟩ := Decl.gram hd w _ h (fun a h => h) {} {} (Seen.like_nil E _)
    have ha := g.alike
    have hx := g.eq
    rw [Decl.tree] at ha
    obtain ⟨n', s', rfl, hn, hs⟩ := alike_fn ha
    have h0 : Decl.Ok E (.fn k (.id name) scope s) := h
    rw [Decl.Ok, Head.Ok] at h0
    obtain ⟨h1, h2, h3, h4⟩ := h0
    have hq : x.head? ≠ some '?' := by
      rw [Decl.mangle] at hx
      dsimp only at hx
      rw [Head.mangle] at hx
      have hp : position (Seg.id name) ([] : List Seg) = none := rfl
      simp only [hp] at hx
      have := congrArg (List.drop 1) hx
      simp only [List.cons_append, List.nil_append, List.append_assoc, List.drop_succ_cons, List.drop_zero] at this
      rw [← this]
      obtain ⟨hne, _, hc⟩ := h2
      cases name with
      | nil => exact absurd rfl hne
      | cons a l =>
        simp only [List.cons_append, List.head?_cons]
        intro h
        exact (hc a rfl).2 (Option.some.inj h)
    refine ⟨_, _, [], tb1, ?_, Gram.dynFn dt g.decl hq, ?_⟩
    · simp [Sym.mangle, hx]
    · have := init_text (E := E) (k := k) h4 (n := .dynFn dt (.qname ((scope.tree E).snoc (.named name .nil))))
        (nt := initText dt ++ c!"'" ++ showPath (name :: scope.names E) ++ c!"''") (by
          intro u
          show ((T.qname ((scope.tree E).snoc (.named name .nil))).pr E).out (u ++ initText dt ++ c!"'") ++ c!"''" = _
          rw [leaf_qname h3 (leaf_named E name)]
          simp)
      rw [Head.tree] at hn
      rw [Alike.text_eq (.fn (.qname (Alike.one (.dynFn dt hn))) hs), this]
      simp [Sym.cpp]

theorem EndSym.read {E : Env} (w : Bool) {y : EndSym} (h : y.Ok E) (hd : Distinct E y.keys) :
    ∃ (t : T) (tb : Tbl), Gram E .symEnd {} t (y.mangle w) tb ∧ t.text E = y.cpp E := by
  cases y with
  | typeDescriptor t =>
    obtain ⟨t', tb, g, ha, _⟩ := tyR_gram (Ty.gram hd w t h (fun a h => h) {}) (t.mangle_head w {}).2.1 {} (Seen.like_nil E _)
    refine ⟨.var none (.qname (T.one (.named c!"`RTTI Type Descriptor'" .nil))) t'.one, tb, (by simpa [EndSym.mangle] using Gram.rttiType g), ?_⟩
    rw [Alike.text_eq (.var _ (.refl _) ha.one)]
    have hp := t.pr_eq h
    have key : ∀ n, (T.var none n (t.tree E).one).text E = if shows.varType E && true then
      ((t.tree E).pr E).post false ((n.pr E).out (sp E (((t.tree E).pr E).pre false ([] ++ storageText E none)))) else (n.pr E).out ([] ++ storageText E none) :=
      fun _ => rfl
    have hl : Leaf E (.qname (T.one (.named c!"`RTTI Type Descriptor'" .nil))) c!"`RTTI Type Descriptor'" := leaf_named E _
    rw [key, hl, hl, hp.post, show storageText E none = [] by simp [storageText, storageAccess], List.append_nil, hp.pre _ _ (Ctx.nil E), EndSym.cpp]
    simp
  | typeName t =>
    obtain ⟨t', tb, g, ha, _⟩ := tyR_gram (Ty.gram hd w t h (fun a h => h) {}) (t.mangle_head w {}).2.1 {} (Seen.like_nil E _)
    refine ⟨.typeDescr t', tb, (by simpa [EndSym.mangle] using Gram.typeinfo g), ?_⟩
    rw [Alike.text_eq (.typeDescr ha)]
    have hp := t.pr_eq h
    have key : (T.typeDescr (t.tree E)).text E = if E.flags.name_only then ((t.tree E).pr E).out [] else
      sp E (((t.tree E).pr E).out []) ++ c!"`RTTI Type Descriptor Name'" := rfl
    rw [key, hp.out _ (Ctx.nil E), EndSym.cpp]
    simp [Cxx.Ty.cpp]
  | guard th vis scope =>
    obtain ⟨p', tb1, g1, ha, hl⟩ := Path.scopes_gram hd w scope h (fun a h => h) {} {} (Seen.like_nil E _)
    refine ⟨.same (.qname (p'.snoc (.guardId th 0))), tb1, (by simpa [EndSym.mangle] using Gram.guardEnd th vis g1), ?_⟩
    rw [Alike.text_eq (.same (.qname (ha.snoc (.refl _))))]
    exact (leaf_qname h (s := guardName th 0) (fun u => by simp [T.pr, Pr.ofText, guardName]) []).trans (List.nil_append _)

end Spec.Cxx
end Undname
