/-
  Other symbols, whatever coins the mangler of `Spec/Mixed.lean` tosses, are read by the grammar as the intended tree.
-/
import Verif.Proof.Mixed
import Verif.Proof.ManglerSym

namespace Undname
open Spec
namespace Spec.Cxx

theorem mtyR_gram {E : Env} {L : List Seg} {t : Ty} {st st' : Pen} {x : Text} (g0 : MReads E L .ty st (t.core E) x st') (hx : x.head? ≠ some '?') :
    MReads E L .tyR st (t.tree E) (t.retCode ++ x) st' := by
  intro tb hl
  obtain ⟨t', tb', g, ha, hl⟩ := g0 tb hl
  cases t with
  | prim k c v =>
    show ∃ (t' : T) (tb' : Tbl), Gram E _ tb t' ((if c || v then ['?', Spec.Ty.cvLetter c v] else []) ++ x) tb' ∧ _
    split
    · have := Gram.resQual (List.mem_append_left memberCvCodes (cvLetter_mem c v)) g
      refine ⟨_, _, this, ?_, hl⟩
      exact cast (by simp [Ty.core, T.addQ, Ty.tree, CV.or]) (ha.addQ { c, v })
    · next h =>
      have hc : c = false ∧ v = false := by cases c <;> cases v <;> simp_all
      obtain ⟨rfl, rfl⟩ := hc
      exact ⟨_, _, .resPlain g hx, ha, hl⟩
  | tag k p c v =>
    have := Gram.resQual (List.mem_append_left memberCvCodes (cvLetter_mem c v)) g
    refine ⟨_, _, this, ?_, hl⟩
    exact cast (by simp [Ty.core, T.addQ, Ty.tree, CV.or]) (ha.addQ { c, v })
  | _ => exact ⟨_, _, .resPlain g hx, ha, hl⟩

/-- The text of the symbol, and what the grammar reads of it. -/
def MSymRead (E : Env) (y : Sym) (w : Bool) (coins : Nat → Bool) : Prop :=
  ∃ (t : T) (x rest : Text) (tb : Tbl), y.mix w coins = x ++ rest ∧ Gram E .sym {} t x tb ∧ t.text E = y.cpp E

theorem Sym.mread {E : Env} (w : Bool) (coins : Nat → Bool) {y : Sym} (h : y.Ok E) (hd : Distinct E y.keys) : MSymRead E y w coins := by
  cases y with
  | decl d =>
    obtain ⟨t, x, tb', g⟩ := d.mgram hd w h (fun _ h => h) { coins } {} (Seen.like_nil E _)
    refine ⟨t, _, [], tb', by rw [List.append_nil]; exact g.eq, g.sym, ?_⟩
    rw [g.alike.text_eq]
    exact (d.pr_eq h [] (Ctx.nil E)).trans (List.nil_append _)
  | table t cls c v target =>
    obtain ⟨h1, h2⟩ := h
    obtain ⟨p', tb1, g1, ha, hl⟩ := Path.mscopes_gram hd w cls h1 (fun a h => List.mem_append_left _ h) { coins } {} (Seen.like_nil E _)
    obtain ⟨code, e, hm⟩ := t.mem
    have ht : target.Ok E := by
      rcases h2 with rfl | h2
      · rw [Path.Ok]; trivial
      · exact h2.ok'
    have htx := table_text h1 ht t c v
    by_cases hn : target = .nil
    · subst hn
      rw [if_pos rfl] at htx
      refine ⟨_, _, [], tb1, ?_, Gram.table hm g1 (d := '6') (by decide) (List.mem_append_left _ (cvLetter_mem c v)), ?_⟩
      · simp [Sym.mix, Path.mix, e]
      · rw [← htx]
        exact Alike.text_eq (.table _ (.qname (ha.snoc (.refl _))) (.refl _))
    · rw [if_neg hn] at htx
      have h2 := h2.resolve_left hn
      obtain ⟨q', tb2, g2, hb, hl⟩ := Path.mqtn_gram hd w target h2 (fun a h => List.mem_append_right _ h) _ tb1 hl
      refine ⟨_, _, c!"@", tb2, ?_, Gram.tableFor hm g1 (d := '6') (by decide) (List.mem_append_left _ (cvLetter_mem c v)) g2, ?_⟩
      · simp [Sym.mix, e, hn]
      · rw [← htx]
        exact Alike.text_eq (.table _ (.qname (ha.snoc (.refl _))) hb.one)
  | baseDescriptor nv vb vt fl cls =>
    obtain ⟨⟨h1, h2, h3, h4⟩, h5⟩ := h
    obtain ⟨p', tb1, g1, ha, hl⟩ := Path.mscopes_gram hd w cls h5 (fun a h => h) { coins } {} (Seen.like_nil E _)
    have g := Gram.baseDescr (encode_spec nv (by omega)) (encodeInt_enc (i := vb) (by unfold Int32 at h2; omega)) (encode_spec vt (by omega))
      (encode_spec fl (by omega)) h1 h2 h3 h4 g1
    refine ⟨_, _, [], tb1, ?_, g, ?_⟩
    · simp [Sym.mix]
    · rw [Alike.text_eq (.var _ (.qname (ha.snoc (.refl _))) (.refl _)), untyped_text (leaf_qname h5
        (s := c!"`RTTI Base Class Descriptor at (" ++ nat nv ++ c!", " ++ sint vb ++ c!", " ++ nat vt ++ c!", " ++ nat fl ++ c!")'")
        (fun u => by simp [T.pr, Pr.ofText]))]
      rfl
  | baseArray cls =>
    obtain ⟨p', tb1, g1, ha, hl⟩ := Path.mscopes_gram hd w cls h (fun a h => h) { coins } {} (Seen.like_nil E _)
    refine ⟨_, _, [], tb1, ?_, Gram.untyped (code := c!"?_R2") (nm := c!"`RTTI Base Class Array'") (by decide) g1, ?_⟩
    · simp [Sym.mix]
    · rw [Alike.text_eq (.var _ (.qname (ha.snoc (.refl _))) (.refl _)), untyped_text (leaf_qname h (leaf_named E _))]
      rfl
  | hierarchy cls =>
    obtain ⟨p', tb1, g1, ha, hl⟩ := Path.mscopes_gram hd w cls h (fun a h => h) { coins } {} (Seen.like_nil E _)
    refine ⟨_, _, [], tb1, ?_, Gram.untyped (code := c!"?_R3") (nm := c!"`RTTI Class Hierarchy Descriptor'") (by decide) g1, ?_⟩
    · simp [Sym.mix]
    · rw [Alike.text_eq (.var _ (.qname (ha.snoc (.refl _))) (.refl _)), untyped_text (leaf_qname h (leaf_named E _))]
      rfl
  | vcall cls n cc =>
    obtain ⟨h1, h2, h3⟩ := h
    obtain ⟨p', tb1, g1, ha, hl⟩ := Path.mscopes_gram hd w cls h3 (fun a h => h) { coins } {} (Seen.like_nil E _)
    refine ⟨_, _, [], tb1, ?_, Gram.vcall cc g1 (encode_spec n h1), ?_⟩
    · simp [Sym.mix]
    · rw [Alike.text_eq (.fn (.qname (ha.snoc (.refl _))) (.refl _)), vcall_text h3 n h2]
  | guard th vis scope n =>
    obtain ⟨h1, h2⟩ := h
    obtain ⟨p', tb1, g1, ha, hl⟩ := Path.mscopes_gram hd w scope h2 (fun a h => h) { coins } {} (Seen.like_nil E _)
    refine ⟨_, _, [], tb1, ?_, Gram.guardVar th vis g1 (encode_spec n (by omega)) h1, ?_⟩
    · simp [Sym.mix]
    · rw [Alike.text_eq (.same (.qname (ha.snoc (.refl _))))]
      exact (leaf_qname h2 (s := guardName th n) (fun u => by simp [T.pr, Pr.ofText, guardName]) []).trans (List.nil_append _)
  | initVar dt st name scope ty k s =>
    obtain ⟨h1, h2, h3⟩ := h
    obtain ⟨t, x, tb1, g⟩ := Decl.mgram hd w _ h1 (fun a h => List.mem_append_left _ h) { coins } {} (Seen.like_nil E _)
    have ha := g.alike
    rw [Decl.tree] at ha
    obtain ⟨n', ty', rfl, hn, hty⟩ := alike_var ha
    obtain ⟨cc, ne, vr, r, x2, prs, y2, tb3, tb4, g3, g4, hl, e, e2, hr, hq⟩ :=
      Sig.mparts hd w s h3 (fun a h => List.mem_append_right _ h) _ tb1 g.like
    have gf := Kind.fenc w k h2 (cc := cc) (ne := ne) g3 g4
    refine ⟨_, _, [], tb4, ?_, Gram.dynVar dt true g.decl (.inl rfl) gf, ?_⟩
    · simp [Sym.mix, g.eq, e]
    · have := init_text (E := E) (k := k) h3 (n := .dynVar dt ((Decl.var st name scope ty).tree E))
        (nt := initText dt ++ c!"`" ++ (Decl.var st name scope ty).cpp E ++ c!"''") (by
          intro u
          show ((((Decl.var st name scope ty).tree E).pr E).out (u ++ initText dt ++ c!"`")) ++ c!"''" = _
          rw [Decl.pr_eq _ h1 _ (Ctx.tick E _)]
          simp)
      rw [e2] at this
      rw [Alike.text_eq (.fn (.qname (Alike.one (.dynVar dt g.alike))) (k.wrap_alike _ hr hq)), this]
      simp [Sym.cpp]
  | initName dt name scope k s =>
    obtain ⟨t, x, tb1, g⟩ := Decl.mgram hd w _ h (fun a h => h) { coins } {} (Seen.like_nil E _)
    have ha := g.alike
    have hx := g.eq
    rw [Decl.tree] at ha
    obtain ⟨n', s', rfl, hn, hs⟩ := alike_fn ha
    have h0 : Decl.Ok E (.fn k (.id name) scope s) := h
    rw [Decl.Ok, Head.Ok] at h0
    obtain ⟨h1, h2, h3, h4⟩ := h0
    have hq : x.head? ≠ some '?' := by
      rw [Decl.mix] at hx
      dsimp only at hx
      rw [Head.mix] at hx
      have hp : position (Seg.id name) ([] : List Seg) = none := rfl
      have hp2 : ({ coins } : Pen).pick none = none := by unfold Pen.pick; split <;> rfl
      simp only [hp, hp2] at hx
      have := congrArg (List.drop 1) hx
      simp only [List.cons_append, List.nil_append, List.append_assoc, List.drop_succ_cons, List.drop_zero] at this
      rw [← this]
      obtain ⟨hne, _, hc⟩ := h2
      cases name with
      | nil => exact absurd rfl hne
      | cons a l =>
        simp only [List.cons_append, List.head?_cons]
        intro h
        exact (hc a rfl).2 (Option.some.inj h)
    refine ⟨_, _, [], tb1, ?_, Gram.dynFn dt g.decl hq, ?_⟩
    · simp [Sym.mix, hx]
    · have := init_text (E := E) (k := k) h4 (n := .dynFn dt (.qname ((scope.tree E).snoc (.named name .nil))))
        (nt := initText dt ++ c!"'" ++ showPath (name :: scope.names E) ++ c!"''") (by
          intro u
          show ((T.qname ((scope.tree E).snoc (.named name .nil))).pr E).out (u ++ initText dt ++ c!"'") ++ c!"''" = _
          rw [leaf_qname h3 (leaf_named E name)]
          simp)
      rw [Head.tree] at hn
      rw [Alike.text_eq (.fn (.qname (Alike.one (.dynFn dt hn))) hs), this]
      simp [Sym.cpp]

theorem EndSym.mread {E : Env} (w : Bool) (coins : Nat → Bool) {y : EndSym} (h : y.Ok E) (hd : Distinct E y.keys) :
    ∃ (t : T) (tb : Tbl), Gram E .symEnd {} t (y.mix w coins) tb ∧ t.text E = y.cpp E := by
  cases y with
  | typeDescriptor t =>
    obtain ⟨t', tb, g, ha, _⟩ := tyR_gram (Ty.mgram hd w t h (fun a h => h) { coins }) (t.mix_head w { coins }).2.1 {} (Seen.like_nil E _)
    refine ⟨.var none (.qname (T.one (.named c!"`RTTI Type Descriptor'" .nil))) t'.one, tb, (by simpa [EndSym.mix] using Gram.rttiType g), ?_⟩
    rw [Alike.text_eq (.var _ (.refl _) ha.one)]
    have hp := t.pr_eq h
    have key : ∀ n, (T.var none n (t.tree E).one).text E = if shows.varType E && true then
      ((t.tree E).pr E).post false ((n.pr E).out (sp E (((t.tree E).pr E).pre false ([] ++ storageText E none)))) else (n.pr E).out ([] ++ storageText E none) :=
      fun _ => rfl
    have hl : Leaf E (.qname (T.one (.named c!"`RTTI Type Descriptor'" .nil))) c!"`RTTI Type Descriptor'" := leaf_named E _
    rw [key, hl, hl, hp.post, show storageText E none = [] by simp [storageText, storageAccess], List.append_nil, hp.pre _ _ (Ctx.nil E), EndSym.cpp]
    simp
  | typeName t =>
    obtain ⟨t', tb, g, ha, _⟩ := tyR_gram (Ty.mgram hd w t h (fun a h => h) { coins }) (t.mix_head w { coins }).2.1 {} (Seen.like_nil E _)
    refine ⟨.typeDescr t', tb, (by simpa [EndSym.mix] using Gram.typeinfo g), ?_⟩
    rw [Alike.text_eq (.typeDescr ha)]
    have hp := t.pr_eq h
    have key : (T.typeDescr (t.tree E)).text E = if E.flags.name_only then ((t.tree E).pr E).out [] else
      sp E (((t.tree E).pr E).out []) ++ c!"`RTTI Type Descriptor Name'" := rfl
    rw [key, hp.out _ (Ctx.nil E), EndSym.cpp]
    simp [Cxx.Ty.cpp]
  | guard th vis scope =>
    obtain ⟨p', tb1, g1, ha, hl⟩ := Path.mscopes_gram hd w scope h (fun a h => h) { coins } {} (Seen.like_nil E _)
    refine ⟨.same (.qname (p'.snoc (.guardId th 0))), tb1, (by simpa [EndSym.mix] using Gram.guardEnd th vis g1), ?_⟩
    rw [Alike.text_eq (.same (.qname (ha.snoc (.refl _))))]
    exact (leaf_qname h (s := guardName th 0) (fun u => by simp [T.pr, Pr.ofText, guardName]) []).trans (List.nil_append _)

end Spec.Cxx
end Undname
