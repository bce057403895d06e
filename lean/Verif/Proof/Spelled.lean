/-
  What is written without back-references is read by the grammar as the intended tree, whatever has been remembered.
-/
import Verif.Proof.ManglerGram
import Verif.Spec.Spelled

namespace Undname
open Spec
namespace Spec.Cxx

/-- The grammar reads a text as a phrase that prints like `want`, whatever the tables. -/
def FReads (E : Env) (k : Cat) (want : T) (x : Text) : Prop :=
  ∀ tb, True → ∃ (t' : T) (tb' : Tbl), Gram E k tb t' x tb' ∧ Alike E t' want ∧ True

/-- First characters. -/
theorem Ty.spell_head (w : Bool) (t : Ty) :
    (t.spell w) ≠ [] ∧ (t.spell w).head? ≠ some '?' ∧
    (t ≠ .prim .Void false false → t.unqualified → (t.spell w).head? ≠ some 'X') := by
  have hk : ∀ (k : PK) (x : Text), k.code ++ x ≠ [] ∧ (k.code ++ x).head? ≠ some '?' ∧ (k.code ++ x).head? ≠ some 'X' := by
    intro k x
    cases k with
    | star c v r => cases c <;> cases v <;> simp [PK.code, Spec.Ty.ptrLetter]
    | ref => simp [PK.code]
    | rref => simp [PK.code]
  cases t with
  | prim k c v =>
    rw [Ty.spell]
    refine ⟨?_, ?_, ?_⟩
    · cases k <;> simp [primCode]
    · cases k <;> simp [primCode]
    · rintro h1 ⟨rfl, rfl⟩
      cases k <;> first | exact absurd rfl h1 | simp [primCode]
  | tag k p c v => rw [Ty.spell]; cases k <;> simp [tagCode]
  | ptr k u to =>
    rw [Ty.spell]; rw [List.append_assoc]
    exact ⟨(hk _ _).1, (hk _ _).2.1, fun _ _ => (hk _ _).2.2⟩
  | fptr k s =>
    rw [Ty.spell]; rw [List.append_assoc]
    exact ⟨(hk _ _).1, (hk _ _).2.1, fun _ _ => (hk _ _).2.2⟩
  | aptr k c v d e =>
    rw [Ty.spell]; simp only [List.append_assoc]
    exact ⟨(hk _ _).1, (hk _ _).2.1, fun _ _ => (hk _ _).2.2⟩
  | mptr k u c to =>
    rw [Ty.spell]; simp only [List.append_assoc]
    exact ⟨(hk _ _).1, (hk _ _).2.1, fun _ _ => (hk _ _).2.2⟩
  | mfptr k c q s =>
    rw [Ty.spell]; simp only [List.append_assoc]
    exact ⟨(hk _ _).1, (hk _ _).2.1, fun _ _ => (hk _ _).2.2⟩

theorem Tys.spell_head {E : Env} (w : Bool) (ts : Tys) (h : ts.Ok E) :
    (ts.spell w).head? ≠ some 'X' ∧ (ts.spell w = [] ↔ ts = .nil) := by
  cases ts with
  | nil => simp [Tys.spell]
  | cons t ts =>
    rw [Tys.Ok] at h
    rw [Tys.spell]
    obtain ⟨h1, _, h3⟩ := t.spell_head w
    replace h3 := h3 h.1 h.2.1
    refine ⟨?_, by simp [h1]⟩
    rw [List.head?_append]
    cases hd : (t.spell w).head? with
    | none => exact absurd (List.head?_eq_none_iff.1 hd) h1
    | some c => rw [hd] at h3; simpa using h3

theorem fret_gram {E : Env} {t : Ty} {x : Text} (g0 : FReads E .ty (t.core E) x) (hx : x.head? ≠ some '?') :
    FReads E .ret (t.tree E).one (t.retCode ++ x) := by
  intro tb hl
  obtain ⟨t', tb', g, ha, hl⟩ := g0 tb hl
  cases t with
  | prim k c v =>
    show ∃ (t' : T) (tb' : Tbl), Gram E _ tb t' ((if c || v then ['?', Spec.Ty.cvLetter c v] else []) ++ x) tb' ∧ _
    split
    · have := Gram.resQual (List.mem_append_left memberCvCodes (cvLetter_mem c v)) g
      refine ⟨_, _, .retSome this, ?_, hl⟩
      exact cast (by simp [Ty.core, T.addQ, Ty.tree, CV.or]) (ha.addQ { c, v }).one
    · next h =>
      have hc : c = false ∧ v = false := by cases c <;> cases v <;> simp_all
      obtain ⟨rfl, rfl⟩ := hc
      exact ⟨_, _, .retSome (.resPlain g hx), ha.one, hl⟩
  | tag k p c v =>
    have := Gram.resQual (List.mem_append_left memberCvCodes (cvLetter_mem c v)) g
    refine ⟨_, _, .retSome this, ?_, hl⟩
    exact cast (by simp [Ty.core, T.addQ, Ty.tree, CV.or]) (ha.addQ { c, v }).one
  | _ => exact ⟨_, _, .retSome (.resPlain g hx), ha.one, hl⟩

theorem farg_gram {E : Env} {t : Ty} {x : Text} (g0 : FReads E .ty (t.core E) x) :
    FReads E (.targ false) (t.tree E) (t.argCode ++ x) := by
  intro tb hl
  obtain ⟨t', tb', g, ha, hl⟩ := g0 tb hl
  have key : ∀ c v, t.cv = { c, v } → ∃ (t' : T) (tb' : Tbl),
      Gram E (.targ false) tb t' (c!"$$C" ++ [Spec.Ty.cvLetter c v] ++ x) tb' ∧ Alike E t' (t.tree E) ∧ True := by
    intro c v h
    have := Gram.aTypeC (m := false) (List.mem_append_left memberCvCodes (cvLetter_mem c v)) g
    have hb := ha.addQ t.cv
    rw [core_addQ, h] at hb
    exact ⟨_, tb', cast (by simp) this, hb, hl⟩
  cases t with
  | prim k c v =>
    show ∃ (t' : T) (tb' : Tbl), Gram E _ tb t' ((if c || v then c!"$$C" ++ [Spec.Ty.cvLetter c v] else []) ++ x) tb' ∧ _
    split
    · exact key c v rfl
    · next h =>
      have hc : c = false ∧ v = false := by cases c <;> cases v <;> simp_all
      obtain ⟨rfl, rfl⟩ := hc
      exact ⟨_, _, .aType g, ha, hl⟩
  | tag k p c v =>
    show ∃ (t' : T) (tb' : Tbl), Gram E _ tb t' ((if c || v then c!"$$C" ++ [Spec.Ty.cvLetter c v] else []) ++ x) tb' ∧ _
    split
    · exact key c v rfl
    · next h =>
      have hc : c = false ∧ v = false := by cases c <;> cases v <;> simp_all
      obtain ⟨rfl, rfl⟩ := hc
      exact ⟨_, _, .aType g, ha, hl⟩
  | _ => exact ⟨_, _, .aType g, ha, hl⟩

/-- A parameter list with its end. -/
theorem fparams_gram {E : Env} {ts : Tys} {x : Text} (g0 : FReads E .plist (ts.tree E) x)
    (hx : x.head? ≠ some 'X') (hn : x = [] ↔ ts = .nil) (vr : Bool) :
    FReads E (.params vr) (ts.treeOf E vr) (if x.isEmpty && !vr then c!"X" else x ++ (if vr then c!"Z" else c!"@")) := by
  intro tb hl
  obtain ⟨t', tb', g, ha, hl'⟩ := g0 tb hl
  cases vr with
  | true =>
    have : ts.treeOf E true = T.one (.arr (ts.tree E)) := by cases ts <;> simp [Tys.treeOf, Tys.tree]
    rw [this]
    exact ⟨_, tb', cast (by simp) (Gram.pVariadic g hx), (Alike.arr ha).one, hl'⟩
  | false =>
    cases ts with
    | nil =>
      have h := hn.2 rfl
      subst h
      exact ⟨_, _, .pVoid, .refl _, hl⟩
    | cons t ts =>
      have : x ≠ [] := fun h => by cases hn.1 h
      have e : x.isEmpty = false := by simpa using this
      rw [e]
      have := Gram.pFixed g hx
      rw [Tys.tree] at ha
      exact ⟨_, tb', cast (by simp) this, (Alike.arr ha).one, hl'⟩


/-- What is read as a symbol. -/
structure FReadsDecl (E : Env) (w : Bool) (d : Decl) (tb : Tbl) (t' : T) (x : Text) (tb' : Tbl) : Prop where
  decl : Gram E .decl tb t' x tb'
  eq : (d.spell w) = '?' :: x
  free : Free x
  alike : Alike E t' (d.tree E)
  ident : ∀ s, d.ident = some s → t'.ident = some (.named s .nil) ∧ tb'.note s = tb'

theorem FReadsDecl.sym {E : Env} {w : Bool} {d : Decl} {tb tb' : Tbl} {t' : T} {x : Text}
    (h : FReadsDecl E w d tb t' x tb') : Gram E .sym tb t' ('?' :: x) tb' := .sym h.decl h.free

theorem farray_gram {E : Env} {el : Ty} {x : Text} (c v : Bool) {dims : List Nat} (hd : dimsOk dims)
    (hu : el.unqualified) (g0 : FReads E .ty (el.core E) x) :
    FReads E .ty (.array { c, v } dims (el.tree E)) (arrayCode c v dims ++ x) := by
  obtain ⟨h1, h2, h3⟩ := hd
  intro tb hl
  obtain ⟨t', tb', g, ha, hl⟩ := g0 tb hl
  rw [Ty.core_of_unq hu] at ha
  refine ⟨_, tb', ?_, .array { c, v } dims ha, hl⟩
  unfold arrayCode
  split
  · exact cast (by simp) (Gram.arrayQ (encode_spec _ h2) h1 (dims_enc h3) (cvLetter_mem c v) g)
  · next h =>
    have hc : c = false ∧ v = false := by cases c <;> cases v <;> simp_all
    obtain ⟨rfl, rfl⟩ := hc
    exact cast (by simp) (Gram.array (encode_spec _ h2) h1 (dims_enc h3) g)

/-- A variable. -/
theorem fvar_gram {E : Env} (w : Bool) {st : Storage} {i ps : T} {x y : Text} {tb0 tb1 tb2 : Tbl}
    (h1 : Gram E .sname tb0 i x tb1) (hi : i.isPlain = true) (h2 : Gram E .scopes tb1 ps y tb2) (hl : True)
    {ty : Ty} (gt : FReads E .ty (ty.core E) (ty.spell w))
    (gc : ∀ k u cls to, ty = .mptr k u cls to → FReads E .qtn (.qname (cls.tree E)) (cls.spell w))
    (gc' : ∀ k cls q s, ty = .mfptr k cls q s → FReads E .qtn (.qname (cls.tree E)) (cls.spell w)) :
    ∃ (ty' : T) (tb' : Tbl), Gram E .decl tb0 (.var (some st.cls) (.qname (ps.snoc i)) ty'.one)
        (x ++ y ++ st.code :: (ty.spell w) ++ ty.spellAgain w) tb' ∧ Alike E ty' (ty.tree E) ∧
      True ∧ tb2.names <+: tb'.names := by
  obtain ⟨t', tb3, g, ha, hl⟩ := gt tb2 hl
  have hg := gram_grow g
  cases ty with
  | prim k c v =>
    have hp : t'.isPtr = false := by rw [ha.isPtr]; rfl
    refine ⟨T.setQ { c, v } t', tb3, cast (by simp [Ty.spellAgain]) (Gram.var h1 hi h2 st.mem g hp (List.mem_append_left _ (cvLetter_mem c v))), ?_, trivial, hg⟩
    exact cast (by simp [Ty.core, T.setQ, Ty.tree]) (ha.setQ { c, v })
  | tag k p c v =>
    have hp : t'.isPtr = false := by rw [ha.isPtr]; rfl
    refine ⟨T.setQ { c, v } t', tb3, cast (by simp [Ty.spellAgain]) (Gram.var h1 hi h2 st.mem g hp (List.mem_append_left _ (cvLetter_mem c v))), ?_, trivial, hg⟩
    exact cast (by simp [Ty.core, T.setQ, Ty.tree]) (ha.setQ { c, v })
  | ptr k u to =>
    rw [Ty.core.eq_def] at ha; dsimp only at ha
    rw [Ty.tree] at ha ⊢
    obtain ⟨c', to', rfl, hc, hb⟩ := alike_ptr ha
    obtain rfl := alike_nil hc
    refine ⟨_, tb3, cast ?_ (Gram.varPtr ⟨w, k.restrict, u⟩ h1 hi h2 st.mem g (tail_mem to)), .ptr _ _ (.refl _) (by have := hb.addQ to.cv; rwa [tree_addQ] at this),
      trivial, hg⟩
    rw [cv_or_self]
    simp [Ty.spellAgain, ext_code]
  | fptr k s =>
    rw [Ty.core.eq_def] at ha; dsimp only at ha
    rw [Ty.tree] at ha ⊢
    obtain ⟨c', to', rfl, hc, hb⟩ := alike_ptr ha
    obtain rfl := alike_nil hc
    have hb' := hb.addQ {}
    rw [show (T.sig (s.fsig {} {}) (s.retT E) (s.parT E)).addQ {} = .sig (s.fsig {} {}) (s.retT E) (s.parT E) by
      cases s; simp [Sig.fsig, Cxx.fsig, T.addQ, CV.or, This.cv]] at hb'
    refine ⟨_, tb3, cast ?_ (Gram.varPtr (ch := 'A') (q := {}) ⟨w, false, false⟩ h1 hi h2 st.mem g (by decide)), .ptr (k.cv false) _ (.refl _) hb',
      trivial, hg⟩
    rw [cv_or_false]
    simp [Ty.spellAgain, ext_code]
  | aptr k c v dims el =>
    rw [Ty.core.eq_def] at ha; dsimp only at ha
    rw [Ty.tree] at ha ⊢
    obtain ⟨c', to', rfl, hc, hb⟩ := alike_ptr ha
    obtain rfl := alike_nil hc
    have e : (T.array { c, v } dims (el.tree E)).addQ {} = .array { c, v } dims (el.tree E) := by simp [T.addQ, CV.or]
    have hb' := hb.addQ {}
    rw [e] at hb'
    refine ⟨_, tb3, cast ?_ (Gram.varPtr (ch := 'A') (q := {}) ⟨w, k.restrict, false⟩ h1 hi h2 st.mem g (by decide)), .ptr (k.cv false) _ (.refl _) hb',
      trivial, hg⟩
    rw [cv_or_self]
    simp [Ty.spellAgain, ext_code]
  | mptr k u cls to =>
    rw [Ty.core.eq_def] at ha; dsimp only at ha
    rw [Ty.tree] at ha ⊢
    obtain ⟨c', to', rfl, hc, hb⟩ := alike_ptr ha
    obtain ⟨n', rfl, hn⟩ := alike_one hc
    obtain ⟨n2, tb4, gn, _, hl⟩ := gc _ _ _ _ rfl _ trivial
    refine ⟨_, tb4, cast ?_ (Gram.varMemberPtr ⟨w, k.restrict, u⟩ h1 hi h2 st.mem g (List.mem_append_right _ (memberLetter_mem to)) gn),
      .ptr _ _ hn.one (by have := hb.addQ to.cv; rwa [tree_addQ] at this), trivial, hg.trans (gram_grow gn)⟩
    rw [cv_or_self]
    simp [Ty.spellAgain, ext_code]
  | mfptr k cls q s =>
    rw [Ty.core.eq_def] at ha; dsimp only at ha
    rw [Ty.tree] at ha ⊢
    obtain ⟨c', to', rfl, hc, hb⟩ := alike_ptr ha
    obtain ⟨n', rfl, hn⟩ := alike_one hc
    obtain ⟨n2, tb4, gn, _, hl⟩ := gc' _ _ _ _ rfl _ trivial
    have hb' := hb.addQ {}
    rw [show (T.sig (s.fsig {} q) (s.retT E) (s.parT E)).addQ {} = .sig (s.fsig {} q) (s.retT E) (s.parT E) by
      cases s; simp [Sig.fsig, Cxx.fsig, T.addQ, CV.or]] at hb'
    refine ⟨_, tb4, cast ?_ (Gram.varMemberPtr (ch := 'Q') (q := {}) ⟨w, false, false⟩ h1 hi h2 st.mem g (by decide) gn),
      .ptr (k.cv false) _ hn.one hb', trivial, hg.trans (gram_grow gn)⟩
    rw [cv_or_false]
    simp [Ty.spellAgain, ext_code]

theorem Seg.fid_gram {E : Env} (w : Bool) (s : Text) (h : (Seg.id s).Ok E) :
    FReads E .uname ((Seg.id s).tree E) ((Seg.id s).spell w) := by
  intro tb hl
  rw [Seg.Ok] at h
  rw [Seg.spell, Seg.tree]
  exact ⟨_, _, .uName h, .refl _, hl⟩

set_option maxHeartbeats 2000000 in
mutual
theorem Ty.fgram {E : Env} (w : Bool) : (t : Ty) → t.Ok E →
    FReads E .ty (t.core E) (t.spell w)
  | .prim k c v, _ => by
    rw [Ty.spell]
    exact fun tb hl => ⟨_, _, .prim k, .refl _, hl⟩
  | .tag k p c v, h => by
    rw [Ty.Ok] at h
    rw [Ty.spell]
    intro tb hl
    obtain ⟨t', tb', g, ha, hl⟩ := Path.fqtn_gram w p h tb hl
    exact ⟨_, _, .tag k g, .tag _ _ ha, hl⟩
  | .ptr k u to, h => by
    rw [Ty.Ok] at h
    intro tb hl
    obtain ⟨t', tb', g, ha, hl⟩ := Ty.fgram w to h tb hl
    rw [Ty.spell]
    have := Gram.ptr ⟨w, k.restrict, u⟩ (pk_mem k) (letter_mem to) g
    replace ha := ha.addQ to.cv
    rw [core_addQ] at ha
    rw [pk_cv, ext_code] at this
    rw [Ty.core.eq_def]; dsimp only; rw [Ty.tree]
    exact ⟨_, _, this, .ptr _ _ (.refl _) ha, hl⟩
  | .fptr k s, h => by
    rw [Ty.Ok] at h
    intro tb hl
    obtain ⟨t', tb', g, ha, hl⟩ := Sig.fgram w s h.2 tb hl
    rw [Ty.spell]
    have := Gram.ptrFn (pk_mem k) g
    rw [Ty.core.eq_def]; dsimp only; rw [Ty.tree]
    have e : PK.cv k false = { c := k.c, v := k.v } := by simp [PK.cv, h.1]
    rw [e]
    exact ⟨_, tb', cast (by simp) this, .ptr _ _ (.refl _) ha, hl⟩
  | .aptr k c v dims el, h => by
    rw [Ty.Ok] at h
    intro tb hl
    obtain ⟨t', tb', ga, ha, hl⟩ := farray_gram c v h.1 h.2.1 (Ty.fgram w el h.2.2) tb hl
    have := Gram.ptr (ch := 'A') (q := {}) ⟨w, k.restrict, false⟩ (pk_mem k) (by decide) ga
    rw [pk_cv, ext_code] at this
    have hb := ha.addQ {}
    rw [show (T.array { c, v } dims (el.tree E)).addQ {} = .array { c, v } dims (el.tree E) by simp [T.addQ, CV.or]] at hb
    rw [Ty.core.eq_def, Ty.spell]; dsimp only; rw [Ty.tree]
    exact ⟨_, tb', cast (by simp) this, .ptr _ _ (.refl _) hb, hl⟩
  | .mptr k u cls to, h => by
    rw [Ty.Ok] at h
    obtain ⟨h1, h2, h3, h4⟩ := h
    intro tb hl
    obtain ⟨n', tb1, g1, ha1, hl⟩ := Path.fqtn_gram w cls h2 tb hl
    obtain ⟨t', tb', g2, ha, hl⟩ := Ty.fgram w to h4 tb1 hl
    have := Gram.ptrMember ⟨w, k.restrict, u⟩ (star_mem h1) (memberLetter_mem to) g1 g2
    rw [pk_cv, ext_code] at this
    replace ha := ha.setQ to.cv
    rw [core_setQ h3 (by rintro k s rfl; rw [Ty.Ok] at h4; exact h4.1) (by rintro k c q s rfl; rw [Ty.Ok] at h4; exact h4.1.2)] at ha
    rw [Ty.core.eq_def, Ty.spell]; dsimp only; rw [Ty.tree]
    exact ⟨_, _, this, .ptr _ _ ha1.one ha, hl⟩
  | .mfptr k cls q s, h => by
    rw [Ty.Ok] at h
    obtain ⟨⟨h1, h0⟩, h2, h3⟩ := h
    intro tb hl
    obtain ⟨n', tb1, g1, ha1, hl⟩ := Path.fqtn_gram w cls h2 tb hl
    obtain ⟨t', tb', g2, ha, hl⟩ := Sig.fgramThis w s h3 q tb1 hl
    have := Gram.ptrMemberFn (star_mem h1) g1 g2
    rw [Ty.core.eq_def, Ty.spell]; dsimp only; rw [Ty.tree]
    have e : PK.cv k false = { c := k.c, v := k.v } := by simp [PK.cv, h0]
    rw [e]
    exact ⟨_, tb', cast (by simp) this, .ptr _ _ ha1.one ha, hl⟩
theorem Sig.fparts {E : Env} (w : Bool) : (s : Sig) → s.Ok E → ∀ tb : Tbl,
    ∃ (cc : Char) (ne vr : Bool) (r x ps y : _) (tb1 tb2 : Tbl), Gram E .ret tb (T.one r) x tb1 ∧ Gram E (.params vr) tb1 ps y tb2 ∧
      (s.spell w) = cc :: x ++ y ++ throwCode ne ∧
      (∀ k q, s.fsig k q = Cxx.fsig cc vr ne k q) ∧ Alike E r.one (s.retT E) ∧ Alike E ps (s.parT E)
  | .mk cc ret ps vr ne, h, tb => by
    rw [Sig.Ok] at h
    obtain ⟨_, h2, h3, _⟩ := h
    obtain ⟨r', tb1, g1, ha1, hl⟩ := fret_gram (Ty.fgram w ret h2) (ret.spell_head w).2.1 tb trivial
    have hh := ps.spell_head w h3
    obtain ⟨p', tb2, g2, ha2, hl⟩ := fparams_gram (Tys.fgram w ps h3) hh.1 hh.2 vr tb1 trivial
    obtain ⟨r0, rfl, _⟩ := alike_one ha1
    rw [Sig.spell]
    refine ⟨cc, ne, vr, _, _, _, _, _, _, g1, g2, ?_, fun k q => rfl, ?_, ?_⟩
    · cases ne <;> simp [throwCode]
    · rw [Sig.retT]; exact ha1
    · rw [Sig.parT]; exact ha2
theorem Sig.fgram {E : Env} (w : Bool) : (s : Sig) → s.Ok E →
    FReads E (.fty false) (.sig (s.fsig {} {}) (s.retT E) (s.parT E)) (s.spell w)
  | s, h => by
    intro tb hl
    obtain ⟨cc, ne, vr, r, x, ps, y, tb1, tb2, g1, g2, e, e2, ha, hb⟩ := Sig.fparts w s h tb
    rw [e, e2]
    exact ⟨_, _, .fn cc ne g1 g2, .sig _ ha hb, hl⟩
theorem Sig.fgramThis {E : Env} (w : Bool) : (s : Sig) → s.Ok E → ∀ q : This,
    FReads E (.fty true) (.sig (s.fsig {} q) (s.retT E) (s.parT E)) (q.code w ++ (s.spell w))
  | s, h, q => by
    intro tb hl
    obtain ⟨cc, ne, vr, r, x, ps, y, tb1, tb2, g1, g2, e, e2, ha, hb⟩ := Sig.fparts w s h tb
    rw [e, e2]
    have := Gram.fnThis ⟨w, q.restrict, q.unaligned⟩ q.ref cc ne (List.mem_append_left memberCvCodes (cvLetter_mem q.c q.v)) g1 g2
    rw [this_cv] at this
    rw [← this_code]
    refine ⟨.sig (Cxx.fsig cc vr ne {} q) r.one ps, tb2, ?_, .sig _ ha hb, hl⟩
    exact cast (by simp [Cxx.fsig]) this
theorem Tys.fgram {E : Env} (w : Bool) : (ts : Tys) → ts.Ok E →
    FReads E .plist (ts.tree E) (ts.spell w)
  | .nil, _ => by rw [Tys.spell, Tys.tree]; exact fun tb hl => ⟨_, _, .pNil, .refl _, hl⟩
  | .cons t ts, h => by
    rw [Tys.Ok] at h
    rw [Tys.spell, Tys.tree]
    intro tb hl
    obtain ⟨t', tb1, g, ha, hl⟩ := Ty.fgram w t h.2.2.1 tb hl
    rw [Ty.core_of_unq h.2.1] at ha
    by_cases hlen : (t.spell w).length = 1
    · obtain ⟨ts', tb', g', hb, hl⟩ := Tys.fgram w ts h.2.2.2 tb1 hl
      exact ⟨_, _, .pLetter g hlen g', .cons ha hb, hl⟩
    · obtain ⟨ts', tb', g', hb, hl⟩ := Tys.fgram w ts h.2.2.2 (tb1.noteParam t') hl
      exact ⟨_, _, .pType g hlen g', .cons ha hb, hl⟩
theorem Path.fqtn_gram {E : Env} (w : Bool) : (p : Path) → p.IsType E →
    FReads E .qtn (.qname (p.tree E)) (p.spell w)
  | .nil, h => by simp [Path.IsType] at h
  | .cons s p, h => by
    rw [Path.IsType] at h
    rw [Path.spell, Path.tree]
    intro tb hl
    obtain ⟨s', tb1, g1, ha, hl⟩ := Seg.funame_gram w s h.2.1 h.1 tb hl
    obtain ⟨p', tb2, g2, hb, hl⟩ := Path.fscopes_gram w p h.2.2 tb1 hl
    exact ⟨_, _, .qtn g1 g2, .qname (hb.snoc ha), hl⟩
theorem Path.fscopes_gram {E : Env} (w : Bool) : (p : Path) → p.Ok E →
    FReads E .scopes (p.tree E) (p.spell w)
  | .nil, _ => by rw [Path.spell, Path.tree]; exact fun tb hl => ⟨_, _, .scNil, .refl _, hl⟩
  | .cons s p, h => by
    rw [Path.Ok] at h
    rw [Path.spell, Path.tree]
    intro tb hl
    obtain ⟨s', tb1, g1, ha, hl⟩ := Seg.fpiece_gram w s h.1 tb hl
    obtain ⟨p', tb2, g2, hb, hl⟩ := Path.fscopes_gram w p h.2 tb1 hl
    exact ⟨_, _, .scCons g1 g2, hb.snoc ha, hl⟩
theorem Seg.fpiece_gram {E : Env} (w : Bool) : (s : Seg) → s.Ok E →
    FReads E .piece (s.tree E) (s.spell w)
  | .id s, h => by
    intro tb hl
    obtain ⟨t', tb', g, ha, hl⟩ := Seg.fid_gram w s h tb hl
    exact ⟨t', tb', .scName g, ha, hl⟩
  | .tm s as, h => by
    intro tb hl
    obtain ⟨t', tb', g, ha, hl⟩ := Seg.ftm_gram w s as h tb hl
    exact ⟨t', tb', .scName g, ha, hl⟩
  | .anon key, h => by
    intro tb hl
    rw [Seg.Ok] at h
    rw [Seg.spell, Seg.tree]
    exact ⟨_, _, .scAnon h, .refl _, hl⟩
  | .loc n d, h => by
    intro tb hl
    rw [Seg.Ok] at h
    rw [Seg.spell, Seg.tree]
    obtain ⟨t', x, tb', hd⟩ := Decl.fgram w d h.2.2 tb
    have ht : t'.text E = d.cpp E := by
      rw [hd.alike.text_eq]
      exact (Decl.pr_eq d h.2.2 [] (Ctx.nil E)).trans (List.nil_append _)
    have e : localName E t' n = (Seg.loc n d).cpp E := by rw [localName, ht, Seg.cpp]
    have := Gram.scLocal (encode_scope h.1.1 h.1.2) hd.sym (by rw [e]; exact h.2.1)
    rw [e, ← hd.eq] at this
    exact ⟨_, tb', cast (by simp) this, .refl _, trivial⟩
theorem Seg.funame_gram {E : Env} (w : Bool) : (s : Seg) → s.Ok E → s.isName →
    FReads E .uname (s.tree E) (s.spell w)
  | .id s, h, _ => Seg.fid_gram w s h
  | .tm s as, h, _ => Seg.ftm_gram w s as h
  | .anon _, _, hn => nomatch hn
  | .loc _ _, _, hn => nomatch hn
theorem Seg.ftm_gram {E : Env} (w : Bool) : (s : Text) → (as : Args) → (Seg.tm s as).Ok E →
    FReads E .uname ((Seg.tm s as).tree E) ((Seg.tm s as).spell w)
  | s, as, h => by
    intro tb hl
    have hpr := Seg.pr_eq (.tm s as) h
    rw [Seg.Ok] at h
    rw [Seg.spell]
    obtain ⟨a', tb2, g, ha, _⟩ := Args.fgram w as h.2.2 (({} : Tbl).note s) trivial
    have hal : Alike E (.named s (T.one (.arr a'))) (Seg.tree E (.tm s as)) := by
      rw [Seg.tree]
      exact .named _ (Alike.arr ha).one
    have ht : (T.named s (T.one (.arr a'))).text E = (Seg.tm s as).cpp E := by
      rw [hal.text_eq]
      unfold T.text
      rw [hpr]
      rfl
    have := Gram.uTmpl (tmpl_gram h.1 g tb) rfl (by rw [ht]; exact h.2.1)
    rw [ht] at this
    exact ⟨_, _, this, hal, hl⟩
theorem Args.fgram {E : Env} (w : Bool) : (as : Args) → as.Ok E →
    FReads E .targs (as.tree E) (as.spell w)
  | .nil, _ => by rw [Args.spell, Args.tree]; exact fun tb hl => ⟨_, _, .taNil, .refl _, hl⟩
  | .ty t as, h => by
    rw [Args.Ok] at h
    rw [Args.spell, Args.tree]
    intro tb hl
    obtain ⟨t', tb1, g1, ha, hl⟩ := farg_gram (Ty.fgram w t h.1) tb hl
    obtain ⟨as', tb2, g2, hb, hl⟩ := Args.fgram w as h.2 tb1 hl
    exact ⟨_, _, .taCons g1 g2, .cons ha hb, hl⟩
  | .int neg n as, h => by
    rw [Args.Ok] at h
    rw [Args.spell, Args.tree]
    intro tb hl
    have e := encode_spec n h.1
    have : EncInt ((if neg then c!"?" else []) ++ encode n) n neg := by
      cases neg
      · exact .pos e
      · exact .neg e
    obtain ⟨as', tb2, g2, hb, hl⟩ := Args.fgram w as h.2 tb hl
    exact ⟨_, tb2, cast (by simp) (Gram.taCons (.aInt (m := false) this) g2), .cons (.refl _) hb, hl⟩
  | .pack as, h => by
    rw [Args.Ok] at h
    rw [Args.spell, Args.tree]
    intro tb hl
    obtain ⟨as', tb2, g2, hb, hl⟩ := Args.fgram w as h tb hl
    exact ⟨_, _, .taPack (by decide) g2, hb, hl⟩
  | .fn s as, h => by
    rw [Args.Ok] at h
    rw [Args.spell, Args.tree]
    intro tb hl
    obtain ⟨t', tb1, g1, ha, hl⟩ := Sig.fgram w s h.1 tb hl
    obtain ⟨as', tb2, g2, hb, hl⟩ := Args.fgram w as h.2 tb1 hl
    exact ⟨_, _, .taCons (.aType (.fnType g1)) g2, .cons ha hb, hl⟩
  | .mfn q s as, h => by
    rw [Args.Ok] at h
    rw [Args.spell, Args.tree]
    intro tb hl
    obtain ⟨t', tb1, g1, ha, hl⟩ := Sig.fgramThis w s h.1 q tb hl
    obtain ⟨as', tb2, g2, hb, hl⟩ := Args.fgram w as h.2 tb1 hl
    exact ⟨_, tb2, cast (by simp) (Gram.taCons (.aType (.fnTypeThis g1)) g2), .cons ha hb, hl⟩
  | .arr c v dims el as, h => by
    rw [Args.Ok] at h
    rw [Args.spell, Args.tree]
    intro tb hl
    obtain ⟨t', tb1, g1, ha, hl⟩ := farray_gram c v h.1 h.2.1 (Ty.fgram w el h.2.2.1) tb hl
    obtain ⟨as', tb2, g2, hb, hl⟩ := Args.fgram w as h.2.2.2 tb1 hl
    exact ⟨_, tb2, cast (by simp) (Gram.taCons (.aTypeB g1) g2), .cons ha hb, hl⟩
  | .tmpl p as, h => by
    rw [Args.Ok] at h
    rw [Args.spell, Args.tree]
    intro tb hl
    obtain ⟨t', tb1, g1, ha, hl⟩ := Path.fqtn_gram w p h.1 tb hl
    obtain ⟨as', tb2, g2, hb, hl⟩ := Args.fgram w as h.2 tb1 hl
    exact ⟨_, _, .taCons (.aName g1) g2, .cons ha hb, hl⟩
  | .addr d as, h => by
    rw [Args.Ok] at h
    rw [Args.spell, Args.tree]
    intro tb hl
    obtain ⟨⟨s, hs, hf⟩, h1, h2⟩ := h
    obtain ⟨t', x, tb1, hd⟩ := Decl.fgram w d h1 tb
    obtain ⟨as', tb2, g2, hb, hl⟩ := Args.fgram w as h2 tb1 trivial
    obtain ⟨hi, hn⟩ := hd.ident s hs
    have ht : (T.named s .nil).text E = s := by simp [T.text, T.pr, Pr.ofText, targsOut, Pr.nil]
    have := Gram.aSym (m := false) (ch := '1') (offs := []) (by decide) hd.sym hi (by rw [ht]; exact hf) .nil
    rw [ht, hn, ← hd.eq] at this
    exact ⟨_, tb2, cast (by simp) (Gram.taCons this g2), .cons (.addr _ _ hd.alike.one) hb, hl⟩
  | .ref d as, h => by
    rw [Args.Ok] at h
    rw [Args.spell, Args.tree]
    intro tb hl
    obtain ⟨t', x, tb1, hd⟩ := Decl.fgram w d h.1 tb
    obtain ⟨as', tb2, g2, hb, hl⟩ := Args.fgram w as h.2 tb1 trivial
    have := Gram.aRef (m := false) hd.sym
    rw [← hd.eq] at this
    exact ⟨_, _, .taCons this g2, .cons (.addr _ _ hd.alike.one) hb, hl⟩
  | .memFn d offs as, h => by
    rw [Args.Ok] at h
    rw [Args.spell, Args.tree]
    intro tb hl
    obtain ⟨⟨⟨s, hs, hf⟩, hm, ho⟩, h1, h2⟩ := h
    obtain ⟨t', x, tb1, hd⟩ := Decl.fgram w d h1 tb
    obtain ⟨as', tb2, g2, hb, hl⟩ := Args.fgram w as h2 tb1 trivial
    obtain ⟨hi, hn⟩ := hd.ident s hs
    obtain ⟨ch, hc, hm⟩ := memFn_mem hm
    have ht : (T.named s .nil).text E = s := by simp [T.text, T.pr, Pr.ofText, targsOut, Pr.nil]
    have := Gram.aSym (m := false) hm hd.sym hi (by rw [ht]; exact hf) (offs_enc ho)
    rw [ht, hn, ← hd.eq] at this
    exact ⟨_, tb2, cast (by simp [hc]) (Gram.taCons this g2), .cons (.addr _ _ hd.alike.one) hb, hl⟩
  | .memData offs as, h => by
    rw [Args.Ok] at h
    rw [Args.spell, Args.tree]
    intro tb hl
    obtain ⟨ch, hc, hm⟩ := memData_mem h.1.1
    have := Gram.aData (E := E) (tb := tb) (m := false) hm (offs_enc h.1.2)
    obtain ⟨as', tb2, g2, hb, hl⟩ := Args.fgram w as h.2 tb hl
    exact ⟨_, tb2, cast (by simp [hc]) (Gram.taCons this g2), .cons (.refl _) hb, hl⟩
/-- Constructors, destructors, operators and conversions, possibly templates. -/
theorem Targs.fgram {E : Env} (w : Bool) : (ta : Targs) → ta.Ok E → 
    ∀ {code : Text} {mk : T → T}, (∀ tb, Gram E .fid tb (mk .nil) code tb) → (∀ a, (mk .nil).withArgs a = mk (T.one (.arr a))) → ∀ tb,
    ∃ TA, Gram E .sname tb (mk TA) (ta.spell w code) tb ∧ Alike E TA (ta.tree E)
  | .none, _, code, mk, g0, _, tb => by
    rw [Targs.spell, Targs.tree]
    exact ⟨.nil, .sFull (g0 tb), .refl _⟩
  | .some as, h, code, mk, g0, hmk, tb => by
    rw [Targs.Ok] at h
    rw [Targs.spell, Targs.tree]
    obtain ⟨a', tb2, g, ha, _⟩ := Args.fgram w as h {} trivial
    exact ⟨T.one (.arr a'), hmk a' ▸ .sTmpl (.tmpl (g0 {}) g), (Alike.arr ha).one⟩
theorem Head.fgram {E : Env} (w : Bool) : (n : Head) → n.Ok E → ∀ tb : Tbl,
    ∃ (i : T) (tb' : Tbl), Gram E .sname tb i (n.spell w) tb' ∧ i.isPlain = true ∧ T.known i = true ∧ Alike E i (n.tree E) ∧
      ∀ s, n = .id s → i = .named s .nil
  | .id s, h, tb => by
    rw [Head.Ok] at h
    rw [Head.spell, Head.tree]
    exact ⟨_, _, .sFull (.fName h), rfl, rfl, .refl _, by simp⟩
  | .tm s as, h, tb => by
    rw [Head.Ok] at h
    rw [Head.spell, Head.tree]
    obtain ⟨a', tb2, g, ha, _⟩ := Args.fgram w as h.2 (({} : Tbl).note s) trivial
    exact ⟨_, _, .sTmpl (tmpl_gram h.1 g tb), rfl, rfl, .named _ (Alike.arr ha).one, by simp⟩
  | .op o ta, h, tb => by
    rw [Head.Ok] at h
    rw [Head.spell, Head.tree]
    obtain ⟨TA, g, ha⟩ := Targs.fgram w ta h (mk := .op (some o)) (fun tb => op_gram E tb o) (fun _ => rfl) tb
    exact ⟨_, _, g, rfl, rfl, .op _ ha, by simp⟩
  | .lit s, h, tb => by
    rw [Head.Ok] at h
    rw [Head.spell, Head.tree]
    exact ⟨_, _, .sFull (.fLit h.1 h.2), rfl, rfl, .refl _, by simp⟩
theorem Decl.fgram {E : Env} (w : Bool) : (d : Decl) → d.Ok E → ∀ tb : Tbl,
    ∃ (t' : T) (x : Text) (tb' : Tbl), FReadsDecl E w d tb t' x tb'
  | .var st n p ty, h, tb => by
    rw [Decl.Ok] at h
    obtain ⟨h1, h2, h3⟩ := h
    obtain ⟨i, tb1, g1, hp, hkn, hi, hid⟩ := Head.fgram w n h1 tb
    obtain ⟨ps, tb2, g2, ha, hl⟩ := Path.fscopes_gram w p h2 _ trivial
    obtain ⟨ty', tb', g, hty, hl, hg⟩ := fvar_gram w (st := st) g1 hp g2 hl (Ty.fgram w ty h3)
      (by rintro k u cls to rfl; rw [Ty.Ok] at h3; exact Path.fqtn_gram w cls h3.2.1)
      (by rintro k cls q s rfl; rw [Ty.Ok] at h3; exact Path.fqtn_gram w cls h3.2.1)
    refine ⟨_, _, tb', g, by rw [Decl.spell]; simp, free_of g1 hkn, ?_, ?_⟩
    · rw [Decl.tree]
      exact .var _ (.qname (ha.snoc hi)) hty.one
    · intro s hs
      have hn : n = .id s := ident_head hs
      obtain rfl := hid s hn
      exact ⟨snoc_last _ _ (scopes_tl g2), note_known (known_grow (sname_known g1) ((gram_grow g2).trans hg))⟩
  | .fn k n p s, h, tb => by
    rw [Decl.Ok] at h
    obtain ⟨h0, h1, h2, h3⟩ := h
    obtain ⟨i, tb1, g1, hp, hkn, hi, hid⟩ := Head.fgram w n h1 tb
    obtain ⟨ps, tb2, g2, ha, hl⟩ := Path.fscopes_gram w p h2 _ trivial
    obtain ⟨cc, ne, vr, r, x, prs, y, tb3, tb4, g3, g4, e, e2, hr, hq⟩ := Sig.fparts w s h3 tb2
    have gf := Kind.fenc w k h0 (cc := cc) (ne := ne) g3 g4
    have g := Gram.func g1 hp g2 gf
    refine ⟨_, _, tb4, g, by rw [Decl.spell]; simp [e], free_of g1 hkn, ?_, ?_⟩
    · rw [Decl.tree, e2]
      exact .fn (.qname (ha.snoc hi)) (k.wrap_alike _ hr hq)
    · intro s hs
      have hn : n = .id s := ident_head' hs
      obtain rfl := hid s hn
      exact ⟨snoc_last _ _ (scopes_tl g2), note_known (known_grow (sname_known g1) ((gram_grow g2).trans (gram_grow gf)))⟩
  | .structor d ta k s p cc ps vr ne, h, tb => by
    rw [Decl.Ok] at h
    obtain ⟨⟨h1, h2, h3⟩, h4, h5, h6, h7, h8⟩ := h
    have g0 : ∀ tb, Gram E .fid tb (.structor d .nil .nil) (if d then c!"?1" else c!"?0") tb := by
      intro tb
      cases d
      · exact .fCtor
      · exact .fDtor
    obtain ⟨TA, g1, hTA⟩ := Targs.fgram w ta h4 (mk := .structor d .nil) g0 (fun _ => rfl) tb
    obtain ⟨s', tb1, g2, ha, hl⟩ := Seg.funame_gram w s h6 h5 tb trivial
    obtain ⟨p', tb2, g3, hb, hl⟩ := Path.fscopes_gram w p h7 tb1 hl
    have hh := ps.spell_head w h8
    obtain ⟨p2, tb3, g4, ha2, hl⟩ := fparams_gram (Tys.fgram w ps h8) hh.1 hh.2 vr tb2 hl
    have gf := Kind.fenc w k h1 (cc := cc) (ne := ne) .retNone g4
    have hpl : s'.isPlain = true := by rw [ha.plain]; cases s <;> first | (rw [Seg.tree]; rfl) | cases h5
    have g := Gram.structor g1 (.scCons (.scName g2) g3) hpl gf
    refine ⟨_, _, tb3, g, ?_, free_of g1 rfl, ?_, fun s hs => by cases hs⟩
    · rw [Decl.spell]
      cases ne <;> simp [throwCode]
    · rw [Decl.tree]
      exact .fn (.qname ((hb.snoc ha).snoc (.structor d ha.one hTA))) (k.wrap_alike _ (.refl _) ha2)
  | .conv ta k p s, h, tb => by
    rw [Decl.Ok] at h
    obtain ⟨h0, h1, h2, h3⟩ := h
    obtain ⟨TA, g1, hTA⟩ := Targs.fgram w ta h1 (mk := fun a => .conv a .nil) (fun _ => .fConv) (fun _ => rfl) tb
    obtain ⟨ps, tb2, g2, ha, hl⟩ := Path.fscopes_gram w p h2 _ trivial
    obtain ⟨cc, ne, vr, r, x, prs, y, tb3, tb4, g3, g4, e, e2, hr, hq⟩ := Sig.fparts w s h3 tb2
    have gf := Kind.fenc w k h0 (cc := cc) (ne := ne) g3 g4
    have g : Gram E .decl tb (.fn (.qname (ps.snoc (.conv TA (T.one r)))) (k.wrap (Cxx.fsig cc vr ne k.fk k.this) (T.one r) prs))
        (ta.spell w c!"?B" ++ (p.spell w) ++ (k.code ++ k.thisCode w ++ (cc :: x ++ y ++ throwCode ne))) tb4 := by
      cases k <;> first | exact .conv g1 g2 gf | exact .convThunk g1 g2 gf
    refine ⟨_, _, tb4, g, ?_, free_of g1 rfl, ?_, fun s hs => by cases hs⟩
    · rw [Decl.spell]; simp [e]
    · rw [Decl.tree, e2]
      exact .fn (.qname (ha.snoc (.conv hTA hr))) (k.wrap_alike _ hr hq)
end

end Spec.Cxx
end Undname
