/-
  What the mangler of `Spec/Mixed.lean` writes is read by the grammar as the intended tree, with the number of nodes
  of `Spec/MixedNodes.lean`.
-/
import Verif.Spec.MixedNodes
import Verif.Proof.ManglerGramN
import Verif.Proof.Mixed

namespace Undname
open Spec
namespace Spec.Cxx

/-- The grammar reads a text as a phrase that prints like `want`, for `n` nodes. -/
def MReadsN (E : Env) (L : List Seg) (k : Cat) (st : Pen) (want : T) (x : Text) (st' : Pen) (n : Nat) : Prop :=
  ∀ tb, st.toSeen.Like E L tb → ∃ (t' : T) (tb' : Tbl), GramN E k tb t' x tb' n ∧ Alike E t' want ∧ st'.toSeen.Like E L tb'


theorem mret_gramN {E : Env} {L : List Seg} {t : Ty} {st st' : Pen} {x : Text} {n : Nat} (g0 : MReadsN E L .ty st (t.core E) x st' n) (hx : x.head? ≠ some '?') :
    MReadsN E L .ret st (t.tree E).one (t.retCode ++ x) st' n := by
  intro tb hl
  obtain ⟨t', tb', g, ha, hl⟩ := g0 tb hl
  cases t with
  | prim k c v =>
    show ∃ (t' : T) (tb' : Tbl), GramN E _ tb t' ((if c || v then ['?', Spec.Ty.cvLetter c v] else []) ++ x) tb' n ∧ _
    split
    · have := GramN.resQual (List.mem_append_left memberCvCodes (cvLetter_mem c v)) g
      refine ⟨_, _, .retSome this, ?_, hl⟩
      exact cast (by simp [Ty.core, T.addQ, Ty.tree, CV.or]) (ha.addQ { c, v }).one
    · next h =>
      have hc : c = false ∧ v = false := by cases c <;> cases v <;> simp_all
      obtain ⟨rfl, rfl⟩ := hc
      exact ⟨_, _, .retSome (.resPlain g hx), ha.one, hl⟩
  | tag k p c v =>
    have := GramN.resQual (List.mem_append_left memberCvCodes (cvLetter_mem c v)) g
    refine ⟨_, _, .retSome this, ?_, hl⟩
    exact cast (by simp [Ty.core, T.addQ, Ty.tree, CV.or]) (ha.addQ { c, v }).one
  | _ => exact ⟨_, _, .retSome (.resPlain g hx), ha.one, hl⟩


theorem marg_gramN {E : Env} {L : List Seg} {t : Ty} {st st' : Pen} {x : Text} {n : Nat} (g0 : MReadsN E L .ty st (t.core E) x st' n) :
    MReadsN E L (.targ false) st (t.tree E) (t.argCode ++ x) st' n := by
  intro tb hl
  obtain ⟨t', tb', g, ha, hl⟩ := g0 tb hl
  have key : ∀ c v, t.cv = { c, v } → ∃ (t' : T) (tb' : Tbl),
      GramN E (.targ false) tb t' (c!"$$C" ++ [Spec.Ty.cvLetter c v] ++ x) tb' n ∧ Alike E t' (t.tree E) ∧ st'.toSeen.Like E L tb' := by
    intro c v h
    have := GramN.aTypeC (m := false) (List.mem_append_left memberCvCodes (cvLetter_mem c v)) g
    have hb := ha.addQ t.cv
    rw [core_addQ, h] at hb
    exact ⟨_, _, cast (by simp) this, hb, hl⟩
  cases t with
  | prim k c v =>
    show ∃ (t' : T) (tb' : Tbl), GramN E _ tb t' ((if c || v then c!"$$C" ++ [Spec.Ty.cvLetter c v] else []) ++ x) tb' n ∧ _
    split
    · exact key c v rfl
    · next h =>
      have hc : c = false ∧ v = false := by cases c <;> cases v <;> simp_all
      obtain ⟨rfl, rfl⟩ := hc
      exact ⟨_, _, .aType g, ha, hl⟩
  | tag k p c v =>
    show ∃ (t' : T) (tb' : Tbl), GramN E _ tb t' ((if c || v then c!"$$C" ++ [Spec.Ty.cvLetter c v] else []) ++ x) tb' n ∧ _
    split
    · exact key c v rfl
    · next h =>
      have hc : c = false ∧ v = false := by cases c <;> cases v <;> simp_all
      obtain ⟨rfl, rfl⟩ := hc
      exact ⟨_, _, .aType g, ha, hl⟩
  | _ => exact ⟨_, _, .aType g, ha, hl⟩


/-- A parameter list with its end. -/
theorem mparams_gramN {E : Env} {L : List Seg} {ts : Tys} {st st' : Pen} {x : Text} {n : Nat} (g0 : MReadsN E L .plist st (ts.tree E) x st' n)
    (hx : x.head? ≠ some 'X') (hn : x = [] ↔ ts = .nil) (hb : x = [] → st' = st ∧ n = 0) (vr : Bool) :
    MReadsN E L (.params vr) st (ts.treeOf E vr) (if x.isEmpty && !vr then c!"X" else x ++ (if vr then c!"Z" else c!"@")) st' (n + listNodes ts vr) := by
  intro tb hl
  obtain ⟨t', tb', g, ha, hl'⟩ := g0 tb hl
  cases vr with
  | true =>
    have : ts.treeOf E true = T.one (.arr (ts.tree E)) := by cases ts <;> simp [Tys.treeOf, Tys.tree]
    rw [this]
    exact ⟨_, _, cast (by simp [listNodes]) (GramN.pVariadic g hx), (Alike.arr ha).one, hl'⟩
  | false =>
    cases ts with
    | nil =>
      have h := hn.2 rfl
      subst h
      rw [(hb rfl).1, (hb rfl).2]
      exact ⟨_, _, .pVoid, .refl _, hl⟩
    | cons t ts =>
      have : x ≠ [] := fun h => by cases hn.1 h
      have e : x.isEmpty = false := by simpa using this
      rw [e]
      have := GramN.pFixed g hx
      rw [Tys.tree] at ha
      exact ⟨_, _, cast (by simp [listNodes]) this, (Alike.arr ha).one, hl'⟩




/-- What is read as a symbol. -/
structure MReadsDeclN (E : Env) (L : List Seg) (w : Bool) (d : Decl) (st : Pen) (tb : Tbl) (t' : T) (x : Text) (tb' : Tbl) : Prop where
  decl : GramN E .decl tb t' x tb' (d.mixNodes w st)
  eq : (d.mix w st).1 = '?' :: x
  free : Free x
  alike : Alike E t' (d.tree E)
  like : (d.mix w st).2.toSeen.Like E L tb'
  ident : ∀ s, d.ident = some s → t'.ident = some (.named s .nil) ∧ tb'.note s = tb'


theorem MReadsDeclN.sym {E : Env} {L : List Seg} {w : Bool} {d : Decl} {st : Pen} {tb tb' : Tbl} {t' : T} {x : Text}
    (h : MReadsDeclN E L w d st tb t' x tb') : GramN E .sym tb t' ('?' :: x) tb' (d.mixNodes w st) := .sym h.decl h.free


theorem marray_gramN {E : Env} {L : List Seg} {el : Ty} {st st' : Pen} {x : Text} {n : Nat} (c v : Bool) {dims : List Nat} (hd : dimsOk dims)
    (hu : el.unqualified) (g0 : MReadsN E L .ty st (el.core E) x st' n) :
    MReadsN E L .ty st (.array { c, v } dims (el.tree E)) (arrayCode c v dims ++ x) st' (n + dims.length + 2) := by
  obtain ⟨h1, h2, h3⟩ := hd
  intro tb hl
  obtain ⟨t', tb', g, ha, hl⟩ := g0 tb hl
  rw [Ty.core_of_unq hu] at ha
  refine ⟨_, _, ?_, .array { c, v } dims ha, hl⟩
  unfold arrayCode
  split
  · exact cast (by simp) (GramN.arrayQ (encode_spec _ h2) h1 (dims_enc h3) (cvLetter_mem c v) g)
  · next h =>
    have hc : c = false ∧ v = false := by cases c <;> cases v <;> simp_all
    obtain ⟨rfl, rfl⟩ := hc
    exact cast (by simp) (GramN.array (encode_spec _ h2) h1 (dims_enc h3) g)


/-- A variable. -/
theorem mvar_gramN {E : Env} {L : List Seg} (w : Bool) {st : Storage} {i ps : T} {x y : Text} {tb0 tb1 tb2 : Tbl} {seen : Pen}
    {n1 n2 : Nat} (h1 : GramN E .sname tb0 i x tb1 n1) (hi : i.isPlain = true) (h2 : GramN E .scopes tb1 ps y tb2 n2) (hl : seen.toSeen.Like E L tb2)
    {ty : Ty} (gt : MReadsN E L .ty seen (ty.core E) (ty.mix w seen).1 (ty.mix w seen).2 (ty.mixNodes w seen))
    (gc : ∀ k u cls to, ty = .mptr k u cls to → ∀ st, MReadsN E L .qtn st (.qname (cls.tree E)) (cls.mix w st).1 (cls.mix w st).2 (cls.mixNodes w st))
    (gc' : ∀ k cls q s, ty = .mfptr k cls q s → ∀ st, MReadsN E L .qtn st (.qname (cls.tree E)) (cls.mix w st).1 (cls.mix w st).2 (cls.mixNodes w st)) :
    ∃ (ty' : T) (tb' : Tbl), GramN E .decl tb0 (.var (some st.cls) (.qname (ps.snoc i)) ty'.one)
        (x ++ y ++ st.code :: (ty.mix w seen).1 ++ (ty.mixAgain w (ty.mix w seen).2).1) tb' (n1 + n2 + (ty.mixNodes w seen + ty.mixAgainNodes w (ty.mix w seen).2 + 1)) ∧ Alike E ty' (ty.tree E) ∧
      (ty.mixAgain w (ty.mix w seen).2).2.toSeen.Like E L tb' ∧ tb2.names <+: tb'.names := by
  obtain ⟨t', tb3, g, ha, hl⟩ := gt tb2 hl
  have hg := gram_grow g.gram
  cases ty with
  | prim k c v =>
    have hp : t'.isPtr = false := by rw [ha.isPtr]; rfl
    refine ⟨T.setQ { c, v } t', tb3, cast (by simp [Ty.mixAgainNodes, Ty.mixAgain, Ty.mixAgainNodes]) (GramN.var h1 hi h2 st.mem g hp (List.mem_append_left _ (cvLetter_mem c v))), ?_, by rw [Ty.mixAgain]; exact hl, hg⟩
    exact cast (by simp [Ty.core, T.setQ, Ty.tree]) (ha.setQ { c, v })
  | tag k p c v =>
    have hp : t'.isPtr = false := by rw [ha.isPtr]; rfl
    refine ⟨T.setQ { c, v } t', tb3, cast (by simp [Ty.mixAgainNodes, Ty.mixAgain, Ty.mixAgainNodes]) (GramN.var h1 hi h2 st.mem g hp (List.mem_append_left _ (cvLetter_mem c v))), ?_, by rw [Ty.mixAgain]; exact hl, hg⟩
    exact cast (by simp [Ty.core, T.setQ, Ty.tree]) (ha.setQ { c, v })
  | ptr k u to =>
    rw [Ty.core.eq_def] at ha; dsimp only at ha
    rw [Ty.tree] at ha ⊢
    obtain ⟨c', to', rfl, hc, hb⟩ := alike_ptr ha
    obtain rfl := alike_nil hc
    refine ⟨_, tb3, cast ?_ (GramN.varPtr ⟨w, k.restrict, u⟩ h1 hi h2 st.mem g (tail_mem to)), .ptr _ _ (.refl _) (by have := hb.addQ to.cv; rwa [tree_addQ] at this),
      by rw [Ty.mixAgain]; exact hl, hg⟩
    rw [cv_or_self]
    simp [Ty.mixAgainNodes, Ty.mixAgain, ext_code]
  | fptr k s =>
    rw [Ty.core.eq_def] at ha; dsimp only at ha
    rw [Ty.tree] at ha ⊢
    obtain ⟨c', to', rfl, hc, hb⟩ := alike_ptr ha
    obtain rfl := alike_nil hc
    have hb' := hb.addQ {}
    rw [show (T.sig (s.fsig {} {}) (s.retT E) (s.parT E)).addQ {} = .sig (s.fsig {} {}) (s.retT E) (s.parT E) by
      cases s; simp [Sig.fsig, Cxx.fsig, T.addQ, CV.or, This.cv]] at hb'
    refine ⟨_, tb3, cast ?_ (GramN.varPtr (ch := 'A') (q := {}) ⟨w, false, false⟩ h1 hi h2 st.mem g (by decide)), .ptr (k.cv false) _ (.refl _) hb',
      by rw [Ty.mixAgain]; exact hl, hg⟩
    rw [cv_or_false]
    simp [Ty.mixAgainNodes, Ty.mixAgain, ext_code]
  | aptr k c v dims el =>
    rw [Ty.core.eq_def] at ha; dsimp only at ha
    rw [Ty.tree] at ha ⊢
    obtain ⟨c', to', rfl, hc, hb⟩ := alike_ptr ha
    obtain rfl := alike_nil hc
    have e : (T.array { c, v } dims (el.tree E)).addQ {} = .array { c, v } dims (el.tree E) := by simp [T.addQ, CV.or]
    have hb' := hb.addQ {}
    rw [e] at hb'
    refine ⟨_, tb3, cast ?_ (GramN.varPtr (ch := 'A') (q := {}) ⟨w, k.restrict, false⟩ h1 hi h2 st.mem g (by decide)), .ptr (k.cv false) _ (.refl _) hb',
      by rw [Ty.mixAgain]; exact hl, hg⟩
    rw [cv_or_self]
    simp [Ty.mixAgainNodes, Ty.mixAgain, ext_code]
  | mptr k u cls to =>
    rw [Ty.core.eq_def] at ha; dsimp only at ha
    rw [Ty.tree] at ha ⊢
    obtain ⟨c', to', rfl, hc, hb⟩ := alike_ptr ha
    obtain ⟨n', rfl, hn⟩ := alike_one hc
    obtain ⟨n2, tb4, gn, _, hl⟩ := gc _ _ _ _ rfl _ _ hl
    refine ⟨_, tb4, cast ?_ (GramN.varMemberPtr ⟨w, k.restrict, u⟩ h1 hi h2 st.mem g (List.mem_append_right _ (memberLetter_mem to)) gn),
      .ptr _ _ hn.one (by have := hb.addQ to.cv; rwa [tree_addQ] at this), by rw [Ty.mixAgain]; exact hl, hg.trans (gram_grow gn.gram)⟩
    rw [cv_or_self]
    simp [Ty.mixAgainNodes, Ty.mixAgain, ext_code]
  | mfptr k cls q s =>
    rw [Ty.core.eq_def] at ha; dsimp only at ha
    rw [Ty.tree] at ha ⊢
    obtain ⟨c', to', rfl, hc, hb⟩ := alike_ptr ha
    obtain ⟨n', rfl, hn⟩ := alike_one hc
    obtain ⟨n2, tb4, gn, _, hl⟩ := gc' _ _ _ _ rfl _ _ hl
    have hb' := hb.addQ {}
    rw [show (T.sig (s.fsig {} q) (s.retT E) (s.parT E)).addQ {} = .sig (s.fsig {} q) (s.retT E) (s.parT E) by
      cases s; simp [Sig.fsig, Cxx.fsig, T.addQ, CV.or]] at hb'
    refine ⟨_, tb4, cast ?_ (GramN.varMemberPtr (ch := 'Q') (q := {}) ⟨w, false, false⟩ h1 hi h2 st.mem g (by decide) gn),
      .ptr (k.cv false) _ hn.one hb', by rw [Ty.mixAgain]; exact hl, hg.trans (gram_grow gn.gram)⟩
    rw [cv_or_false]
    simp [Ty.mixAgainNodes, Ty.mixAgain, ext_code]


theorem Seg.mid_gramN {E : Env} {L : List Seg} (hL : Distinct E L) (w : Bool) (s : Text) (h : (Seg.id s).Ok E) (hk : Sub (Seg.id s).keys L) (st : Pen) :
    MReadsN E L .uname st ((Seg.id s).tree E) ((Seg.id s).mix w st).1 ((Seg.id s).mix w st).2 ((Seg.id s).mixNodes w st) := by
    intro tb hl
    rw [Seg.Ok] at h
    rw [Seg.keys] at hk
    rw [Seg.mix, Seg.tree, Seg.mixNodes]
    cases hp : st.pick (position (.id s) st.names) with
    | some i =>
      have := hl.at (pick_spec hp).2
      simp only [Seg.known, Seg.cpp] at this
      exact ⟨_, _, .uBack (pick_spec hp).1 this, .refl _, hl⟩
    | none =>
      have := hl.note hL (hk (.id s) (by simp))
      simp only [Seg.known, Seg.cpp] at this
      have hc := hl.cost hL (hk (.id s) (by simp))
      simp only [Seg.known, Seg.cpp] at hc
      dsimp only
      rw [← hc]
      exact ⟨_, _, .uName h, .refl _, this⟩


set_option maxHeartbeats 2000000 in
mutual
theorem Ty.mgramN {E : Env} {L : List Seg} (hL : Distinct E L) (w : Bool) : (t : Ty) → t.Ok E → Sub t.keys L → ∀ st : Pen,
    MReadsN E L .ty st (t.core E) (t.mix w st).1 (t.mix w st).2 (t.mixNodes w st)
  | .prim k c v, _, _, st => by
    rw [Ty.mix, Ty.mixNodes]
    exact fun tb hl => ⟨_, _, .prim k, .refl _, hl⟩
  | .tag k p c v, h, hk, st => by
    rw [Ty.Ok] at h
    rw [Ty.keys] at hk
    rw [Ty.mix, Ty.mixNodes]
    intro tb hl
    obtain ⟨t', tb', g, ha, hl⟩ := Path.mqtn_gramN hL w p h hk st tb hl
    exact ⟨_, _, .tag k g, .tag _ _ ha, hl⟩
  | .ptr k u to, h, hk, st => by
    rw [Ty.Ok] at h
    rw [Ty.keys] at hk
    intro tb hl
    obtain ⟨t', tb', g, ha, hl⟩ := Ty.mgramN hL w to h hk st tb hl
    rw [Ty.mix, Ty.mixNodes]
    have := GramN.ptr ⟨w, k.restrict, u⟩ (pk_mem k) (letter_mem to) g
    replace ha := ha.addQ to.cv
    rw [core_addQ] at ha
    rw [pk_cv, ext_code] at this
    rw [Ty.core.eq_def]; dsimp only; rw [Ty.tree]
    exact ⟨_, _, this, .ptr _ _ (.refl _) ha, hl⟩
  | .fptr k s, h, hk, st => by
    rw [Ty.Ok] at h
    rw [Ty.keys] at hk
    intro tb hl
    obtain ⟨t', tb', g, ha, hl⟩ := Sig.mgramN hL w s h.2 hk st tb hl
    rw [Ty.mix, Ty.mixNodes]
    have := GramN.ptrFn (pk_mem k) g
    rw [Ty.core.eq_def]; dsimp only; rw [Ty.tree]
    have e : PK.cv k false = { c := k.c, v := k.v } := by simp [PK.cv, h.1]
    rw [e]
    exact ⟨_, _, cast (by simp) this, .ptr _ _ (.refl _) ha, hl⟩
  | .aptr k c v dims el, h, hk, st => by
    rw [Ty.Ok] at h
    rw [Ty.keys] at hk
    intro tb hl
    obtain ⟨t', tb', ga, ha, hl⟩ := marray_gramN c v h.1 h.2.1 (Ty.mgramN hL w el h.2.2 hk st) tb hl
    have := GramN.ptr (ch := 'A') (q := {}) ⟨w, k.restrict, false⟩ (pk_mem k) (by decide) ga
    rw [pk_cv, ext_code] at this
    have hb := ha.addQ {}
    rw [show (T.array { c, v } dims (el.tree E)).addQ {} = .array { c, v } dims (el.tree E) by simp [T.addQ, CV.or]] at hb
    rw [Ty.core.eq_def, Ty.mix, Ty.mixNodes]; dsimp only; rw [Ty.tree]
    exact ⟨_, tb', cast (by simp) this, .ptr _ _ (.refl _) hb, hl⟩
  | .mptr k u cls to, h, hk, st => by
    rw [Ty.Ok] at h
    rw [Ty.keys] at hk
    obtain ⟨h1, h2, h3, h4⟩ := h
    intro tb hl
    obtain ⟨n', tb1, g1, ha1, hl⟩ := Path.mqtn_gramN hL w cls h2 hk.left st tb hl
    obtain ⟨t', tb', g2, ha, hl⟩ := Ty.mgramN hL w to h4 hk.right (cls.mix w st).2 tb1 hl
    have := GramN.ptrMember ⟨w, k.restrict, u⟩ (star_mem h1) (memberLetter_mem to) g1 g2
    rw [pk_cv, ext_code] at this
    replace ha := ha.setQ to.cv
    rw [core_setQ h3 (by rintro k s rfl; rw [Ty.Ok] at h4; exact h4.1) (by rintro k c q s rfl; rw [Ty.Ok] at h4; exact h4.1.2)] at ha
    rw [Ty.core.eq_def, Ty.mix, Ty.mixNodes]; dsimp only; rw [Ty.tree]
    exact ⟨_, _, this, .ptr _ _ ha1.one ha, hl⟩
  | .mfptr k cls q s, h, hk, st => by
    rw [Ty.Ok] at h
    rw [Ty.keys] at hk
    obtain ⟨⟨h1, h0⟩, h2, h3⟩ := h
    intro tb hl
    obtain ⟨n', tb1, g1, ha1, hl⟩ := Path.mqtn_gramN hL w cls h2 hk.left st tb hl
    obtain ⟨t', tb', g2, ha, hl⟩ := Sig.mgramThisN hL w s h3 hk.right q (cls.mix w st).2 tb1 hl
    have := GramN.ptrMemberFn (star_mem h1) g1 g2
    rw [Ty.core.eq_def, Ty.mix, Ty.mixNodes]; dsimp only; rw [Ty.tree]
    have e : PK.cv k false = { c := k.c, v := k.v } := by simp [PK.cv, h0]
    rw [e]
    exact ⟨_, _, cast (by simp) this, .ptr _ _ ha1.one ha, hl⟩
theorem Sig.mpartsN {E : Env} {L : List Seg} (hL : Distinct E L) (w : Bool) : (s : Sig) → s.Ok E → Sub s.keys L → ∀ (st : Pen) (tb : Tbl), st.toSeen.Like E L tb →
    ∃ (cc : Char) (ne vr : Bool) (r x ps y : _) (tb1 tb2 : Tbl) (n1 n2 : Nat), GramN E .ret tb (T.one r) x tb1 n1 ∧ GramN E (.params vr) tb1 ps y tb2 n2 ∧ s.mixNodes w st = n1 + n2 + 1 ∧
      (s.mix w st).2.toSeen.Like E L tb2 ∧ (s.mix w st).1 = cc :: x ++ y ++ throwCode ne ∧
      (∀ k q, s.fsig k q = Cxx.fsig cc vr ne k q) ∧ Alike E r.one (s.retT E) ∧ Alike E ps (s.parT E)
  | .mk cc ret ps vr ne, h, hk, st, tb, hl => by
    rw [Sig.Ok] at h
    rw [Sig.keys] at hk
    obtain ⟨_, h2, h3, _⟩ := h
    obtain ⟨r', tb1, g1, ha1, hl⟩ := mret_gramN (Ty.mgramN hL w ret h2 hk.left st) (ret.mix_head w st).2.1 tb hl
    have hh := ps.mix_head w h3 (ret.mix w st).2
    obtain ⟨p', tb2, g2, ha2, hl⟩ := mparams_gramN (Tys.mgramN hL w ps h3 hk.right (ret.mix w st).2) hh.1 hh.2
      (fun e => by rw [hh.2] at e; subst e; rw [Tys.mix, Tys.mixNodes]; exact ⟨rfl, rfl⟩) vr tb1 hl
    obtain ⟨r0, rfl, _⟩ := alike_one ha1
    rw [Sig.mix]
    refine ⟨cc, ne, vr, _, _, _, _, _, _, _, _, g1, g2, by rw [Sig.mixNodes], hl, ?_, fun k q => rfl, ?_, ?_⟩
    · cases ne <;> simp [throwCode]
    · rw [Sig.retT]; exact ha1
    · rw [Sig.parT]; exact ha2
theorem Sig.mgramN {E : Env} {L : List Seg} (hL : Distinct E L) (w : Bool) : (s : Sig) → s.Ok E → Sub s.keys L → ∀ st : Pen,
    MReadsN E L (.fty false) st (.sig (s.fsig {} {}) (s.retT E) (s.parT E)) (s.mix w st).1 (s.mix w st).2 (s.mixNodes w st)
  | s, h, hk, st => by
    intro tb hl
    obtain ⟨cc, ne, vr, r, x, ps, y, tb1, tb2, n1, n2, g1, g2, en, hl, e, e2, ha, hb⟩ := Sig.mpartsN hL w s h hk st tb hl
    rw [e, e2, en]
    exact ⟨_, _, .fn cc ne g1 g2, .sig _ ha hb, hl⟩
theorem Sig.mgramThisN {E : Env} {L : List Seg} (hL : Distinct E L) (w : Bool) : (s : Sig) → s.Ok E → Sub s.keys L → ∀ (q : This) (st : Pen),
    MReadsN E L (.fty true) st (.sig (s.fsig {} q) (s.retT E) (s.parT E)) (q.code w ++ (s.mix w st).1) (s.mix w st).2 (s.mixNodes w st)
  | s, h, hk, q, st => by
    intro tb hl
    obtain ⟨cc, ne, vr, r, x, ps, y, tb1, tb2, n1, n2, g1, g2, en, hl, e, e2, ha, hb⟩ := Sig.mpartsN hL w s h hk st tb hl
    rw [e, e2, en]
    have := GramN.fnThis ⟨w, q.restrict, q.unaligned⟩ q.ref cc ne (List.mem_append_left memberCvCodes (cvLetter_mem q.c q.v)) g1 g2
    rw [this_cv] at this
    rw [← this_code]
    refine ⟨.sig (Cxx.fsig cc vr ne {} q) r.one ps, tb2, ?_, .sig _ ha hb, hl⟩
    exact cast (by simp [Cxx.fsig]) this
theorem Tys.mgramN {E : Env} {L : List Seg} (hL : Distinct E L) (w : Bool) : (ts : Tys) → ts.Ok E → Sub ts.keys L → ∀ st : Pen,
    MReadsN E L .plist st (ts.tree E) (ts.mix w st).1 (ts.mix w st).2 (ts.mixNodes w st)
  | .nil, _, _, st => by rw [Tys.mix, Tys.tree, Tys.mixNodes]; exact fun tb hl => ⟨_, _, .pNil, .refl _, hl⟩
  | .cons t ts, h, hk, st => by
    rw [Tys.Ok] at h
    rw [Tys.keys] at hk
    rw [Tys.mix, Tys.tree, Tys.mixNodes]
    intro tb hl
    cases hp : st.pick (position t st.types) with
    | some i =>
      obtain ⟨h1, h2⟩ := pick_spec hp
      obtain ⟨t', ht, ha⟩ := hl.types i t h2
      obtain ⟨ts', tb', g, hb, hl⟩ := Tys.mgramN hL w ts h.2.2.2 hk.right st.tick tb hl
      exact ⟨_, _, .pBack h1 ht g, .cons ha hb, hl⟩
    | none =>
      obtain ⟨t', tb1, g, ha, hl⟩ := Ty.mgramN hL w t h.2.2.1 hk.left st.tick tb hl
      rw [Ty.core_of_unq h.2.1] at ha
      dsimp only
      by_cases hlen : (t.mix w st.tick).1.length = 1
      · rw [if_pos hlen]
        obtain ⟨ts', tb', g', hb, hl⟩ := Tys.mgramN hL w ts h.2.2.2 hk.right _ tb1 hl
        exact ⟨_, _, .pLetter g hlen g', .cons ha hb, hl⟩
      · rw [if_neg hlen]
        obtain ⟨ts', tb', g', hb, hl⟩ := Tys.mgramN hL w ts h.2.2.2 hk.right ((t.mix w st.tick).2.noteType t) _ (hl.noteType t ha)
        exact ⟨_, _, .pType g hlen g', .cons ha hb, hl⟩
theorem Path.mqtn_gramN {E : Env} {L : List Seg} (hL : Distinct E L) (w : Bool) : (p : Path) → p.IsType E → Sub p.keys L → ∀ st : Pen,
    MReadsN E L .qtn st (.qname (p.tree E)) (p.mix w st).1 (p.mix w st).2 (p.mixNodes w st)
  | .nil, h, _, _ => by simp [Path.IsType] at h
  | .cons s p, h, hk, st => by
    rw [Path.IsType] at h
    rw [Path.keys] at hk
    rw [Path.mix, Path.tree, Path.mixNodes]
    intro tb hl
    obtain ⟨s', tb1, g1, ha, hl⟩ := Seg.muname_gramN hL w s h.2.1 h.1 hk.left st tb hl
    obtain ⟨p', tb2, g2, hb, hl⟩ := Path.mscopes_gramN hL w p h.2.2 hk.right _ tb1 hl
    exact ⟨_, _, .qtn g1 g2, .qname (hb.snoc ha), hl⟩
theorem Path.mscopes_gramN {E : Env} {L : List Seg} (hL : Distinct E L) (w : Bool) : (p : Path) → p.Ok E → Sub p.keys L → ∀ st : Pen,
    MReadsN E L .scopes st (p.tree E) (p.mix w st).1 (p.mix w st).2 (p.mixNodes w st)
  | .nil, _, _, st => by rw [Path.mix, Path.tree, Path.mixNodes]; exact fun tb hl => ⟨_, _, .scNil, .refl _, hl⟩
  | .cons s p, h, hk, st => by
    rw [Path.Ok] at h
    rw [Path.keys] at hk
    rw [Path.mix, Path.tree, Path.mixNodes]
    intro tb hl
    obtain ⟨s', tb1, g1, ha, hl⟩ := Seg.mpiece_gramN hL w s h.1 hk.left st tb hl
    obtain ⟨p', tb2, g2, hb, hl⟩ := Path.mscopes_gramN hL w p h.2 hk.right _ tb1 hl
    exact ⟨_, _, .scCons g1 g2, hb.snoc ha, hl⟩
theorem Seg.mpiece_gramN {E : Env} {L : List Seg} (hL : Distinct E L) (w : Bool) : (s : Seg) → s.Ok E → Sub s.keys L → ∀ st : Pen,
    MReadsN E L .piece st (s.tree E) (s.mix w st).1 (s.mix w st).2 (s.mixNodes w st)
  | .id s, h, hk, st => by
    intro tb hl
    obtain ⟨t', tb', g, ha, hl⟩ := Seg.mid_gramN hL w s h hk st tb hl
    exact ⟨t', tb', .scName g, ha, hl⟩
  | .tm s as, h, hk, st => by
    intro tb hl
    obtain ⟨t', tb', g, ha, hl⟩ := Seg.mtm_gramN hL w s as h hk st tb hl
    exact ⟨t', tb', .scName g, ha, hl⟩
  | .anon key, h, hk, st => by
    intro tb hl
    rw [Seg.Ok] at h
    rw [Seg.keys] at hk
    rw [Seg.mix, Seg.tree, Seg.mixNodes]
    rw [← hl.cost hL (hk (.anon key) (by simp))]
    exact ⟨_, _, .scAnon h, .refl _, hl.note hL (hk (.anon key) (by simp))⟩
  | .loc n d, h, hk, st => by
    intro tb hl
    rw [Seg.Ok] at h
    rw [Seg.keys] at hk
    rw [Seg.mix, Seg.tree, Seg.mixNodes]
    obtain ⟨t', x, tb', hd⟩ := Decl.mgramN hL w d h.2.2 hk st tb hl
    have ht : t'.text E = d.cpp E := by
      rw [hd.alike.text_eq]
      exact (Decl.pr_eq d h.2.2 [] (Ctx.nil E)).trans (List.nil_append _)
    have e : localName E t' n = (Seg.loc n d).cpp E := by rw [localName, ht, Seg.cpp]
    have := GramN.scLocal (encode_scope h.1.1 h.1.2) hd.sym (by rw [e]; exact h.2.1)
    rw [e, ← hd.eq] at this
    exact ⟨_, _, cast (by simp) this, .refl _, hd.like⟩
theorem Seg.muname_gramN {E : Env} {L : List Seg} (hL : Distinct E L) (w : Bool) : (s : Seg) → s.Ok E → s.isName → Sub s.keys L → ∀ st : Pen,
    MReadsN E L .uname st (s.tree E) (s.mix w st).1 (s.mix w st).2 (s.mixNodes w st)
  | .id s, h, _, hk, st => Seg.mid_gramN hL w s h hk st
  | .tm s as, h, _, hk, st => Seg.mtm_gramN hL w s as h hk st
  | .anon _, _, hn, _, _ => nomatch hn
  | .loc _ _, _, hn, _, _ => nomatch hn
theorem Seg.mtm_gramN {E : Env} {L : List Seg} (hL : Distinct E L) (w : Bool) : (s : Text) → (as : Args) → (Seg.tm s as).Ok E → Sub (Seg.tm s as).keys L → ∀ st : Pen,
    MReadsN E L .uname st ((Seg.tm s as).tree E) ((Seg.tm s as).mix w st).1 ((Seg.tm s as).mix w st).2 ((Seg.tm s as).mixNodes w st)
  | s, as, h, hk, st => by
    intro tb hl
    have hpr := Seg.pr_eq (.tm s as) h
    rw [Seg.Ok] at h
    rw [Seg.keys] at hk
    rw [Seg.mix, Seg.mixNodes]
    cases hp : st.pick (position (.tm s as) st.names) with
    | some i =>
      have := hl.at (pick_spec hp).2
      simp only [Seg.known] at this
      refine ⟨_, _, .uBack (pick_spec hp).1 this, ?_, hl⟩
      rw [Seg.tree] at hpr ⊢
      exact .text hpr
    | none =>
      have h0 := (Seen.like_nil E L).note hL (hk (.id s) (by simp))
      simp only [Seg.known, Seg.cpp] at h0
      obtain ⟨a', tb2, g, ha, _⟩ := Args.mgramN hL w as h.2.2 hk.right (st.evens.note (.id s)) _ h0
      have hal : Alike E (.named s (T.one (.arr a'))) (Seg.tree E (.tm s as)) := by
        rw [Seg.tree]
        exact .named _ (Alike.arr ha).one
      have ht : (T.named s (T.one (.arr a'))).text E = (Seg.tm s as).cpp E := by
        rw [hal.text_eq]
        unfold T.text
        rw [hpr]
        rfl
      have := GramN.uTmpl (tmpl_gramN h.1 g tb) rfl (by rw [ht]; exact h.2.1)
      rw [ht] at this
      have h1 := hl.note hL (hk (.tm s as) (by simp))
      simp only [Seg.known] at h1
      have hc := hl.cost hL (hk (.tm s as) (by simp))
      simp only [Seg.known] at hc
      dsimp only
      rw [← hc]
      exact ⟨_, _, this, hal, h1⟩
theorem Args.mgramN {E : Env} {L : List Seg} (hL : Distinct E L) (w : Bool) : (as : Args) → as.Ok E → Sub as.keys L → ∀ st : Pen,
    MReadsN E L .targs st (as.tree E) (as.mix w st).1 (as.mix w st).2 (as.mixNodes w st)
  | .nil, _, _, st => by rw [Args.mix, Args.tree, Args.mixNodes]; exact fun tb hl => ⟨_, _, .taNil, .refl _, hl⟩
  | .ty t as, h, hk, st => by
    rw [Args.Ok] at h
    rw [Args.keys] at hk
    rw [Args.mix, Args.tree, Args.mixNodes]
    intro tb hl
    obtain ⟨t', tb1, g1, ha, hl⟩ := marg_gramN (Ty.mgramN hL w t h.1 hk.left st) tb hl
    obtain ⟨as', tb2, g2, hb, hl⟩ := Args.mgramN hL w as h.2 hk.right _ tb1 hl
    exact ⟨_, _, .taCons g1 g2, .cons ha hb, hl⟩
  | .int neg n as, h, hk, st => by
    rw [Args.Ok] at h
    rw [Args.keys] at hk
    rw [Args.mix, Args.tree, Args.mixNodes]
    intro tb hl
    have e := encode_spec n h.1
    have : EncInt ((if neg then c!"?" else []) ++ encode n) n neg := by
      cases neg
      · exact .pos e
      · exact .neg e
    obtain ⟨as', tb2, g2, hb, hl⟩ := Args.mgramN hL w as h.2 hk _ tb hl
    exact ⟨_, _, cast (by simp) (GramN.taCons (.aInt (m := false) this) g2), .cons (.refl _) hb, hl⟩
  | .pack as, h, hk, st => by
    rw [Args.Ok] at h
    rw [Args.keys] at hk
    rw [Args.mix, Args.tree, Args.mixNodes]
    intro tb hl
    obtain ⟨as', tb2, g2, hb, hl⟩ := Args.mgramN hL w as h hk _ tb hl
    exact ⟨_, _, .taPack (by decide) g2, hb, hl⟩
  | .fn s as, h, hk, st => by
    rw [Args.Ok] at h
    rw [Args.keys] at hk
    rw [Args.mix, Args.tree, Args.mixNodes]
    intro tb hl
    obtain ⟨t', tb1, g1, ha, hl⟩ := Sig.mgramN hL w s h.1 hk.left st tb hl
    obtain ⟨as', tb2, g2, hb, hl⟩ := Args.mgramN hL w as h.2 hk.right _ tb1 hl
    exact ⟨_, _, .taCons (.aType (.fnType g1)) g2, .cons ha hb, hl⟩
  | .mfn q s as, h, hk, st => by
    rw [Args.Ok] at h
    rw [Args.keys] at hk
    rw [Args.mix, Args.tree, Args.mixNodes]
    intro tb hl
    obtain ⟨t', tb1, g1, ha, hl⟩ := Sig.mgramThisN hL w s h.1 hk.left q st tb hl
    obtain ⟨as', tb2, g2, hb, hl⟩ := Args.mgramN hL w as h.2 hk.right _ tb1 hl
    exact ⟨_, _, cast (by simp) (GramN.taCons (.aType (.fnTypeThis g1)) g2), .cons ha hb, hl⟩
  | .arr c v dims el as, h, hk, st => by
    rw [Args.Ok] at h
    rw [Args.keys] at hk
    rw [Args.mix, Args.tree, Args.mixNodes]
    intro tb hl
    obtain ⟨t', tb1, g1, ha, hl⟩ := marray_gramN c v h.1 h.2.1 (Ty.mgramN hL w el h.2.2.1 hk.left st) tb hl
    obtain ⟨as', tb2, g2, hb, hl⟩ := Args.mgramN hL w as h.2.2.2 hk.right _ tb1 hl
    exact ⟨_, _, cast (by simp) (GramN.taCons (.aTypeB g1) g2), .cons ha hb, hl⟩
  | .tmpl p as, h, hk, st => by
    rw [Args.Ok] at h
    rw [Args.keys] at hk
    rw [Args.mix, Args.tree, Args.mixNodes]
    intro tb hl
    obtain ⟨t', tb1, g1, ha, hl⟩ := Path.mqtn_gramN hL w p h.1 hk.left st tb hl
    obtain ⟨as', tb2, g2, hb, hl⟩ := Args.mgramN hL w as h.2 hk.right _ tb1 hl
    exact ⟨_, _, .taCons (.aName g1) g2, .cons ha hb, hl⟩
  | .addr d as, h, hk, st => by
    rw [Args.Ok] at h
    rw [Args.keys] at hk
    rw [Args.mix, Args.tree, Args.mixNodes]
    intro tb hl
    obtain ⟨⟨s, hs, hf⟩, h1, h2⟩ := h
    obtain ⟨t', x, tb1, hd⟩ := Decl.mgramN hL w d h1 hk.left st tb hl
    obtain ⟨as', tb2, g2, hb, hl⟩ := Args.mgramN hL w as h2 hk.right _ tb1 hd.like
    obtain ⟨hi, hn⟩ := hd.ident s hs
    have ht : (T.named s .nil).text E = s := by simp [T.text, T.pr, Pr.ofText, targsOut, Pr.nil]
    have := GramN.aSym (m := false) (ch := '1') (offs := []) (by decide) hd.sym hi (by rw [ht]; exact hf) .nil
    rw [ht, hn, noteCost_known hn, Nat.add_zero, ← hd.eq] at this
    exact ⟨_, _, cast (by simp) (GramN.taCons this g2), .cons (.addr _ _ hd.alike.one) hb, hl⟩
  | .ref d as, h, hk, st => by
    rw [Args.Ok] at h
    rw [Args.keys] at hk
    rw [Args.mix, Args.tree, Args.mixNodes]
    intro tb hl
    obtain ⟨t', x, tb1, hd⟩ := Decl.mgramN hL w d h.1 hk.left st tb hl
    obtain ⟨as', tb2, g2, hb, hl⟩ := Args.mgramN hL w as h.2 hk.right _ tb1 hd.like
    have := GramN.aRef (m := false) hd.sym
    rw [← hd.eq] at this
    exact ⟨_, _, .taCons this g2, .cons (.addr _ _ hd.alike.one) hb, hl⟩
  | .memFn d offs as, h, hk, st => by
    rw [Args.Ok] at h
    rw [Args.keys] at hk
    rw [Args.mix, Args.tree, Args.mixNodes]
    intro tb hl
    obtain ⟨⟨⟨s, hs, hf⟩, hm, ho⟩, h1, h2⟩ := h
    obtain ⟨t', x, tb1, hd⟩ := Decl.mgramN hL w d h1 hk.left st tb hl
    obtain ⟨as', tb2, g2, hb, hl⟩ := Args.mgramN hL w as h2 hk.right _ tb1 hd.like
    obtain ⟨hi, hn⟩ := hd.ident s hs
    obtain ⟨ch, hc, hm⟩ := memFn_mem hm
    have ht : (T.named s .nil).text E = s := by simp [T.text, T.pr, Pr.ofText, targsOut, Pr.nil]
    have := GramN.aSym (m := false) hm hd.sym hi (by rw [ht]; exact hf) (offs_enc ho)
    rw [ht, hn, noteCost_known hn, Nat.add_zero, ← hd.eq] at this
    exact ⟨_, _, cast (by simp [hc]) (GramN.taCons this g2), .cons (.addr _ _ hd.alike.one) hb, hl⟩
  | .memData offs as, h, hk, st => by
    rw [Args.Ok] at h
    rw [Args.keys] at hk
    rw [Args.mix, Args.tree, Args.mixNodes]
    intro tb hl
    obtain ⟨ch, hc, hm⟩ := memData_mem h.1.1
    have := GramN.aData (E := E) (tb := tb) (m := false) hm (offs_enc h.1.2)
    obtain ⟨as', tb2, g2, hb, hl⟩ := Args.mgramN hL w as h.2 hk _ tb hl
    exact ⟨_, _, cast (by simp [hc]) (GramN.taCons this g2), .cons (.refl _) hb, hl⟩
/-- Constructors, destructors, operators and conversions, possibly templates. -/
theorem Targs.mgramN {E : Env} {L : List Seg} (hL : Distinct E L) (w : Bool) : (ta : Targs) → ta.Ok E → Sub ta.keys L →
    ∀ (st : Pen) {code : Text} {mk : T → T}, (∀ tb, GramN E .fid tb (mk .nil) code tb 1) → (∀ a, (mk .nil).withArgs a = mk (T.one (.arr a))) → ∀ tb,
    ∃ TA, GramN E .sname tb (mk TA) (ta.mix w st code) tb (ta.mixNodes w st) ∧ Alike E TA (ta.tree E)
  | .none, _, _, st, code, mk, g0, _, tb => by
    rw [Targs.mix, Targs.tree, Targs.mixNodes]
    exact ⟨.nil, .sFull (g0 tb), .refl _⟩
  | .some as, h, hk, st, code, mk, g0, hmk, tb => by
    rw [Targs.Ok] at h
    rw [Targs.keys] at hk
    rw [Targs.mix, Targs.tree, Targs.mixNodes]
    obtain ⟨a', tb2, g, ha, _⟩ := Args.mgramN hL w as h hk st.evens _ (Seen.like_nil E L)
    exact ⟨T.one (.arr a'), hmk a' ▸ .sTmpl (.tmpl (g0 {}) g), (Alike.arr ha).one⟩
theorem Head.mgramN {E : Env} {L : List Seg} (hL : Distinct E L) (w : Bool) : (n : Head) → n.Ok E → Sub n.keys L → ∀ (st : Pen) (tb : Tbl), st.toSeen.Like E L tb →
    ∃ (i : T) (tb' : Tbl), GramN E .sname tb i (n.mix w st).1 tb' (n.mixNodes w st) ∧ i.isPlain = true ∧ T.known i = true ∧ Alike E i (n.tree E) ∧
      (n.mix w st).2.toSeen.Like E L tb' ∧ ∀ s, n = .id s → i = .named s .nil
  | .id s, h, hk, st, tb, hl => by
    rw [Head.Ok] at h
    rw [Head.keys] at hk
    rw [Head.mix, Head.tree, Head.mixNodes]
    cases hp : st.pick (position (.id s) st.names) with
    | some i =>
      have := hl.at (pick_spec hp).2
      simp only [Seg.known, Seg.cpp] at this
      exact ⟨_, _, .sBack (pick_spec hp).1 this, rfl, rfl, .refl _, hl, by simp⟩
    | none =>
      have := hl.note hL (hk (.id s) (by simp))
      simp only [Seg.known, Seg.cpp] at this
      have hc := hl.cost hL (hk (.id s) (by simp))
      simp only [Seg.known, Seg.cpp] at hc
      dsimp only
      rw [← hc]
      exact ⟨_, _, .sFull (.fName h), rfl, rfl, .refl _, this, by simp⟩
  | .tm s as, h, hk, st, tb, hl => by
    rw [Head.Ok] at h
    rw [Head.keys] at hk
    rw [Head.mix, Head.tree, Head.mixNodes]
    have h0 := (Seen.like_nil E L).note hL (hk (.id s) (by simp))
    simp only [Seg.known, Seg.cpp] at h0
    obtain ⟨a', tb2, g, ha, _⟩ := Args.mgramN hL w as h.2 hk.right (st.evens.note (.id s)) _ h0
    exact ⟨_, _, .sTmpl (tmpl_gramN h.1 g tb), rfl, rfl, .named _ (Alike.arr ha).one, hl, by simp⟩
  | .op o ta, h, hk, st, tb, hl => by
    rw [Head.Ok] at h
    rw [Head.keys] at hk
    rw [Head.mix, Head.tree, Head.mixNodes]
    obtain ⟨TA, g, ha⟩ := Targs.mgramN hL w ta h hk st (mk := .op (some o)) (fun tb => op_gramN E tb o) (fun _ => rfl) tb
    exact ⟨_, _, g, rfl, rfl, .op _ ha, hl, by simp⟩
  | .lit s, h, hk, st, tb, hl => by
    rw [Head.Ok] at h
    rw [Head.mix, Head.tree, Head.mixNodes]
    exact ⟨_, _, .sFull (.fLit h.1 h.2), rfl, rfl, .refl _, hl, by simp⟩
theorem Decl.mgramN {E : Env} {L : List Seg} (hL : Distinct E L) (w : Bool) : (d : Decl) → d.Ok E → Sub d.keys L → ∀ (st : Pen) (tb : Tbl), st.toSeen.Like E L tb →
    ∃ (t' : T) (x : Text) (tb' : Tbl), MReadsDeclN E L w d st tb t' x tb'
  | .var st n p ty, h, hk, seen, tb, hl => by
    rw [Decl.Ok] at h
    rw [Decl.keys] at hk
    obtain ⟨h1, h2, h3⟩ := h
    obtain ⟨i, tb1, g1, hp, hkn, hi, hl, hid⟩ := Head.mgramN hL w n h1 hk.left.left seen tb hl
    obtain ⟨ps, tb2, g2, ha, hl⟩ := Path.mscopes_gramN hL w p h2 hk.left.right _ _ hl
    obtain ⟨ty', tb', g, hty, hl, hg⟩ := mvar_gramN w (st := st) g1 hp g2 hl (Ty.mgramN hL w ty h3 hk.right _)
      (by rintro k u cls to rfl st; rw [Ty.Ok] at h3; rw [Ty.keys] at hk; exact Path.mqtn_gramN hL w cls h3.2.1 hk.right.left st)
      (by rintro k cls q s rfl st; rw [Ty.Ok] at h3; rw [Ty.keys] at hk; exact Path.mqtn_gramN hL w cls h3.2.1 hk.right.left st)
    refine ⟨_, _, tb', by rw [Decl.mixNodes]; exact g, by rw [Decl.mix]; simp, free_of g1.gram hkn, ?_, by rw [Decl.mix]; exact hl, ?_⟩
    · rw [Decl.tree]
      exact .var _ (.qname (ha.snoc hi)) hty.one
    · intro s hs
      have hn : n = .id s := ident_head hs
      obtain rfl := hid s hn
      exact ⟨snoc_last _ _ (scopes_tl g2.gram), note_known (known_grow (sname_known g1.gram) ((gram_grow g2.gram).trans hg))⟩
  | .fn k n p s, h, hk, seen, tb, hl => by
    rw [Decl.Ok] at h
    rw [Decl.keys] at hk
    obtain ⟨h0, h1, h2, h3⟩ := h
    obtain ⟨i, tb1, g1, hp, hkn, hi, hl, hid⟩ := Head.mgramN hL w n h1 hk.left.left seen tb hl
    obtain ⟨ps, tb2, g2, ha, hl⟩ := Path.mscopes_gramN hL w p h2 hk.left.right _ _ hl
    obtain ⟨cc, ne, vr, r, x, prs, y, tb3, tb4, n1, n2, g3, g4, en, hl, e, e2, hr, hq⟩ := Sig.mpartsN hL w s h3 hk.right _ tb2 hl
    have gf := Kind.fencN w k h0 (cc := cc) (ne := ne) g3 g4
    have g := GramN.func g1 hp g2 gf
    rw [← en] at g
    refine ⟨_, _, tb4, by rw [Decl.mixNodes]; exact g, by rw [Decl.mix]; simp [e], free_of g1.gram hkn, ?_, by rw [Decl.mix]; exact hl, ?_⟩
    · rw [Decl.tree, e2]
      exact .fn (.qname (ha.snoc hi)) (k.wrap_alike _ hr hq)
    · intro s hs
      have hn : n = .id s := ident_head' hs
      obtain rfl := hid s hn
      exact ⟨snoc_last _ _ (scopes_tl g2.gram), note_known (known_grow (sname_known g1.gram) ((gram_grow g2.gram).trans (gram_grow gf.gram)))⟩
  | .structor d ta k s p cc ps vr ne, h, hk, seen, tb, hl => by
    rw [Decl.Ok] at h
    rw [Decl.keys] at hk
    obtain ⟨⟨h1, h2, h3⟩, h4, h5, h6, h7, h8⟩ := h
    have g0 : ∀ tb, GramN E .fid tb (.structor d .nil .nil) (if d then c!"?1" else c!"?0") tb 1 := by
      intro tb
      cases d
      · exact .fCtor
      · exact .fDtor
    obtain ⟨TA, g1, hTA⟩ := Targs.mgramN hL w ta h4 hk.left.left.left seen (mk := .structor d .nil) g0 (fun _ => rfl) tb
    obtain ⟨s', tb1, g2, ha, hl⟩ := Seg.muname_gramN hL w s h6 h5 hk.left.left.right seen.odds tb hl
    obtain ⟨p', tb2, g3, hb, hl⟩ := Path.mscopes_gramN hL w p h7 hk.left.right _ tb1 hl
    have hh := ps.mix_head w h8 (p.mix w (s.mix w seen.odds).2).2
    obtain ⟨p2, tb3, g4, ha2, hl⟩ := mparams_gramN (Tys.mgramN hL w ps h8 hk.right _) hh.1 hh.2
      (fun e => by rw [hh.2] at e; subst e; rw [Tys.mix, Tys.mixNodes]; exact ⟨rfl, rfl⟩) vr tb2 hl
    have gf := Kind.fencN w k h1 (cc := cc) (ne := ne) .retNone g4
    have hpl : s'.isPlain = true := by rw [ha.plain]; cases s <;> first | (rw [Seg.tree]; rfl) | cases h5
    have g := GramN.structor g1 (.scCons (.scName g2) g3) hpl gf
    refine ⟨_, _, tb3, by rw [Decl.mixNodes]; exact g, ?_, free_of g1.gram rfl, ?_, by rw [Decl.mix]; exact hl, fun s hs => by cases hs⟩
    · rw [Decl.mix]
      cases ne <;> simp [throwCode]
    · rw [Decl.tree]
      exact .fn (.qname ((hb.snoc ha).snoc (.structor d ha.one hTA))) (k.wrap_alike _ (.refl _) ha2)
  | .conv ta k p s, h, hk, seen, tb, hl => by
    rw [Decl.Ok] at h
    rw [Decl.keys] at hk
    obtain ⟨h0, h1, h2, h3⟩ := h
    obtain ⟨TA, g1, hTA⟩ := Targs.mgramN hL w ta h1 hk.left.left seen (mk := fun a => .conv a .nil) (fun _ => .fConv) (fun _ => rfl) tb
    obtain ⟨ps, tb2, g2, ha, hl⟩ := Path.mscopes_gramN hL w p h2 hk.left.right seen.odds _ hl
    obtain ⟨cc, ne, vr, r, x, prs, y, tb3, tb4, n1, n2, g3, g4, en, hl, e, e2, hr, hq⟩ := Sig.mpartsN hL w s h3 hk.right _ tb2 hl
    have gf := Kind.fencN w k h0 (cc := cc) (ne := ne) g3 g4
    have g : GramN E .decl tb (.fn (.qname (ps.snoc (.conv TA (T.one r)))) (k.wrap (Cxx.fsig cc vr ne k.fk k.this) (T.one r) prs))
        (ta.mix w seen c!"?B" ++ (p.mix w seen.odds).1 ++ (k.code ++ k.thisCode w ++ (cc :: x ++ y ++ throwCode ne))) tb4 ((Decl.conv ta k p s).mixNodes w seen) := by
      rw [Decl.mixNodes, en]
      cases k <;> first | exact .conv g1 g2 gf | exact .convThunk g1 g2 gf
    refine ⟨_, _, tb4, g, ?_, free_of g1.gram rfl, ?_, by rw [Decl.mix]; exact hl, fun s hs => by cases hs⟩
    · rw [Decl.mix]; simp [e]
    · rw [Decl.tree, e2]
      exact .fn (.qname (ha.snoc (.conv hTA hr))) (k.wrap_alike _ hr hq)
end

end Spec.Cxx
end Undname
