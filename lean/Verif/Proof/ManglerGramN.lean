/-
  What the mangler of `Spec/Mangler.lean` writes is read by the grammar as the intended tree, with the number of nodes
  of `Spec/MangledNodes.lean`.
-/
import Verif.Proof.ManglerGram
import Verif.Spec.MangledNodes
import Verif.Exact.Counted

namespace Undname
open Spec
namespace Spec.Cxx

theorem Seen.Like.cost {E : Env} {L : List Seg} (hL : Distinct E L) {st : Seen} {tb : Tbl} (h : st.Like E L tb) {s : Seg} (hs : s ∈ L) :
    tb.noteCost (s.known E) = st.cost s := by
  have hm : s.known E ∉ tb.names ↔ s ∉ st.names := by
    refine not_congr ?_
    rw [h.names, List.mem_map]
    constructor
    · rintro ⟨a, ha, he⟩
      rw [← hL a (h.mem a ha) s hs he]
      exact ha
    · exact fun ha => ⟨s, ha, rfl⟩
  have hn : tb.names.length = st.names.length := by rw [h.names, List.length_map]
  unfold Seen.cost Tbl.noteCost
  simp only [hm, hn]

theorem noteCost_known {tb : Tbl} {s : Text} (h : tb.note s = tb) : tb.noteCost s = 0 := by
  unfold Tbl.noteCost
  split
  · next h' =>
    unfold Tbl.note at h
    rw [if_pos h'] at h
    have := congrArg (fun t : Tbl => t.names.length) h
    simp at this
  · rfl

/-- The grammar reads a text as a phrase that prints like `want`, for `n` nodes. -/
def ReadsN (E : Env) (L : List Seg) (k : Cat) (st : Seen) (want : T) (x : Text) (st' : Seen) (n : Nat) : Prop :=
  ∀ tb, st.Like E L tb → ∃ (t' : T) (tb' : Tbl), GramN E k tb t' x tb' n ∧ Alike E t' want ∧ st'.Like E L tb'

theorem tmpl_gramN {E : Env} {s : Text} (hs : Name s) {as : T} {y : Text} {tb2 : Tbl} {n : Nat}
    (h : GramN E .targs (({} : Tbl).note s) as y tb2 n) (tb : Tbl) :
    GramN E .tmpl tb (.named s (T.one (.arr as))) (c!"?$" ++ s ++ c!"@" ++ y) tb (2 + n + 1) :=
  cast (by simp [T.withArgs, Tbl.noteCost]) (GramN.tmpl (tb := tb) (.fName hs) h)

theorem ret_gramN {E : Env} {L : List Seg} {t : Ty} {st st' : Seen} {x : Text} {n : Nat} (g0 : ReadsN E L .ty st (t.core E) x st' n) (hx : x.head? ≠ some '?') :
    ReadsN E L .ret st (t.tree E).one (t.retCode ++ x) st' n := by
  intro tb hl
  obtain ⟨t', tb', g, ha, hl⟩ := g0 tb hl
  cases t with
  | prim k c v =>
    show ∃ (t' : T) (tb' : Tbl), GramN E _ tb t' ((if c || v then ['?', Spec.Ty.cvLetter c v] else []) ++ x) tb' n ∧ _
    split
    · have := GramN.resQual (List.mem_append_left memberCvCodes (cvLetter_mem c v)) g
      refine ⟨_, _, .retSome this, ?_, hl⟩
      exact cast (by simp [Ty.core, T.addQ, Ty.tree, CV.or]) (ha.addQ { c, v }).one
    · next h =>
      have hc : c = false ∧ v = false := by cases c <;> cases v <;> simp_all
      obtain ⟨rfl, rfl⟩ := hc
      exact ⟨_, _, .retSome (.resPlain g hx), ha.one, hl⟩
  | tag k p c v =>
    have := GramN.resQual (List.mem_append_left memberCvCodes (cvLetter_mem c v)) g
    refine ⟨_, _, .retSome this, ?_, hl⟩
    exact cast (by simp [Ty.core, T.addQ, Ty.tree, CV.or]) (ha.addQ { c, v }).one
  | _ => exact ⟨_, _, .retSome (.resPlain g hx), ha.one, hl⟩


theorem arg_gramN {E : Env} {L : List Seg} {t : Ty} {st st' : Seen} {x : Text} {n : Nat} (g0 : ReadsN E L .ty st (t.core E) x st' n) :
    ReadsN E L (.targ false) st (t.tree E) (t.argCode ++ x) st' n := by
  intro tb hl
  obtain ⟨t', tb', g, ha, hl⟩ := g0 tb hl
  have key : ∀ c v, t.cv = { c, v } → ∃ (t' : T) (tb' : Tbl),
      GramN E (.targ false) tb t' (c!"$$C" ++ [Spec.Ty.cvLetter c v] ++ x) tb' n ∧ Alike E t' (t.tree E) ∧ st'.Like E L tb' := by
    intro c v h
    have := GramN.aTypeC (m := false) (List.mem_append_left memberCvCodes (cvLetter_mem c v)) g
    have hb := ha.addQ t.cv
    rw [core_addQ, h] at hb
    exact ⟨_, _, cast (by simp) this, hb, hl⟩
  cases t with
  | prim k c v =>
    show ∃ (t' : T) (tb' : Tbl), GramN E _ tb t' ((if c || v then c!"$$C" ++ [Spec.Ty.cvLetter c v] else []) ++ x) tb' n ∧ _
    split
    · exact key c v rfl
    · next h =>
      have hc : c = false ∧ v = false := by cases c <;> cases v <;> simp_all
      obtain ⟨rfl, rfl⟩ := hc
      exact ⟨_, _, .aType g, ha, hl⟩
  | tag k p c v =>
    show ∃ (t' : T) (tb' : Tbl), GramN E _ tb t' ((if c || v then c!"$$C" ++ [Spec.Ty.cvLetter c v] else []) ++ x) tb' n ∧ _
    split
    · exact key c v rfl
    · next h =>
      have hc : c = false ∧ v = false := by cases c <;> cases v <;> simp_all
      obtain ⟨rfl, rfl⟩ := hc
      exact ⟨_, _, .aType g, ha, hl⟩
  | _ => exact ⟨_, _, .aType g, ha, hl⟩


/-- A parameter list with its end. -/
theorem params_gramN {E : Env} {L : List Seg} {ts : Tys} {st st' : Seen} {x : Text} {n : Nat} (g0 : ReadsN E L .plist st (ts.tree E) x st' n)
    (hx : x.head? ≠ some 'X') (hn : x = [] ↔ ts = .nil) (hb : x = [] → st' = st ∧ n = 0) (vr : Bool) :
    ReadsN E L (.params vr) st (ts.treeOf E vr) (if x.isEmpty && !vr then c!"X" else x ++ (if vr then c!"Z" else c!"@")) st' (n + listNodes ts vr) := by
  intro tb hl
  obtain ⟨t', tb', g, ha, hl'⟩ := g0 tb hl
  cases vr with
  | true =>
    have : ts.treeOf E true = T.one (.arr (ts.tree E)) := by cases ts <;> simp [Tys.treeOf, Tys.tree]
    rw [this]
    exact ⟨_, _, cast (by simp [listNodes]) (GramN.pVariadic g hx), (Alike.arr ha).one, hl'⟩
  | false =>
    cases ts with
    | nil =>
      have h := hn.2 rfl
      subst h
      rw [(hb rfl).1, (hb rfl).2]
      exact ⟨_, _, .pVoid, .refl _, hl⟩
    | cons t ts =>
      have : x ≠ [] := fun h => by cases hn.1 h
      have e : x.isEmpty = false := by simpa using this
      rw [e]
      have := GramN.pFixed g hx
      rw [Tys.tree] at ha
      exact ⟨_, _, cast (by simp [listNodes]) this, (Alike.arr ha).one, hl'⟩



theorem Kind.fencN {E : Env} (w : Bool) (k : Kind) (h : k.Ok) {tb tb1 tb2 : Tbl} {r x ps y : _} {cc : Char} {vr ne : Bool}
    {n1 n2 : Nat} (g1 : GramN E .ret tb r x tb1 n1) (g2 : GramN E (.params vr) tb1 ps y tb2 n2) :
    GramN E .fenc tb (k.wrap (Cxx.fsig cc vr ne k.fk k.this) r ps)
      (k.code ++ k.thisCode w ++ (cc :: x ++ y ++ throwCode ne)) tb2 (n1 + n2 + 1 + k.nodes) := by
  have hthis : ∀ q : This, GramN E (.fty true) tb (.sig { cv := q.cv, conv := convOf cc, ref := q.ref, variadic := vr, isNoexcept := ne } r ps)
      (q.code w ++ (cc :: x ++ y ++ throwCode ne)) tb2 (n1 + n2 + 1) := by
    intro q
    have := GramN.fnThis ⟨w, q.restrict, q.unaligned⟩ q.ref cc ne (List.mem_append_left memberCvCodes (cvLetter_mem q.c q.v)) g1 g2
    rw [this_cv] at this
    rw [← this_code]
    exact cast (by simp) this
  unfold Cxx.fsig
  cases k with
  | free ec =>
    have hm : (c!"Y", ({} : FnKind), AdjKind.none) ∈ classCodes := by decide
    exact cast (by simp [Kind.nodes, Kind.wrap, Kind.fk, Kind.this, Kind.code, Kind.thisCode, This.cv]) (GramN.fenc ec hm .none (.fn cc ne g1 g2))
  | static a =>
    have hm : (pick a c!"C" c!"K" c!"S", ({ access := some a, isStatic := true } : FnKind), AdjKind.none) ∈ classCodes := by
      cases a <;> decide
    exact cast (by simp [Kind.nodes, Kind.wrap, Kind.fk, Kind.this, Kind.code, Kind.thisCode, This.cv]) (GramN.fenc false hm .none (.fn cc ne g1 g2))
  | member a v q =>
    have hm : (Kind.code (.member a v q), ({ access := some a, isVirtual := v } : FnKind), AdjKind.none) ∈ classCodes := by
      simp only [Kind.code]
      cases v <;> cases a <;> decide
    exact cast (by simp [Kind.nodes, Kind.wrap, Kind.fk, Kind.this, Kind.thisCode]) (GramN.fenc false hm .none (hthis q))
  | thunk a adj q =>
    have hk : adj.kind ≠ .none := by cases adj <;> simp [Adj.kind]
    have hm : (adj.code a, Kind.fk (.thunk a adj q), adj.kind) ∈ classCodes := by
      cases adj <;> cases a <;> simp only [Adj.code, pick, Kind.fk, Adj.kind, Adj.virtual] <;> decide
    have ht : (Kind.fk (.thunk a adj q)).hasThis = true := rfl
    have g := GramN.fenc false hm (Adj.enc h) (show GramN E (.fty (Kind.fk (.thunk a adj q)).hasThis) tb _ _ tb2 _ from hthis q)
    rw [if_neg hk, if_neg hk] at g
    exact cast (by simp [Kind.nodes, Kind.wrap, Kind.fk, Kind.this, Kind.code, Kind.thisCode]) g


theorem op_gramN (E : Env) (tb : Tbl) (o : IFK) : GramN E .fid tb (.op (some o) .nil) (opCode o) tb 1 := by
  have h := opCode_mem o
  generalize opCode o = code at h
  simp only [operators, List.mem_append, List.mem_map, Prod.exists, Prod.mk.injEq] at h
  rcases h with (⟨c, k, h, rfl, rfl⟩ | ⟨c, k, h, rfl, rfl⟩) | ⟨c, k, h, rfl, rfl⟩
  · exact .fOp h
  · exact .fOpUnder h
  · exact .fOpDunder h


/-- What is read as a symbol. -/
structure ReadsDeclN (E : Env) (L : List Seg) (w : Bool) (d : Decl) (st : Seen) (tb : Tbl) (t' : T) (x : Text) (tb' : Tbl) : Prop where
  decl : GramN E .decl tb t' x tb' (d.nodes w st)
  eq : (d.mangle w st).1 = '?' :: x
  free : Free x
  alike : Alike E t' (d.tree E)
  like : (d.mangle w st).2.Like E L tb'
  ident : ∀ s, d.ident = some s → t'.ident = some (.named s .nil) ∧ tb'.note s = tb'


theorem ReadsDeclN.sym {E : Env} {L : List Seg} {w : Bool} {d : Decl} {st : Seen} {tb tb' : Tbl} {t' : T} {x : Text}
    (h : ReadsDeclN E L w d st tb t' x tb') : GramN E .sym tb t' ('?' :: x) tb' (d.nodes w st) := .sym h.decl h.free


theorem array_gramN {E : Env} {L : List Seg} {el : Ty} {st st' : Seen} {x : Text} {n : Nat} (c v : Bool) {dims : List Nat} (hd : dimsOk dims)
    (hu : el.unqualified) (g0 : ReadsN E L .ty st (el.core E) x st' n) :
    ReadsN E L .ty st (.array { c, v } dims (el.tree E)) (arrayCode c v dims ++ x) st' (n + dims.length + 2) := by
  obtain ⟨h1, h2, h3⟩ := hd
  intro tb hl
  obtain ⟨t', tb', g, ha, hl⟩ := g0 tb hl
  rw [Ty.core_of_unq hu] at ha
  refine ⟨_, _, ?_, .array { c, v } dims ha, hl⟩
  unfold arrayCode
  split
  · exact cast (by simp) (GramN.arrayQ (encode_spec _ h2) h1 (dims_enc h3) (cvLetter_mem c v) g)
  · next h =>
    have hc : c = false ∧ v = false := by cases c <;> cases v <;> simp_all
    obtain ⟨rfl, rfl⟩ := hc
    exact cast (by simp) (GramN.array (encode_spec _ h2) h1 (dims_enc h3) g)


/-- A variable. -/
theorem var_gramN {E : Env} {L : List Seg} (w : Bool) {st : Storage} {i ps : T} {x y : Text} {tb0 tb1 tb2 : Tbl} {seen : Seen}
    {n1 n2 : Nat} (h1 : GramN E .sname tb0 i x tb1 n1) (hi : i.isPlain = true) (h2 : GramN E .scopes tb1 ps y tb2 n2) (hl : seen.Like E L tb2)
    {ty : Ty} (gt : ReadsN E L .ty seen (ty.core E) (ty.mangle w seen).1 (ty.mangle w seen).2 (ty.nodes w seen))
    (gc : ∀ k u cls to, ty = .mptr k u cls to → ∀ st, ReadsN E L .qtn st (.qname (cls.tree E)) (cls.mangle w st).1 (cls.mangle w st).2 (cls.nodes w st))
    (gc' : ∀ k cls q s, ty = .mfptr k cls q s → ∀ st, ReadsN E L .qtn st (.qname (cls.tree E)) (cls.mangle w st).1 (cls.mangle w st).2 (cls.nodes w st)) :
    ∃ (ty' : T) (tb' : Tbl), GramN E .decl tb0 (.var (some st.cls) (.qname (ps.snoc i)) ty'.one)
        (x ++ y ++ st.code :: (ty.mangle w seen).1 ++ (ty.again w (ty.mangle w seen).2).1) tb' (n1 + n2 + (ty.nodes w seen + ty.againNodes w (ty.mangle w seen).2 + 1)) ∧ Alike E ty' (ty.tree E) ∧
      (ty.again w (ty.mangle w seen).2).2.Like E L tb' ∧ tb2.names <+: tb'.names := by
  obtain ⟨t', tb3, g, ha, hl⟩ := gt tb2 hl
  have hg := gram_grow g.gram
  cases ty with
  | prim k c v =>
    have hp : t'.isPtr = false := by rw [ha.isPtr]; rfl
    refine ⟨T.setQ { c, v } t', tb3, cast (by simp [Ty.againNodes, Ty.again, Ty.againNodes]) (GramN.var h1 hi h2 st.mem g hp (List.mem_append_left _ (cvLetter_mem c v))), ?_, by rw [Ty.again]; exact hl, hg⟩
    exact cast (by simp [Ty.core, T.setQ, Ty.tree]) (ha.setQ { c, v })
  | tag k p c v =>
    have hp : t'.isPtr = false := by rw [ha.isPtr]; rfl
    refine ⟨T.setQ { c, v } t', tb3, cast (by simp [Ty.againNodes, Ty.again, Ty.againNodes]) (GramN.var h1 hi h2 st.mem g hp (List.mem_append_left _ (cvLetter_mem c v))), ?_, by rw [Ty.again]; exact hl, hg⟩
    exact cast (by simp [Ty.core, T.setQ, Ty.tree]) (ha.setQ { c, v })
  | ptr k u to =>
    rw [Ty.core.eq_def] at ha; dsimp only at ha
    rw [Ty.tree] at ha ⊢
    obtain ⟨c', to', rfl, hc, hb⟩ := alike_ptr ha
    obtain rfl := alike_nil hc
    refine ⟨_, tb3, cast ?_ (GramN.varPtr ⟨w, k.restrict, u⟩ h1 hi h2 st.mem g (tail_mem to)), .ptr _ _ (.refl _) (by have := hb.addQ to.cv; rwa [tree_addQ] at this),
      by rw [Ty.again]; exact hl, hg⟩
    rw [cv_or_self]
    simp [Ty.againNodes, Ty.again, ext_code]
  | fptr k s =>
    rw [Ty.core.eq_def] at ha; dsimp only at ha
    rw [Ty.tree] at ha ⊢
    obtain ⟨c', to', rfl, hc, hb⟩ := alike_ptr ha
    obtain rfl := alike_nil hc
    have hb' := hb.addQ {}
    rw [show (T.sig (s.fsig {} {}) (s.retT E) (s.parT E)).addQ {} = .sig (s.fsig {} {}) (s.retT E) (s.parT E) by
      cases s; simp [Sig.fsig, Cxx.fsig, T.addQ, CV.or, This.cv]] at hb'
    refine ⟨_, tb3, cast ?_ (GramN.varPtr (ch := 'A') (q := {}) ⟨w, false, false⟩ h1 hi h2 st.mem g (by decide)), .ptr (k.cv false) _ (.refl _) hb',
      by rw [Ty.again]; exact hl, hg⟩
    rw [cv_or_false]
    simp [Ty.againNodes, Ty.again, ext_code]
  | aptr k c v dims el =>
    rw [Ty.core.eq_def] at ha; dsimp only at ha
    rw [Ty.tree] at ha ⊢
    obtain ⟨c', to', rfl, hc, hb⟩ := alike_ptr ha
    obtain rfl := alike_nil hc
    have e : (T.array { c, v } dims (el.tree E)).addQ {} = .array { c, v } dims (el.tree E) := by simp [T.addQ, CV.or]
    have hb' := hb.addQ {}
    rw [e] at hb'
    refine ⟨_, tb3, cast ?_ (GramN.varPtr (ch := 'A') (q := {}) ⟨w, k.restrict, false⟩ h1 hi h2 st.mem g (by decide)), .ptr (k.cv false) _ (.refl _) hb',
      by rw [Ty.again]; exact hl, hg⟩
    rw [cv_or_self]
    simp [Ty.againNodes, Ty.again, ext_code]
  | mptr k u cls to =>
    rw [Ty.core.eq_def] at ha; dsimp only at ha
    rw [Ty.tree] at ha ⊢
    obtain ⟨c', to', rfl, hc, hb⟩ := alike_ptr ha
    obtain ⟨n', rfl, hn⟩ := alike_one hc
    obtain ⟨n2, tb4, gn, _, hl⟩ := gc _ _ _ _ rfl _ _ hl
    refine ⟨_, tb4, cast ?_ (GramN.varMemberPtr ⟨w, k.restrict, u⟩ h1 hi h2 st.mem g (List.mem_append_right _ (memberLetter_mem to)) gn),
      .ptr _ _ hn.one (by have := hb.addQ to.cv; rwa [tree_addQ] at this), by rw [Ty.again]; exact hl, hg.trans (gram_grow gn.gram)⟩
    rw [cv_or_self]
    simp [Ty.againNodes, Ty.again, ext_code]
  | mfptr k cls q s =>
    rw [Ty.core.eq_def] at ha; dsimp only at ha
    rw [Ty.tree] at ha ⊢
    obtain ⟨c', to', rfl, hc, hb⟩ := alike_ptr ha
    obtain ⟨n', rfl, hn⟩ := alike_one hc
    obtain ⟨n2, tb4, gn, _, hl⟩ := gc' _ _ _ _ rfl _ _ hl
    have hb' := hb.addQ {}
    rw [show (T.sig (s.fsig {} q) (s.retT E) (s.parT E)).addQ {} = .sig (s.fsig {} q) (s.retT E) (s.parT E) by
      cases s; simp [Sig.fsig, Cxx.fsig, T.addQ, CV.or]] at hb'
    refine ⟨_, tb4, cast ?_ (GramN.varMemberPtr (ch := 'Q') (q := {}) ⟨w, false, false⟩ h1 hi h2 st.mem g (by decide) gn),
      .ptr (k.cv false) _ hn.one hb', by rw [Ty.again]; exact hl, hg.trans (gram_grow gn.gram)⟩
    rw [cv_or_false]
    simp [Ty.againNodes, Ty.again, ext_code]


theorem Seg.id_gramN {E : Env} {L : List Seg} (hL : Distinct E L) (w : Bool) (s : Text) (h : (Seg.id s).Ok E) (hk : Sub (Seg.id s).keys L) (st : Seen) :
    ReadsN E L .uname st ((Seg.id s).tree E) ((Seg.id s).mangle w st).1 ((Seg.id s).mangle w st).2 ((Seg.id s).nodes w st) := by
    intro tb hl
    rw [Seg.Ok] at h
    rw [Seg.keys] at hk
    rw [Seg.mangle, Seg.tree, Seg.nodes]
    cases hp : position (.id s) st.names with
    | some i =>
      have := hl.at (position_spec hp).2
      simp only [Seg.known, Seg.cpp] at this
      exact ⟨_, _, .uBack (position_spec hp).1 this, .refl _, hl⟩
    | none =>
      have := hl.note hL (hk (.id s) (by simp))
      simp only [Seg.known, Seg.cpp] at this
      have hc := hl.cost hL (hk (.id s) (by simp))
      simp only [Seg.known, Seg.cpp] at hc
      dsimp only
      rw [← hc]
      exact ⟨_, _, .uName h, .refl _, this⟩


set_option maxHeartbeats 2000000 in
mutual
theorem Ty.gramN {E : Env} {L : List Seg} (hL : Distinct E L) (w : Bool) : (t : Ty) → t.Ok E → Sub t.keys L → ∀ st : Seen,
    ReadsN E L .ty st (t.core E) (t.mangle w st).1 (t.mangle w st).2 (t.nodes w st)
  | .prim k c v, _, _, st => by
    rw [Ty.mangle, Ty.nodes]
    exact fun tb hl => ⟨_, _, .prim k, .refl _, hl⟩
  | .tag k p c v, h, hk, st => by
    rw [Ty.Ok] at h
    rw [Ty.keys] at hk
    rw [Ty.mangle, Ty.nodes]
    intro tb hl
    obtain ⟨t', tb', g, ha, hl⟩ := Path.qtn_gramN hL w p h hk st tb hl
    exact ⟨_, _, .tag k g, .tag _ _ ha, hl⟩
  | .ptr k u to, h, hk, st => by
    rw [Ty.Ok] at h
    rw [Ty.keys] at hk
    intro tb hl
    obtain ⟨t', tb', g, ha, hl⟩ := Ty.gramN hL w to h hk st tb hl
    rw [Ty.mangle, Ty.nodes]
    have := GramN.ptr ⟨w, k.restrict, u⟩ (pk_mem k) (letter_mem to) g
    replace ha := ha.addQ to.cv
    rw [core_addQ] at ha
    rw [pk_cv, ext_code] at this
    rw [Ty.core.eq_def]; dsimp only; rw [Ty.tree]
    exact ⟨_, _, this, .ptr _ _ (.refl _) ha, hl⟩
  | .fptr k s, h, hk, st => by
    rw [Ty.Ok] at h
    rw [Ty.keys] at hk
    intro tb hl
    obtain ⟨t', tb', g, ha, hl⟩ := Sig.gramN hL w s h.2 hk st tb hl
    rw [Ty.mangle, Ty.nodes]
    have := GramN.ptrFn (pk_mem k) g
    rw [Ty.core.eq_def]; dsimp only; rw [Ty.tree]
    have e : PK.cv k false = { c := k.c, v := k.v } := by simp [PK.cv, h.1]
    rw [e]
    exact ⟨_, _, cast (by simp) this, .ptr _ _ (.refl _) ha, hl⟩
  | .aptr k c v dims el, h, hk, st => by
    rw [Ty.Ok] at h
    rw [Ty.keys] at hk
    intro tb hl
    obtain ⟨t', tb', ga, ha, hl⟩ := array_gramN c v h.1 h.2.1 (Ty.gramN hL w el h.2.2 hk st) tb hl
    have := GramN.ptr (ch := 'A') (q := {}) ⟨w, k.restrict, false⟩ (pk_mem k) (by decide) ga
    rw [pk_cv, ext_code] at this
    have hb := ha.addQ {}
    rw [show (T.array { c, v } dims (el.tree E)).addQ {} = .array { c, v } dims (el.tree E) by simp [T.addQ, CV.or]] at hb
    rw [Ty.core.eq_def, Ty.mangle, Ty.nodes]; dsimp only; rw [Ty.tree]
    exact ⟨_, tb', cast (by simp) this, .ptr _ _ (.refl _) hb, hl⟩
  | .mptr k u cls to, h, hk, st => by
    rw [Ty.Ok] at h
    rw [Ty.keys] at hk
    obtain ⟨h1, h2, h3, h4⟩ := h
    intro tb hl
    obtain ⟨n', tb1, g1, ha1, hl⟩ := Path.qtn_gramN hL w cls h2 hk.left st tb hl
    obtain ⟨t', tb', g2, ha, hl⟩ := Ty.gramN hL w to h4 hk.right (cls.mangle w st).2 tb1 hl
    have := GramN.ptrMember ⟨w, k.restrict, u⟩ (star_mem h1) (memberLetter_mem to) g1 g2
    rw [pk_cv, ext_code] at this
    replace ha := ha.setQ to.cv
    rw [core_setQ h3 (by rintro k s rfl; rw [Ty.Ok] at h4; exact h4.1) (by rintro k c q s rfl; rw [Ty.Ok] at h4; exact h4.1.2)] at ha
    rw [Ty.core.eq_def, Ty.mangle, Ty.nodes]; dsimp only; rw [Ty.tree]
    exact ⟨_, _, this, .ptr _ _ ha1.one ha, hl⟩
  | .mfptr k cls q s, h, hk, st => by
    rw [Ty.Ok] at h
    rw [Ty.keys] at hk
    obtain ⟨⟨h1, h0⟩, h2, h3⟩ := h
    intro tb hl
    obtain ⟨n', tb1, g1, ha1, hl⟩ := Path.qtn_gramN hL w cls h2 hk.left st tb hl
    obtain ⟨t', tb', g2, ha, hl⟩ := Sig.gramThisN hL w s h3 hk.right q (cls.mangle w st).2 tb1 hl
    have := GramN.ptrMemberFn (star_mem h1) g1 g2
    rw [Ty.core.eq_def, Ty.mangle, Ty.nodes]; dsimp only; rw [Ty.tree]
    have e : PK.cv k false = { c := k.c, v := k.v } := by simp [PK.cv, h0]
    rw [e]
    exact ⟨_, _, cast (by simp) this, .ptr _ _ ha1.one ha, hl⟩
theorem Sig.partsN {E : Env} {L : List Seg} (hL : Distinct E L) (w : Bool) : (s : Sig) → s.Ok E → Sub s.keys L → ∀ (st : Seen) (tb : Tbl), st.Like E L tb →
    ∃ (cc : Char) (ne vr : Bool) (r x ps y : _) (tb1 tb2 : Tbl) (n1 n2 : Nat), GramN E .ret tb (T.one r) x tb1 n1 ∧ GramN E (.params vr) tb1 ps y tb2 n2 ∧ s.nodes w st = n1 + n2 + 1 ∧
      (s.mangle w st).2.Like E L tb2 ∧ (s.mangle w st).1 = cc :: x ++ y ++ throwCode ne ∧
      (∀ k q, s.fsig k q = Cxx.fsig cc vr ne k q) ∧ Alike E r.one (s.retT E) ∧ Alike E ps (s.parT E)
  | .mk cc ret ps vr ne, h, hk, st, tb, hl => by
    rw [Sig.Ok] at h
    rw [Sig.keys] at hk
    obtain ⟨_, h2, h3, _⟩ := h
    obtain ⟨r', tb1, g1, ha1, hl⟩ := ret_gramN (Ty.gramN hL w ret h2 hk.left st) (ret.mangle_head w st).2.1 tb hl
    have hh := ps.mangle_head w h3 (ret.mangle w st).2
    obtain ⟨p', tb2, g2, ha2, hl⟩ := params_gramN (Tys.gramN hL w ps h3 hk.right (ret.mangle w st).2) hh.1 hh.2
      (fun e => by rw [hh.2] at e; subst e; rw [Tys.mangle, Tys.nodes]; exact ⟨rfl, rfl⟩) vr tb1 hl
    obtain ⟨r0, rfl, _⟩ := alike_one ha1
    rw [Sig.mangle]
    refine ⟨cc, ne, vr, _, _, _, _, _, _, _, _, g1, g2, by rw [Sig.nodes], hl, ?_, fun k q => rfl, ?_, ?_⟩
    · cases ne <;> simp [throwCode]
    · rw [Sig.retT]; exact ha1
    · rw [Sig.parT]; exact ha2
theorem Sig.gramN {E : Env} {L : List Seg} (hL : Distinct E L) (w : Bool) : (s : Sig) → s.Ok E → Sub s.keys L → ∀ st : Seen,
    ReadsN E L (.fty false) st (.sig (s.fsig {} {}) (s.retT E) (s.parT E)) (s.mangle w st).1 (s.mangle w st).2 (s.nodes w st)
  | s, h, hk, st => by
    intro tb hl
    obtain ⟨cc, ne, vr, r, x, ps, y, tb1, tb2, n1, n2, g1, g2, en, hl, e, e2, ha, hb⟩ := Sig.partsN hL w s h hk st tb hl
    rw [e, e2, en]
    exact ⟨_, _, .fn cc ne g1 g2, .sig _ ha hb, hl⟩
theorem Sig.gramThisN {E : Env} {L : List Seg} (hL : Distinct E L) (w : Bool) : (s : Sig) → s.Ok E → Sub s.keys L → ∀ (q : This) (st : Seen),
    ReadsN E L (.fty true) st (.sig (s.fsig {} q) (s.retT E) (s.parT E)) (q.code w ++ (s.mangle w st).1) (s.mangle w st).2 (s.nodes w st)
  | s, h, hk, q, st => by
    intro tb hl
    obtain ⟨cc, ne, vr, r, x, ps, y, tb1, tb2, n1, n2, g1, g2, en, hl, e, e2, ha, hb⟩ := Sig.partsN hL w s h hk st tb hl
    rw [e, e2, en]
    have := GramN.fnThis ⟨w, q.restrict, q.unaligned⟩ q.ref cc ne (List.mem_append_left memberCvCodes (cvLetter_mem q.c q.v)) g1 g2
    rw [this_cv] at this
    rw [← this_code]
    refine ⟨.sig (Cxx.fsig cc vr ne {} q) r.one ps, tb2, ?_, .sig _ ha hb, hl⟩
    exact cast (by simp [Cxx.fsig]) this
theorem Tys.gramN {E : Env} {L : List Seg} (hL : Distinct E L) (w : Bool) : (ts : Tys) → ts.Ok E → Sub ts.keys L → ∀ st : Seen,
    ReadsN E L .plist st (ts.tree E) (ts.mangle w st).1 (ts.mangle w st).2 (ts.nodes w st)
  | .nil, _, _, st => by rw [Tys.mangle, Tys.tree, Tys.nodes]; exact fun tb hl => ⟨_, _, .pNil, .refl _, hl⟩
  | .cons t ts, h, hk, st => by
    rw [Tys.Ok] at h
    rw [Tys.keys] at hk
    rw [Tys.mangle, Tys.tree, Tys.nodes]
    intro tb hl
    cases hp : position t st.types with
    | some i =>
      obtain ⟨h1, h2⟩ := position_spec hp
      obtain ⟨t', ht, ha⟩ := hl.types i t h2
      obtain ⟨ts', tb', g, hb, hl⟩ := Tys.gramN hL w ts h.2.2.2 hk.right st tb hl
      exact ⟨_, _, .pBack h1 ht g, .cons ha hb, hl⟩
    | none =>
      obtain ⟨t', tb1, g, ha, hl⟩ := Ty.gramN hL w t h.2.2.1 hk.left st tb hl
      rw [Ty.core_of_unq h.2.1] at ha
      dsimp only
      by_cases hlen : (t.mangle w st).1.length = 1
      · rw [if_pos hlen]
        obtain ⟨ts', tb', g', hb, hl⟩ := Tys.gramN hL w ts h.2.2.2 hk.right _ tb1 hl
        exact ⟨_, _, .pLetter g hlen g', .cons ha hb, hl⟩
      · rw [if_neg hlen]
        obtain ⟨ts', tb', g', hb, hl⟩ := Tys.gramN hL w ts h.2.2.2 hk.right _ _ (hl.noteType t ha)
        exact ⟨_, _, .pType g hlen g', .cons ha hb, hl⟩
theorem Path.qtn_gramN {E : Env} {L : List Seg} (hL : Distinct E L) (w : Bool) : (p : Path) → p.IsType E → Sub p.keys L → ∀ st : Seen,
    ReadsN E L .qtn st (.qname (p.tree E)) (p.mangle w st).1 (p.mangle w st).2 (p.nodes w st)
  | .nil, h, _, _ => by simp [Path.IsType] at h
  | .cons s p, h, hk, st => by
    rw [Path.IsType] at h
    rw [Path.keys] at hk
    rw [Path.mangle, Path.tree, Path.nodes]
    intro tb hl
    obtain ⟨s', tb1, g1, ha, hl⟩ := Seg.uname_gramN hL w s h.2.1 h.1 hk.left st tb hl
    obtain ⟨p', tb2, g2, hb, hl⟩ := Path.scopes_gramN hL w p h.2.2 hk.right _ tb1 hl
    exact ⟨_, _, .qtn g1 g2, .qname (hb.snoc ha), hl⟩
theorem Path.scopes_gramN {E : Env} {L : List Seg} (hL : Distinct E L) (w : Bool) : (p : Path) → p.Ok E → Sub p.keys L → ∀ st : Seen,
    ReadsN E L .scopes st (p.tree E) (p.mangle w st).1 (p.mangle w st).2 (p.nodes w st)
  | .nil, _, _, st => by rw [Path.mangle, Path.tree, Path.nodes]; exact fun tb hl => ⟨_, _, .scNil, .refl _, hl⟩
  | .cons s p, h, hk, st => by
    rw [Path.Ok] at h
    rw [Path.keys] at hk
    rw [Path.mangle, Path.tree, Path.nodes]
    intro tb hl
    obtain ⟨s', tb1, g1, ha, hl⟩ := Seg.piece_gramN hL w s h.1 hk.left st tb hl
    obtain ⟨p', tb2, g2, hb, hl⟩ := Path.scopes_gramN hL w p h.2 hk.right _ tb1 hl
    exact ⟨_, _, .scCons g1 g2, hb.snoc ha, hl⟩
theorem Seg.piece_gramN {E : Env} {L : List Seg} (hL : Distinct E L) (w : Bool) : (s : Seg) → s.Ok E → Sub s.keys L → ∀ st : Seen,
    ReadsN E L .piece st (s.tree E) (s.mangle w st).1 (s.mangle w st).2 (s.nodes w st)
  | .id s, h, hk, st => by
    intro tb hl
    obtain ⟨t', tb', g, ha, hl⟩ := Seg.id_gramN hL w s h hk st tb hl
    exact ⟨t', tb', .scName g, ha, hl⟩
  | .tm s as, h, hk, st => by
    intro tb hl
    obtain ⟨t', tb', g, ha, hl⟩ := Seg.tm_gramN hL w s as h hk st tb hl
    exact ⟨t', tb', .scName g, ha, hl⟩
  | .anon key, h, hk, st => by
    intro tb hl
    rw [Seg.Ok] at h
    rw [Seg.keys] at hk
    rw [Seg.mangle, Seg.tree, Seg.nodes]
    rw [← hl.cost hL (hk (.anon key) (by simp))]
    exact ⟨_, _, .scAnon h, .refl _, hl.note hL (hk (.anon key) (by simp))⟩
  | .loc n d, h, hk, st => by
    intro tb hl
    rw [Seg.Ok] at h
    rw [Seg.keys] at hk
    rw [Seg.mangle, Seg.tree, Seg.nodes]
    obtain ⟨t', x, tb', hd⟩ := Decl.gramN hL w d h.2.2 hk st tb hl
    have ht : t'.text E = d.cpp E := by
      rw [hd.alike.text_eq]
      exact (Decl.pr_eq d h.2.2 [] (Ctx.nil E)).trans (List.nil_append _)
    have e : localName E t' n = (Seg.loc n d).cpp E := by rw [localName, ht, Seg.cpp]
    have := GramN.scLocal (encode_scope h.1.1 h.1.2) hd.sym (by rw [e]; exact h.2.1)
    rw [e, ← hd.eq] at this
    exact ⟨_, _, cast (by simp) this, .refl _, hd.like⟩
theorem Seg.uname_gramN {E : Env} {L : List Seg} (hL : Distinct E L) (w : Bool) : (s : Seg) → s.Ok E → s.isName → Sub s.keys L → ∀ st : Seen,
    ReadsN E L .uname st (s.tree E) (s.mangle w st).1 (s.mangle w st).2 (s.nodes w st)
  | .id s, h, _, hk, st => Seg.id_gramN hL w s h hk st
  | .tm s as, h, _, hk, st => Seg.tm_gramN hL w s as h hk st
  | .anon _, _, hn, _, _ => nomatch hn
  | .loc _ _, _, hn, _, _ => nomatch hn
theorem Seg.tm_gramN {E : Env} {L : List Seg} (hL : Distinct E L) (w : Bool) : (s : Text) → (as : Args) → (Seg.tm s as).Ok E → Sub (Seg.tm s as).keys L → ∀ st : Seen,
    ReadsN E L .uname st ((Seg.tm s as).tree E) ((Seg.tm s as).mangle w st).1 ((Seg.tm s as).mangle w st).2 ((Seg.tm s as).nodes w st)
  | s, as, h, hk, st => by
    intro tb hl
    have hpr := Seg.pr_eq (.tm s as) h
    rw [Seg.Ok] at h
    rw [Seg.keys] at hk
    rw [Seg.mangle, Seg.nodes]
    cases hp : position (.tm s as) st.names with
    | some i =>
      have := hl.at (position_spec hp).2
      simp only [Seg.known] at this
      refine ⟨_, _, .uBack (position_spec hp).1 this, ?_, hl⟩
      rw [Seg.tree] at hpr ⊢
      exact .text hpr
    | none =>
      have h0 := (Seen.like_nil E L).note hL (hk (.id s) (by simp))
      simp only [Seg.known, Seg.cpp] at h0
      obtain ⟨a', tb2, g, ha, _⟩ := Args.gramN hL w as h.2.2 hk.right _ _ h0
      have hal : Alike E (.named s (T.one (.arr a'))) (Seg.tree E (.tm s as)) := by
        rw [Seg.tree]
        exact .named _ (Alike.arr ha).one
      have ht : (T.named s (T.one (.arr a'))).text E = (Seg.tm s as).cpp E := by
        rw [hal.text_eq]
        unfold T.text
        rw [hpr]
        rfl
      have := GramN.uTmpl (tmpl_gramN h.1 g tb) rfl (by rw [ht]; exact h.2.1)
      rw [ht] at this
      have h1 := hl.note hL (hk (.tm s as) (by simp))
      simp only [Seg.known] at h1
      have hc := hl.cost hL (hk (.tm s as) (by simp))
      simp only [Seg.known] at hc
      dsimp only
      rw [← hc]
      exact ⟨_, _, this, hal, h1⟩
theorem Args.gramN {E : Env} {L : List Seg} (hL : Distinct E L) (w : Bool) : (as : Args) → as.Ok E → Sub as.keys L → ∀ st : Seen,
    ReadsN E L .targs st (as.tree E) (as.mangle w st).1 (as.mangle w st).2 (as.nodes w st)
  | .nil, _, _, st => by rw [Args.mangle, Args.tree, Args.nodes]; exact fun tb hl => ⟨_, _, .taNil, .refl _, hl⟩
  | .ty t as, h, hk, st => by
    rw [Args.Ok] at h
    rw [Args.keys] at hk
    rw [Args.mangle, Args.tree, Args.nodes]
    intro tb hl
    obtain ⟨t', tb1, g1, ha, hl⟩ := arg_gramN (Ty.gramN hL w t h.1 hk.left st) tb hl
    obtain ⟨as', tb2, g2, hb, hl⟩ := Args.gramN hL w as h.2 hk.right _ tb1 hl
    exact ⟨_, _, .taCons g1 g2, .cons ha hb, hl⟩
  | .int neg n as, h, hk, st => by
    rw [Args.Ok] at h
    rw [Args.keys] at hk
    rw [Args.mangle, Args.tree, Args.nodes]
    intro tb hl
    have e := encode_spec n h.1
    have : EncInt ((if neg then c!"?" else []) ++ encode n) n neg := by
      cases neg
      · exact .pos e
      · exact .neg e
    obtain ⟨as', tb2, g2, hb, hl⟩ := Args.gramN hL w as h.2 hk _ tb hl
    exact ⟨_, _, cast (by simp) (GramN.taCons (.aInt (m := false) this) g2), .cons (.refl _) hb, hl⟩
  | .pack as, h, hk, st => by
    rw [Args.Ok] at h
    rw [Args.keys] at hk
    rw [Args.mangle, Args.tree, Args.nodes]
    intro tb hl
    obtain ⟨as', tb2, g2, hb, hl⟩ := Args.gramN hL w as h hk _ tb hl
    exact ⟨_, _, .taPack (by decide) g2, hb, hl⟩
  | .fn s as, h, hk, st => by
    rw [Args.Ok] at h
    rw [Args.keys] at hk
    rw [Args.mangle, Args.tree, Args.nodes]
    intro tb hl
    obtain ⟨t', tb1, g1, ha, hl⟩ := Sig.gramN hL w s h.1 hk.left st tb hl
    obtain ⟨as', tb2, g2, hb, hl⟩ := Args.gramN hL w as h.2 hk.right _ tb1 hl
    exact ⟨_, _, .taCons (.aType (.fnType g1)) g2, .cons ha hb, hl⟩
  | .mfn q s as, h, hk, st => by
    rw [Args.Ok] at h
    rw [Args.keys] at hk
    rw [Args.mangle, Args.tree, Args.nodes]
    intro tb hl
    obtain ⟨t', tb1, g1, ha, hl⟩ := Sig.gramThisN hL w s h.1 hk.left q st tb hl
    obtain ⟨as', tb2, g2, hb, hl⟩ := Args.gramN hL w as h.2 hk.right _ tb1 hl
    exact ⟨_, _, cast (by simp) (GramN.taCons (.aType (.fnTypeThis g1)) g2), .cons ha hb, hl⟩
  | .arr c v dims el as, h, hk, st => by
    rw [Args.Ok] at h
    rw [Args.keys] at hk
    rw [Args.mangle, Args.tree, Args.nodes]
    intro tb hl
    obtain ⟨t', tb1, g1, ha, hl⟩ := array_gramN c v h.1 h.2.1 (Ty.gramN hL w el h.2.2.1 hk.left st) tb hl
    obtain ⟨as', tb2, g2, hb, hl⟩ := Args.gramN hL w as h.2.2.2 hk.right _ tb1 hl
    exact ⟨_, _, cast (by simp) (GramN.taCons (.aTypeB g1) g2), .cons ha hb, hl⟩
  | .tmpl p as, h, hk, st => by
    rw [Args.Ok] at h
    rw [Args.keys] at hk
    rw [Args.mangle, Args.tree, Args.nodes]
    intro tb hl
    obtain ⟨t', tb1, g1, ha, hl⟩ := Path.qtn_gramN hL w p h.1 hk.left st tb hl
    obtain ⟨as', tb2, g2, hb, hl⟩ := Args.gramN hL w as h.2 hk.right _ tb1 hl
    exact ⟨_, _, .taCons (.aName g1) g2, .cons ha hb, hl⟩
  | .addr d as, h, hk, st => by
    rw [Args.Ok] at h
    rw [Args.keys] at hk
    rw [Args.mangle, Args.tree, Args.nodes]
    intro tb hl
    obtain ⟨⟨s, hs, hf⟩, h1, h2⟩ := h
    obtain ⟨t', x, tb1, hd⟩ := Decl.gramN hL w d h1 hk.left st tb hl
    obtain ⟨as', tb2, g2, hb, hl⟩ := Args.gramN hL w as h2 hk.right _ tb1 hd.like
    obtain ⟨hi, hn⟩ := hd.ident s hs
    have ht : (T.named s .nil).text E = s := by simp [T.text, T.pr, Pr.ofText, targsOut, Pr.nil]
    have := GramN.aSym (m := false) (ch := '1') (offs := []) (by decide) hd.sym hi (by rw [ht]; exact hf) .nil
    rw [ht, hn, noteCost_known hn, Nat.add_zero, ← hd.eq] at this
    exact ⟨_, _, cast (by simp) (GramN.taCons this g2), .cons (.addr _ _ hd.alike.one) hb, hl⟩
  | .ref d as, h, hk, st => by
    rw [Args.Ok] at h
    rw [Args.keys] at hk
    rw [Args.mangle, Args.tree, Args.nodes]
    intro tb hl
    obtain ⟨t', x, tb1, hd⟩ := Decl.gramN hL w d h.1 hk.left st tb hl
    obtain ⟨as', tb2, g2, hb, hl⟩ := Args.gramN hL w as h.2 hk.right _ tb1 hd.like
    have := GramN.aRef (m := false) hd.sym
    rw [← hd.eq] at this
    exact ⟨_, _, .taCons this g2, .cons (.addr _ _ hd.alike.one) hb, hl⟩
  | .memFn d offs as, h, hk, st => by
    rw [Args.Ok] at h
    rw [Args.keys] at hk
    rw [Args.mangle, Args.tree, Args.nodes]
    intro tb hl
    obtain ⟨⟨⟨s, hs, hf⟩, hm, ho⟩, h1, h2⟩ := h
    obtain ⟨t', x, tb1, hd⟩ := Decl.gramN hL w d h1 hk.left st tb hl
    obtain ⟨as', tb2, g2, hb, hl⟩ := Args.gramN hL w as h2 hk.right _ tb1 hd.like
    obtain ⟨hi, hn⟩ := hd.ident s hs
    obtain ⟨ch, hc, hm⟩ := memFn_mem hm
    have ht : (T.named s .nil).text E = s := by simp [T.text, T.pr, Pr.ofText, targsOut, Pr.nil]
    have := GramN.aSym (m := false) hm hd.sym hi (by rw [ht]; exact hf) (offs_enc ho)
    rw [ht, hn, noteCost_known hn, Nat.add_zero, ← hd.eq] at this
    exact ⟨_, _, cast (by simp [hc]) (GramN.taCons this g2), .cons (.addr _ _ hd.alike.one) hb, hl⟩
  | .memData offs as, h, hk, st => by
    rw [Args.Ok] at h
    rw [Args.keys] at hk
    rw [Args.mangle, Args.tree, Args.nodes]
    intro tb hl
    obtain ⟨ch, hc, hm⟩ := memData_mem h.1.1
    have := GramN.aData (E := E) (tb := tb) (m := false) hm (offs_enc h.1.2)
    obtain ⟨as', tb2, g2, hb, hl⟩ := Args.gramN hL w as h.2 hk _ tb hl
    exact ⟨_, _, cast (by simp [hc]) (GramN.taCons this g2), .cons (.refl _) hb, hl⟩
/-- Constructors, destructors, operators and conversions, possibly templates. -/
theorem Targs.gramN {E : Env} {L : List Seg} (hL : Distinct E L) (w : Bool) : (ta : Targs) → ta.Ok E → Sub ta.keys L →
    ∀ {code : Text} {mk : T → T}, (∀ tb, GramN E .fid tb (mk .nil) code tb 1) → (∀ a, (mk .nil).withArgs a = mk (T.one (.arr a))) → ∀ tb,
    ∃ TA, GramN E .sname tb (mk TA) (ta.mangle w code) tb (ta.nodes w) ∧ Alike E TA (ta.tree E)
  | .none, _, _, code, mk, g0, _, tb => by
    rw [Targs.mangle, Targs.tree, Targs.nodes]
    exact ⟨.nil, .sFull (g0 tb), .refl _⟩
  | .some as, h, hk, code, mk, g0, hmk, tb => by
    rw [Targs.Ok] at h
    rw [Targs.keys] at hk
    rw [Targs.mangle, Targs.tree, Targs.nodes]
    obtain ⟨a', tb2, g, ha, _⟩ := Args.gramN hL w as h hk _ _ (Seen.like_nil E L)
    exact ⟨T.one (.arr a'), hmk a' ▸ .sTmpl (.tmpl (g0 {}) g), (Alike.arr ha).one⟩
theorem Head.gramN {E : Env} {L : List Seg} (hL : Distinct E L) (w : Bool) : (n : Head) → n.Ok E → Sub n.keys L → ∀ (st : Seen) (tb : Tbl), st.Like E L tb →
    ∃ (i : T) (tb' : Tbl), GramN E .sname tb i (n.mangle w st).1 tb' (n.nodes w st) ∧ i.isPlain = true ∧ T.known i = true ∧ Alike E i (n.tree E) ∧
      (n.mangle w st).2.Like E L tb' ∧ ∀ s, n = .id s → i = .named s .nil
  | .id s, h, hk, st, tb, hl => by
    rw [Head.Ok] at h
    rw [Head.keys] at hk
    rw [Head.mangle, Head.tree, Head.nodes]
    cases hp : position (.id s) st.names with
    | some i =>
      have := hl.at (position_spec hp).2
      simp only [Seg.known, Seg.cpp] at this
      exact ⟨_, _, .sBack (position_spec hp).1 this, rfl, rfl, .refl _, hl, by simp⟩
    | none =>
      have := hl.note hL (hk (.id s) (by simp))
      simp only [Seg.known, Seg.cpp] at this
      have hc := hl.cost hL (hk (.id s) (by simp))
      simp only [Seg.known, Seg.cpp] at hc
      dsimp only
      rw [← hc]
      exact ⟨_, _, .sFull (.fName h), rfl, rfl, .refl _, this, by simp⟩
  | .tm s as, h, hk, st, tb, hl => by
    rw [Head.Ok] at h
    rw [Head.keys] at hk
    rw [Head.mangle, Head.tree, Head.nodes]
    have h0 := (Seen.like_nil E L).note hL (hk (.id s) (by simp))
    simp only [Seg.known, Seg.cpp] at h0
    obtain ⟨a', tb2, g, ha, _⟩ := Args.gramN hL w as h.2 hk.right _ _ h0
    exact ⟨_, _, .sTmpl (tmpl_gramN h.1 g tb), rfl, rfl, .named _ (Alike.arr ha).one, hl, by simp⟩
  | .op o ta, h, hk, st, tb, hl => by
    rw [Head.Ok] at h
    rw [Head.keys] at hk
    rw [Head.mangle, Head.tree, Head.nodes]
    obtain ⟨TA, g, ha⟩ := Targs.gramN hL w ta h hk (mk := .op (some o)) (fun tb => op_gramN E tb o) (fun _ => rfl) tb
    exact ⟨_, _, g, rfl, rfl, .op _ ha, hl, by simp⟩
  | .lit s, h, hk, st, tb, hl => by
    rw [Head.Ok] at h
    rw [Head.mangle, Head.tree, Head.nodes]
    exact ⟨_, _, .sFull (.fLit h.1 h.2), rfl, rfl, .refl _, hl, by simp⟩
theorem Decl.gramN {E : Env} {L : List Seg} (hL : Distinct E L) (w : Bool) : (d : Decl) → d.Ok E → Sub d.keys L → ∀ (st : Seen) (tb : Tbl), st.Like E L tb →
    ∃ (t' : T) (x : Text) (tb' : Tbl), ReadsDeclN E L w d st tb t' x tb'
  | .var st n p ty, h, hk, seen, tb, hl => by
    rw [Decl.Ok] at h
    rw [Decl.keys] at hk
    obtain ⟨h1, h2, h3⟩ := h
    obtain ⟨i, tb1, g1, hp, hkn, hi, hl, hid⟩ := Head.gramN hL w n h1 hk.left.left seen tb hl
    obtain ⟨ps, tb2, g2, ha, hl⟩ := Path.scopes_gramN hL w p h2 hk.left.right _ _ hl
    obtain ⟨ty', tb', g, hty, hl, hg⟩ := var_gramN w (st := st) g1 hp g2 hl (Ty.gramN hL w ty h3 hk.right _)
      (by rintro k u cls to rfl st; rw [Ty.Ok] at h3; rw [Ty.keys] at hk; exact Path.qtn_gramN hL w cls h3.2.1 hk.right.left st)
      (by rintro k cls q s rfl st; rw [Ty.Ok] at h3; rw [Ty.keys] at hk; exact Path.qtn_gramN hL w cls h3.2.1 hk.right.left st)
    refine ⟨_, _, tb', by rw [Decl.nodes]; exact g, by rw [Decl.mangle]; simp, free_of g1.gram hkn, ?_, by rw [Decl.mangle]; exact hl, ?_⟩
    · rw [Decl.tree]
      exact .var _ (.qname (ha.snoc hi)) hty.one
    · intro s hs
      have hn : n = .id s := ident_head hs
      obtain rfl := hid s hn
      exact ⟨snoc_last _ _ (scopes_tl g2.gram), note_known (known_grow (sname_known g1.gram) ((gram_grow g2.gram).trans hg))⟩
  | .fn k n p s, h, hk, seen, tb, hl => by
    rw [Decl.Ok] at h
    rw [Decl.keys] at hk
    obtain ⟨h0, h1, h2, h3⟩ := h
    obtain ⟨i, tb1, g1, hp, hkn, hi, hl, hid⟩ := Head.gramN hL w n h1 hk.left.left seen tb hl
    obtain ⟨ps, tb2, g2, ha, hl⟩ := Path.scopes_gramN hL w p h2 hk.left.right _ _ hl
    obtain ⟨cc, ne, vr, r, x, prs, y, tb3, tb4, n1, n2, g3, g4, en, hl, e, e2, hr, hq⟩ := Sig.partsN hL w s h3 hk.right _ tb2 hl
    have gf := Kind.fencN w k h0 (cc := cc) (ne := ne) g3 g4
    have g := GramN.func g1 hp g2 gf
    rw [← en] at g
    refine ⟨_, _, tb4, by rw [Decl.nodes]; exact g, by rw [Decl.mangle]; simp [e], free_of g1.gram hkn, ?_, by rw [Decl.mangle]; exact hl, ?_⟩
    · rw [Decl.tree, e2]
      exact .fn (.qname (ha.snoc hi)) (k.wrap_alike _ hr hq)
    · intro s hs
      have hn : n = .id s := ident_head' hs
      obtain rfl := hid s hn
      exact ⟨snoc_last _ _ (scopes_tl g2.gram), note_known (known_grow (sname_known g1.gram) ((gram_grow g2.gram).trans (gram_grow gf.gram)))⟩
  | .structor d ta k s p cc ps vr ne, h, hk, seen, tb, hl => by
    rw [Decl.Ok] at h
    rw [Decl.keys] at hk
    obtain ⟨⟨h1, h2, h3⟩, h4, h5, h6, h7, h8⟩ := h
    have g0 : ∀ tb, GramN E .fid tb (.structor d .nil .nil) (if d then c!"?1" else c!"?0") tb 1 := by
      intro tb
      cases d
      · exact .fCtor
      · exact .fDtor
    obtain ⟨TA, g1, hTA⟩ := Targs.gramN hL w ta h4 hk.left.left.left (mk := .structor d .nil) g0 (fun _ => rfl) tb
    obtain ⟨s', tb1, g2, ha, hl⟩ := Seg.uname_gramN hL w s h6 h5 hk.left.left.right seen tb hl
    obtain ⟨p', tb2, g3, hb, hl⟩ := Path.scopes_gramN hL w p h7 hk.left.right _ tb1 hl
    have hh := ps.mangle_head w h8 (p.mangle w (s.mangle w seen).2).2
    obtain ⟨p2, tb3, g4, ha2, hl⟩ := params_gramN (Tys.gramN hL w ps h8 hk.right _) hh.1 hh.2
      (fun e => by rw [hh.2] at e; subst e; rw [Tys.mangle, Tys.nodes]; exact ⟨rfl, rfl⟩) vr tb2 hl
    have gf := Kind.fencN w k h1 (cc := cc) (ne := ne) .retNone g4
    have hpl : s'.isPlain = true := by rw [ha.plain]; cases s <;> first | (rw [Seg.tree]; rfl) | cases h5
    have g := GramN.structor g1 (.scCons (.scName g2) g3) hpl gf
    refine ⟨_, _, tb3, by rw [Decl.nodes]; exact g, ?_, free_of g1.gram rfl, ?_, by rw [Decl.mangle]; exact hl, fun s hs => by cases hs⟩
    · rw [Decl.mangle]
      cases ne <;> simp [throwCode]
    · rw [Decl.tree]
      exact .fn (.qname ((hb.snoc ha).snoc (.structor d ha.one hTA))) (k.wrap_alike _ (.refl _) ha2)
  | .conv ta k p s, h, hk, seen, tb, hl => by
    rw [Decl.Ok] at h
    rw [Decl.keys] at hk
    obtain ⟨h0, h1, h2, h3⟩ := h
    obtain ⟨TA, g1, hTA⟩ := Targs.gramN hL w ta h1 hk.left.left (mk := fun a => .conv a .nil) (fun _ => .fConv) (fun _ => rfl) tb
    obtain ⟨ps, tb2, g2, ha, hl⟩ := Path.scopes_gramN hL w p h2 hk.left.right _ _ hl
    obtain ⟨cc, ne, vr, r, x, prs, y, tb3, tb4, n1, n2, g3, g4, en, hl, e, e2, hr, hq⟩ := Sig.partsN hL w s h3 hk.right _ tb2 hl
    have gf := Kind.fencN w k h0 (cc := cc) (ne := ne) g3 g4
    have g : GramN E .decl tb (.fn (.qname (ps.snoc (.conv TA (T.one r)))) (k.wrap (Cxx.fsig cc vr ne k.fk k.this) (T.one r) prs))
        (ta.mangle w c!"?B" ++ (p.mangle w seen).1 ++ (k.code ++ k.thisCode w ++ (cc :: x ++ y ++ throwCode ne))) tb4 ((Decl.conv ta k p s).nodes w seen) := by
      rw [Decl.nodes, en]
      cases k <;> first | exact .conv g1 g2 gf | exact .convThunk g1 g2 gf
    refine ⟨_, _, tb4, g, ?_, free_of g1.gram rfl, ?_, by rw [Decl.mangle]; exact hl, fun s hs => by cases hs⟩
    · rw [Decl.mangle]; simp [e]
    · rw [Decl.tree, e2]
      exact .fn (.qname (ha.snoc (.conv hTA hr))) (k.wrap_alike _ hr hq)
end

end Spec.Cxx
end Undname
