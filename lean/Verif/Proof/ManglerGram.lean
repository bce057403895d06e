/-
  What the mangler of `Spec/Mangler.lean` writes is read by the grammar as the intended tree.
-/
import Verif.Proof.ManglerPr
import Verif.Proof.Alike
import Verif.Proof.FreeHead

namespace Undname
open Spec
namespace Spec.Cxx

/-! ### Memories -/

/-- The names of a phrase are among those of the list. -/
def Sub (l L : List Seg) : Prop := ∀ a ∈ l, a ∈ L

theorem Sub.left {a b L : List Seg} (h : Sub (a ++ b) L) : Sub a L := fun x hx => h x (List.mem_append_left _ hx)
theorem Sub.right {a b L : List Seg} (h : Sub (a ++ b) L) : Sub b L := fun x hx => h x (List.mem_append_right _ hx)

/-- The tables of the grammar after the mangler has seen something. -/
structure Seen.Like (E : Env) (L : List Seg) (st : Seen) (tb : Tbl) : Prop where
  names : tb.names = st.names.map (Seg.known E)
  mem : Sub st.names L
  len : tb.params.length = st.types.length
  types : ∀ (i : Nat) (t : Ty), st.types[i]? = some t → ∃ t' : T, tb.params[i]? = some t' ∧ Alike E t' (t.tree E)

theorem Seen.like_nil (E : Env) (L : List Seg) : ({} : Seen).Like E L {} := ⟨rfl, by simp [Sub], rfl, by simp⟩

theorem Seen.Like.note {E : Env} {L : List Seg} (hL : Distinct E L) {st : Seen} {tb : Tbl} (h : st.Like E L tb) {s : Seg} (hs : s ∈ L) :
    (st.note s).Like E L (tb.note (s.known E)) := by
  have hm : s.known E ∉ tb.names ↔ s ∉ st.names := by
    refine not_congr ?_
    rw [h.names, List.mem_map]
    constructor
    · rintro ⟨a, ha, he⟩
      rw [← hL a (h.mem a ha) s hs he]
      exact ha
    · exact fun ha => ⟨s, ha, rfl⟩
  have hn : tb.names.length = st.names.length := by rw [h.names, List.length_map]
  unfold Seen.note Tbl.note
  simp only [hm, hn]
  split
  · refine ⟨by simp [h.names], ?_, h.len, h.types⟩
    intro a ha
    rcases List.mem_append.1 ha with ha | ha
    · exact h.mem a ha
    · rw [List.mem_singleton.1 ha]; exact hs
  · exact h

theorem Seen.Like.noteType {E : Env} {L : List Seg} {st : Seen} {tb : Tbl} (h : st.Like E L tb) (t : Ty) {t' : T} (ht : Alike E t' (t.tree E)) :
    (st.noteType t).Like E L (tb.noteParam t') := by
  unfold Seen.noteType Tbl.noteParam
  rw [h.len]
  split
  · refine ⟨h.names, h.mem, by simp [h.len], fun i u hu => ?_⟩
    simp only [List.getElem?_append] at hu ⊢
    rw [h.len]
    by_cases hi : i < st.types.length
    · rw [if_pos hi] at hu ⊢
      exact h.types i u hu
    · rw [if_neg hi] at hu ⊢
      have : i - st.types.length = 0 := by
        cases hz : i - st.types.length with
        | zero => rfl
        | succ n => rw [hz] at hu; simp at hu
      rw [this] at hu ⊢
      simp only [List.getElem?_cons_zero, Option.some.injEq] at hu ⊢
      subst hu
      exact ⟨t', rfl, ht⟩
  · exact h

/-- The grammar reads a text as a phrase that prints like `want`. -/
def Reads (E : Env) (L : List Seg) (k : Cat) (st : Seen) (want : T) (x : Text) (st' : Seen) : Prop :=
  ∀ tb, st.Like E L tb → ∃ (t' : T) (tb' : Tbl), Gram E k tb t' x tb' ∧ Alike E t' want ∧ st'.Like E L tb'

theorem Seen.Like.at {E : Env} {L : List Seg} {st : Seen} {tb : Tbl} (h : st.Like E L tb) {i : Nat} {s : Seg} (hi : st.names[i]? = some s) :
    tb.names[i]? = some (s.known E) := by
  rw [h.names, List.getElem?_map, hi]; rfl

/-- Names are only added. -/
theorem note_grow (tb : Tbl) (s : Text) : tb.names <+: (tb.note s).names := by
  unfold Tbl.note
  split
  · exact List.prefix_append _ _
  · exact List.prefix_refl _

theorem noteParam_names (tb : Tbl) (t : T) : (tb.noteParam t).names = tb.names := by
  unfold Tbl.noteParam; split <;> rfl

theorem gram_grow {E : Env} {k : Cat} {tb tb' : Tbl} {t : T} {x : Text} (h : Gram E k tb t x tb') : tb.names <+: tb'.names := by
  induction h
  all_goals first
    | exact List.prefix_refl _
    | exact note_grow _ _
    | exact (note_grow _ _).trans (by assumption)
    | (try rw [noteParam_names] at *); first
        | solve_by_elim [List.IsPrefix.trans, note_grow]
        | grind [List.IsPrefix.trans]

/-- An identifier that was written is remembered, or there is no room. -/
theorem note_known {tb : Tbl} {s : Text} (h : 10 ≤ tb.names.length ∨ s ∈ tb.names) : tb.note s = tb := by
  unfold Tbl.note
  rw [if_neg]
  rintro ⟨h1, h2⟩
  rcases h with h | h
  · omega
  · exact h2 h

theorem known_note (tb : Tbl) (s : Text) : 10 ≤ (tb.note s).names.length ∨ s ∈ (tb.note s).names := by
  unfold Tbl.note
  split
  · exact .inr (by simp)
  · next h =>
    by_cases h1 : tb.names.length < 10
    · right; apply Classical.byContradiction; intro h2; exact h ⟨h1, h2⟩
    · left; omega

theorem known_grow {tb tb' : Tbl} {s : Text} (h : 10 ≤ tb.names.length ∨ s ∈ tb.names) (hg : tb.names <+: tb'.names) :
    10 ≤ tb'.names.length ∨ s ∈ tb'.names :=
  h.imp (fun h => Nat.le_trans h hg.length_le) fun h => hg.subset h

theorem sname_known {E : Env} {tb tb' : Tbl} {s x : Text} (h : Gram E .sname tb (.named s .nil) x tb') :
    10 ≤ tb'.names.length ∨ s ∈ tb'.names := by
  cases h with
  | sBack h1 h2 => exact .inr (List.mem_of_getElem? h2)
  | sFull h =>
    cases h with
    | fName h => exact known_note _ _
  | sTmpl h => exact absurd h (by
      intro h
      have key : ∀ {tb x tb'} {i : T}, Gram E .tmpl tb i x tb' → ∀ s, i ≠ .named s .nil := by
        intro tb x tb' i h s
        cases h <;> next i _ _ _ _ _ _ _ => cases i <;> simp [T.withArgs, T.one]
      exact key h s rfl)

theorem position_spec {α : Type} [DecidableEq α] {a : α} {l : List α} {i : Nat} (h : position a l = some i) : i < 10 ∧ l[i]? = some a := by
  unfold position at h
  unfold List.idxOf? at h
  rw [List.findIdx?_eq_some_iff_getElem] at h
  obtain ⟨hl, he, _⟩ := h
  have h1 : (l.take 10)[i]? = some a := by
    rw [List.getElem?_eq_getElem hl]
    simpa using he
  rw [List.getElem?_take] at h1
  split at h1
  · exact ⟨by omega, h1⟩
  · cases h1

theorem Ty.core_of_unq {E : Env} {t : Ty} (h : t.unqualified) : t.core E = t.tree E := by
  cases t <;> first | rfl | (obtain ⟨rfl, rfl⟩ := h; rfl)

def Ty.cv (t : Ty) : CV := { c := t.c, v := t.v }

theorem letter_mem (t : Ty) : (t.letter, t.cv) ∈ cvCodes := by
  unfold Ty.letter Ty.cv
  generalize t.c = c; generalize t.v = v
  cases c <;> cases v <;> decide

theorem memberLetter_mem (t : Ty) : (t.memberLetter, t.cv) ∈ memberCvCodes := by
  unfold Ty.memberLetter Ty.cv
  generalize t.c = c; generalize t.v = v
  cases c <;> cases v <;> decide

theorem cvLetter_mem (c v : Bool) : (Spec.Ty.cvLetter c v, ({ c, v } : CV)) ∈ cvCodes := by
  cases c <;> cases v <;> decide

theorem core_addQ (E : Env) (t : Ty) : (t.core E).addQ t.cv = t.tree E := by
  cases t <;> simp [Ty.core, T.addQ, Ty.tree, Ty.cv, Ty.c, Ty.v, CV.or, PK.cv, PK.c, PK.v]

theorem tree_addQ (E : Env) (t : Ty) : (t.tree E).addQ t.cv = t.tree E := by
  cases t <;> simp [T.addQ, Ty.tree, Ty.cv, Ty.c, Ty.v, CV.or, PK.cv, PK.c, PK.v]

theorem core_setQ {E : Env} {t : Ty} (h : t.noExt) (h2 : ∀ k s, t = .fptr k s → k.restrict = false) (h3 : ∀ k c q s, t = .mfptr k c q s → k.restrict = false) :
    (t.core E).setQ t.cv = t.tree E := by
  cases t with
  | prim => rfl
  | tag => simp [Ty.core, T.setQ, Ty.tree, Ty.cv, Ty.c, Ty.v]
  | ptr k u to => obtain ⟨h, rfl⟩ := h; simp [Ty.core, T.setQ, Ty.tree, Ty.cv, Ty.c, Ty.v, PK.cv, h]
  | fptr k s => simp [Ty.core, T.setQ, Ty.tree, Ty.cv, Ty.c, Ty.v, PK.cv, h2 k s rfl]
  | aptr k c v d e => simp only [Ty.noExt] at h; simp [Ty.core, T.setQ, Ty.tree, Ty.cv, Ty.c, Ty.v, PK.cv, h]
  | mptr k u c to => obtain ⟨h, rfl⟩ := h; simp [Ty.core, T.setQ, Ty.tree, Ty.cv, Ty.c, Ty.v, PK.cv, h]
  | mfptr k c q s => simp [Ty.core, T.setQ, Ty.tree, Ty.cv, Ty.c, Ty.v, PK.cv, h3 k c q s rfl]

theorem pk_mem (k : PK) : (k.code, ({ c := k.c, v := k.v } : CV), k.aff) ∈ refCodes := by
  cases k with
  | star c v r => cases c <;> cases v <;> cases r <;> decide
  | ref => decide
  | rref => decide

theorem star_mem {k : PK} (h : k.isStar) : (k.code, ({ c := k.c, v := k.v } : CV)) ∈ ptrCodes := by
  cases k with
  | star c v r => cases c <;> cases v <;> cases r <;> decide
  | ref => cases h
  | rref => cases h

theorem ext_code (w r u : Bool) : (⟨w, r, u⟩ : Ext).code = extCode w r u := rfl

theorem pk_cv (k : PK) (w u : Bool) : CV.or { c := k.c, v := k.v } (⟨w, k.restrict, u⟩ : Ext).cv = k.cv u := by
  simp [CV.or, Ext.cv, PK.cv]

theorem dims_enc {dims : List Nat} (h : ∀ d ∈ dims, d < 2 ^ 64) : EncDims (dims.flatMap encode) dims := by
  induction dims with
  | nil => exact .nil
  | cons d ds ih => exact .cons (encode_spec d (h d (by simp))) (ih fun d hd => h d (by simp [hd]))

theorem this_code (w : Bool) (q : This) :
    (⟨w, q.restrict, q.unaligned⟩ : Ext).code ++ refCode q.ref ++ [Spec.Ty.cvLetter q.c q.v] = q.code w := by
  obtain ⟨c, v, r, u, rf⟩ := q
  cases rf with
  | none => rfl
  | some x => cases x <;> rfl

theorem this_cv (w : Bool) (q : This) : ((⟨w, q.restrict, q.unaligned⟩ : Ext).cv).or { c := q.c, v := q.v } = q.cv := by
  simp [CV.or, Ext.cv, This.cv]

/-- First characters. -/
theorem Ty.mangle_head (w : Bool) (t : Ty) (st : Seen) :
    (t.mangle w st).1 ≠ [] ∧ (t.mangle w st).1.head? ≠ some '?' ∧
    (t ≠ .prim .Void false false → t.unqualified → (t.mangle w st).1.head? ≠ some 'X') := by
  have hk : ∀ (k : PK) (x : Text), k.code ++ x ≠ [] ∧ (k.code ++ x).head? ≠ some '?' ∧ (k.code ++ x).head? ≠ some 'X' := by
    intro k x
    cases k with
    | star c v r => cases c <;> cases v <;> simp [PK.code, Spec.Ty.ptrLetter]
    | ref => simp [PK.code]
    | rref => simp [PK.code]
  cases t with
  | prim k c v =>
    rw [Ty.mangle]
    refine ⟨?_, ?_, ?_⟩
    · cases k <;> simp [primCode]
    · cases k <;> simp [primCode]
    · rintro h1 ⟨rfl, rfl⟩
      cases k <;> first | exact absurd rfl h1 | simp [primCode]
  | tag k p c v => rw [Ty.mangle]; cases k <;> simp [tagCode]
  | ptr k u to =>
    rw [Ty.mangle]; dsimp only; rw [List.append_assoc]
    exact ⟨(hk _ _).1, (hk _ _).2.1, fun _ _ => (hk _ _).2.2⟩
  | fptr k s =>
    rw [Ty.mangle]; dsimp only; rw [List.append_assoc]
    exact ⟨(hk _ _).1, (hk _ _).2.1, fun _ _ => (hk _ _).2.2⟩
  | aptr k c v d e =>
    rw [Ty.mangle]; dsimp only; simp only [List.append_assoc]
    exact ⟨(hk _ _).1, (hk _ _).2.1, fun _ _ => (hk _ _).2.2⟩
  | mptr k u c to =>
    rw [Ty.mangle]; dsimp only; simp only [List.append_assoc]
    exact ⟨(hk _ _).1, (hk _ _).2.1, fun _ _ => (hk _ _).2.2⟩
  | mfptr k c q s =>
    rw [Ty.mangle]; dsimp only; simp only [List.append_assoc]
    exact ⟨(hk _ _).1, (hk _ _).2.1, fun _ _ => (hk _ _).2.2⟩

theorem digit_head {i : Nat} (h : i < 10) (x : Text) : (digit i ++ x).head? ≠ some 'X' ∧ digit i ++ x ≠ [] := by
  have : ∀ i, i < 10 → (digit i).head? ≠ some 'X' ∧ digit i ≠ [] := by decide
  obtain ⟨h1, h2⟩ := this i h
  refine ⟨?_, by simp [h2]⟩
  rw [List.head?_append]
  cases hd : (digit i).head? with
  | none => exact absurd (List.head?_eq_none_iff.1 hd) h2
  | some c => rw [hd] at h1; simpa using h1

theorem Tys.mangle_head {E : Env} (w : Bool) (ts : Tys) (h : ts.Ok E) (st : Seen) :
    (ts.mangle w st).1.head? ≠ some 'X' ∧ ((ts.mangle w st).1 = [] ↔ ts = .nil) := by
  cases ts with
  | nil => simp [Tys.mangle]
  | cons t ts =>
    rw [Tys.Ok] at h
    rw [Tys.mangle]
    cases hp : position t st.types with
    | some i =>
      have := digit_head (position_spec hp).1 (ts.mangle w st).1
      exact ⟨this.1, by simpa using this.2⟩
    | none =>
      dsimp only
      obtain ⟨h1, _, h3⟩ := t.mangle_head w st
      replace h3 := h3 h.1 h.2.1
      refine ⟨?_, by simp [h1]⟩
      rw [List.head?_append]
      cases hd : (t.mangle w st).1.head? with
      | none => exact absurd (List.head?_eq_none_iff.1 hd) h1
      | some c => rw [hd] at h3; simpa using h3


/-! ### Numbers -/

theorem hexDigits_head {n : Nat} (h : n ≠ 0) : ∃ c ds, hexDigits n = c :: ds ∧ c ≠ 'A' := by
  induction n using Nat.strongRecOn with
  | _ n ih =>
    unfold hexDigits
    rw [dif_neg h]
    by_cases h0 : n / 16 = 0
    · have e : hexDigits (n / 16) = [] := by rw [h0]; unfold hexDigits; simp
      rw [e]
      refine ⟨_, _, rfl, ?_⟩
      have key : ∀ k, k < 16 → k ≠ 0 → Char.ofNat ('A'.toNat + k) ≠ 'A' := by decide
      exact key _ (by omega) (by omega)
    · obtain ⟨c, ds, e, hc⟩ := ih (n / 16) (by omega) h0
      rw [e]
      exact ⟨c, _, rfl, hc⟩

theorem encode_scope {n : Nat} (h1 : 1 ≤ n) (h2 : n < 2 ^ 64) : EncScope (encode n) n := by
  unfold encode
  rw [if_neg (by omega)]
  split
  · have := EncScope.digit (n - 1) (by omega)
    rwa [show n - 1 + 1 = n by omega] at this
  · obtain ⟨h3, h4⟩ := hexDigits_spec n
    obtain ⟨c, ds, e, hc⟩ := hexDigits_head (n := n) (by omega)
    rw [e] at h3 h4 ⊢
    have := EncScope.hex c ds (h3 c (by simp)) hc (fun x hx => h3 x (by simp [hx]))
    rwa [h4, Nat.mod_eq_of_lt h2] at this

theorem encodeInt_enc {i : Int} (h : i.natAbs < 2 ^ 63) : EncSigned (encodeInt i) i := by
  unfold encodeInt
  have e := encode_spec i.natAbs (by omega)
  by_cases hi : i < 0
  · rw [if_pos hi]
    have := EncSigned.mk (.neg e) h
    rw [if_pos rfl] at this
    rwa [show -(i.natAbs : Int) = i by omega] at this
  · rw [if_neg hi]
    have := EncSigned.mk (.pos e) h
    rw [if_neg (by decide)] at this
    rwa [show (i.natAbs : Int) = i by omega] at this

theorem offs_enc {offs : List Int} (h : offsOk offs) : EncInts (offs.flatMap encodeInt) offs := by
  induction offs with
  | nil => exact .nil
  | cons d ds ih => exact .cons (encodeInt_enc (h d (by simp))) (ih fun d hd => h d (by simp [hd]))

theorem ret_gram {E : Env} {L : List Seg} {t : Ty} {st st' : Seen} {x : Text} (g0 : Reads E L .ty st (t.core E) x st') (hx : x.head? ≠ some '?') :
    Reads E L .ret st (t.tree E).one (t.retCode ++ x) st' := by
  intro tb hl
  obtain ⟨t', tb', g, ha, hl⟩ := g0 tb hl
  cases t with
  | prim k c v =>
    show ∃ (t' : T) (tb' : Tbl), Gram E _ tb t' ((if c || v then ['?', Spec.Ty.cvLetter c v] else []) ++ x) tb' ∧ _
    split
    · have := Gram.resQual (List.mem_append_left memberCvCodes (cvLetter_mem c v)) g
      refine ⟨_, _, .retSome this, ?_, hl⟩
      exact cast (by simp [Ty.core, T.addQ, Ty.tree, CV.or]) (ha.addQ { c, v }).one
    · next h =>
      have hc : c = false ∧ v = false := by cases c <;> cases v <;> simp_all
      obtain ⟨rfl, rfl⟩ := hc
      exact ⟨_, _, .retSome (.resPlain g hx), ha.one, hl⟩
  | tag k p c v =>
    have := Gram.resQual (List.mem_append_left memberCvCodes (cvLetter_mem c v)) g
    refine ⟨_, _, .retSome this, ?_, hl⟩
    exact cast (by simp [Ty.core, T.addQ, Ty.tree, CV.or]) (ha.addQ { c, v }).one
  | _ => exact ⟨_, _, .retSome (.resPlain g hx), ha.one, hl⟩

theorem arg_gram {E : Env} {L : List Seg} {t : Ty} {st st' : Seen} {x : Text} (g0 : Reads E L .ty st (t.core E) x st') :
    Reads E L (.targ false) st (t.tree E) (t.argCode ++ x) st' := by
  intro tb hl
  obtain ⟨t', tb', g, ha, hl⟩ := g0 tb hl
  have key : ∀ c v, t.cv = { c, v } → ∃ (t' : T) (tb' : Tbl),
      Gram E (.targ false) tb t' (c!"$$C" ++ [Spec.Ty.cvLetter c v] ++ x) tb' ∧ Alike E t' (t.tree E) ∧ st'.Like E L tb' := by
    intro c v h
    have := Gram.aTypeC (m := false) (List.mem_append_left memberCvCodes (cvLetter_mem c v)) g
    have hb := ha.addQ t.cv
    rw [core_addQ, h] at hb
    exact ⟨_, _, cast (by simp) this, hb, hl⟩
  cases t with
  | prim k c v =>
    show ∃ (t' : T) (tb' : Tbl), Gram E _ tb t' ((if c || v then c!"$$C" ++ [Spec.Ty.cvLetter c v] else []) ++ x) tb' ∧ _
    split
    · exact key c v rfl
    · next h =>
      have hc : c = false ∧ v = false := by cases c <;> cases v <;> simp_all
      obtain ⟨rfl, rfl⟩ := hc
      exact ⟨_, _, .aType g, ha, hl⟩
  | tag k p c v =>
    show ∃ (t' : T) (tb' : Tbl), Gram E _ tb t' ((if c || v then c!"$$C" ++ [Spec.Ty.cvLetter c v] else []) ++ x) tb' ∧ _
    split
    · exact key c v rfl
    · next h =>
      have hc : c = false ∧ v = false := by cases c <;> cases v <;> simp_all
      obtain ⟨rfl, rfl⟩ := hc
      exact ⟨_, _, .aType g, ha, hl⟩
  | _ => exact ⟨_, _, .aType g, ha, hl⟩

/-- A parameter list with its end. -/
theorem params_gram {E : Env} {L : List Seg} {ts : Tys} {st st' : Seen} {x : Text} (g0 : Reads E L .plist st (ts.tree E) x st')
    (hx : x.head? ≠ some 'X') (hn : x = [] ↔ ts = .nil) (hb : x = [] → st' = st) (vr : Bool) :
    Reads E L (.params vr) st (ts.treeOf E vr) (if x.isEmpty && !vr then c!"X" else x ++ (if vr then c!"Z" else c!"@")) st' := by
  intro tb hl
  obtain ⟨t', tb', g, ha, hl'⟩ := g0 tb hl
  cases vr with
  | true =>
    have : ts.treeOf E true = T.one (.arr (ts.tree E)) := by cases ts <;> simp [Tys.treeOf, Tys.tree]
    rw [this]
    exact ⟨_, _, cast (by simp) (Gram.pVariadic g hx), (Alike.arr ha).one, hl'⟩
  | false =>
    cases ts with
    | nil =>
      have h := hn.2 rfl
      subst h
      rw [hb rfl]
      exact ⟨_, _, .pVoid, .refl _, hl⟩
    | cons t ts =>
      have : x ≠ [] := fun h => by cases hn.1 h
      have e : x.isEmpty = false := by simpa using this
      rw [e]
      have := Gram.pFixed g hx
      rw [Tys.tree] at ha
      exact ⟨_, _, cast (by simp) this, (Alike.arr ha).one, hl'⟩


/-! ### Symbols -/

theorem cv_or_self (k : PK) (w u : Bool) : (k.cv u).or (Ext.cv ⟨w, k.restrict, u⟩) = k.cv u := by
  simp [CV.or, Ext.cv, PK.cv]

theorem cv_or_false (k : PK) (w : Bool) : (k.cv false).or (Ext.cv ⟨w, false, false⟩) = k.cv false := by
  simp [CV.or, Ext.cv, PK.cv]

theorem alike_ptr {E : Env} {t : T} {q : CV} {a : PointerAffinity} {c to : T} (h : Alike E t (.ptr q a c to)) :
    ∃ (c' to' : T), t = .ptr q a c' to' ∧ Alike E c' c ∧ Alike E to' to := by
  cases h with
  | refl => exact ⟨_, _, rfl, .refl _, .refl _⟩
  | ptr _ _ h1 h2 => exact ⟨_, _, rfl, h1, h2⟩

theorem alike_nil {E : Env} {t : T} (h : Alike E t .nil) : t = .nil := by cases h; rfl

theorem alike_one {E : Env} {t a : T} (h : Alike E t a.one) : ∃ a' : T, t = a'.one ∧ Alike E a' a := by
  cases h with
  | refl => exact ⟨_, rfl, .refl _⟩
  | cons h1 h2 => rw [alike_nil h2]; exact ⟨_, rfl, h1⟩

theorem tail_mem (t : Ty) : (t.letter, t.cv) ∈ cvCodes ++ memberCvCodes := List.mem_append_left _ (letter_mem t)

theorem Storage.mem (st : Storage) : (st.code, st.cls) ∈ storageCodes := by
  cases st with
  | member a => cases a <;> decide
  | _ => decide

theorem encode32_enc (i : Int) : EncSigned (encode32 i) (i % 2 ^ 32) := by
  have h : (i % 2 ^ 32).toNat < 2 ^ 32 := by omega
  have := EncSigned.mk (.pos (encode_spec (i % 2 ^ 32).toNat (by omega))) (by omega)
  simp only [Bool.false_eq_true, if_false] at this
  exact cast (by rw [Int.toNat_of_nonneg (by omega)]; rfl) this

theorem encode_enc {n : Nat} (h : n < 2 ^ 32) : EncSigned (encode n) (n : Int) := by
  simpa using EncSigned.mk (.pos (encode_spec n (by omega))) (by omega)

theorem low32s_mod {i : Int} (h : Int32 i) : low32s (i % 2 ^ 32) = i := by
  unfold low32s; unfold Int32 at h; omega

theorem low32u_nat {n : Nat} (h : n < 2 ^ 32) : low32u (n : Int) = n := by unfold low32u; omega

theorem Adj.enc {a : Adj} (h : a.Ok) : EncAdjust a.kind a.mangle a.adjust := by
  cases a with
  | static n =>
    have := EncAdjust.static (encode_enc h)
    rwa [low32u_nat h] at this
  | disp d n =>
    have := EncAdjust.disp (encode32_enc d) (encode_enc h.2)
    rwa [low32u_nat h.2, low32s_mod h.1] at this
  | dispex a b d n =>
    have := EncAdjust.dispex (encode32_enc a) (encode32_enc b) (encode32_enc d) (encode_enc h.2.2.2)
    rwa [low32u_nat h.2.2.2, low32s_mod h.1, low32s_mod h.2.1, low32s_mod h.2.2.1] at this

theorem Kind.wrap_alike {E : Env} (k : Kind) (f : Spec.Sig) {r r' ps ps' : T} (h1 : Alike E r r') (h2 : Alike E ps ps') :
    Alike E (k.wrap f r ps) (k.wrap f r' ps') := by
  cases k <;> first | exact .sig _ h1 h2 | exact .thunk _ _ h1 h2

theorem Kind.fenc {E : Env} (w : Bool) (k : Kind) (h : k.Ok) {tb tb1 tb2 : Tbl} {r x ps y : _} {cc : Char} {vr ne : Bool}
    (g1 : Gram E .ret tb r x tb1) (g2 : Gram E (.params vr) tb1 ps y tb2) :
    Gram E .fenc tb (k.wrap (Cxx.fsig cc vr ne k.fk k.this) r ps)
      (k.code ++ k.thisCode w ++ (cc :: x ++ y ++ throwCode ne)) tb2 := by
  have hthis : ∀ q : This, Gram E (.fty true) tb (.sig { cv := q.cv, conv := convOf cc, ref := q.ref, variadic := vr, isNoexcept := ne } r ps)
      (q.code w ++ (cc :: x ++ y ++ throwCode ne)) tb2 := by
    intro q
    have := Gram.fnThis ⟨w, q.restrict, q.unaligned⟩ q.ref cc ne (List.mem_append_left memberCvCodes (cvLetter_mem q.c q.v)) g1 g2
    rw [this_cv] at this
    rw [← this_code]
    exact cast (by simp) this
  unfold Cxx.fsig
  cases k with
  | free ec =>
    have hm : (c!"Y", ({} : FnKind), AdjKind.none) ∈ classCodes := by decide
    exact cast (by simp [Kind.wrap, Kind.fk, Kind.this, Kind.code, Kind.thisCode, This.cv]) (Gram.fenc ec hm .none (.fn cc ne g1 g2))
  | static a =>
    have hm : (pick a c!"C" c!"K" c!"S", ({ access := some a, isStatic := true } : FnKind), AdjKind.none) ∈ classCodes := by
      cases a <;> decide
    exact cast (by simp [Kind.wrap, Kind.fk, Kind.this, Kind.code, Kind.thisCode, This.cv]) (Gram.fenc false hm .none (.fn cc ne g1 g2))
  | member a v q =>
    have hm : (Kind.code (.member a v q), ({ access := some a, isVirtual := v } : FnKind), AdjKind.none) ∈ classCodes := by
      simp only [Kind.code]
      cases v <;> cases a <;> decide
    exact cast (by simp [Kind.wrap, Kind.fk, Kind.this, Kind.thisCode]) (Gram.fenc false hm .none (hthis q))
  | thunk a adj q =>
    have hk : adj.kind ≠ .none := by cases adj <;> simp [Adj.kind]
    have hm : (adj.code a, Kind.fk (.thunk a adj q), adj.kind) ∈ classCodes := by
      cases adj <;> cases a <;> simp only [Adj.code, pick, Kind.fk, Adj.kind, Adj.virtual] <;> decide
    have ht : (Kind.fk (.thunk a adj q)).hasThis = true := rfl
    have g := Gram.fenc false hm (Adj.enc h) (show Gram E (.fty (Kind.fk (.thunk a adj q)).hasThis) tb _ _ tb2 from hthis q)
    rw [if_neg hk] at g
    exact cast (by simp [Kind.wrap, Kind.fk, Kind.this, Kind.code, Kind.thisCode]) g

theorem opCode_mem (o : IFK) : (opCode o, o) ∈ operators := by cases o <;> decide

theorem op_gram (E : Env) (tb : Tbl) (o : IFK) : Gram E .fid tb (.op (some o) .nil) (opCode o) tb := by
  have h := opCode_mem o
  generalize opCode o = code at h
  simp only [operators, List.mem_append, List.mem_map, Prod.exists, Prod.mk.injEq] at h
  rcases h with (⟨c, k, h, rfl, rfl⟩ | ⟨c, k, h, rfl, rfl⟩) | ⟨c, k, h, rfl, rfl⟩
  · exact .fOp h
  · exact .fOpUnder h
  · exact .fOpDunder h

/-- What is read as a symbol. -/
structure ReadsDecl (E : Env) (L : List Seg) (w : Bool) (d : Decl) (st : Seen) (tb : Tbl) (t' : T) (x : Text) (tb' : Tbl) : Prop where
  decl : Gram E .decl tb t' x tb'
  eq : (d.mangle w st).1 = '?' :: x
  free : Free x
  alike : Alike E t' (d.tree E)
  like : (d.mangle w st).2.Like E L tb'
  ident : ∀ s, d.ident = some s → t'.ident = some (.named s .nil) ∧ tb'.note s = tb'

theorem ReadsDecl.sym {E : Env} {L : List Seg} {w : Bool} {d : Decl} {st : Seen} {tb tb' : Tbl} {t' : T} {x : Text}
    (h : ReadsDecl E L w d st tb t' x tb') : Gram E .sym tb t' ('?' :: x) tb' := .sym h.decl h.free

/-- A declaration whose name is known does not begin as a special symbol. -/
theorem free_of {E : Env} {tb0 tb1 : Tbl} {i : T} {x0 x : Text} (h0 : Gram E .sname tb0 i x0 tb1) (hk : T.known i = true)
    (hp : x0 <+: x := by repeat (first | with_reducible exact List.prefix_append _ _ | with_reducible refine List.IsPrefix.trans ?_ (List.prefix_append _ _))) :
    Free x := by
  obtain ⟨z, rfl⟩ := hp
  exact ((sname_head h0 hk).append z).free

theorem last_snoc (l : List T) (x : T) : (tl (l ++ [x])).last = some x := by
  induction l with
  | nil => rfl
  | cons a l ih => cases l <;> simpa [tl, T.last] using ih

theorem snoc_last (p x : T) (h : ∃ l, p = tl l) : (p.snoc x).last = some x := by
  obtain ⟨l, rfl⟩ := h
  rw [tl_snoc]
  exact last_snoc l x

/-- The trees of scopes are lists. -/
theorem scopes_tl {E : Env} {tb tb' : Tbl} {t : T} {x : Text} (h : Gram E .scopes tb t x tb') : ∃ l, t = tl l := by
  generalize hk : Cat.scopes = k at h
  induction h <;> first | cases hk | skip
  case scNil => exact ⟨[], rfl⟩
  case scCons ih => obtain ⟨l, rfl⟩ := ih rfl; exact ⟨_, tl_snoc _ _⟩
  case scOdd ih => obtain ⟨l, rfl⟩ := ih rfl; exact ⟨_, tl_snoc _ _⟩
  case scLocalHash ih => obtain ⟨l, rfl⟩ := ih rfl; exact ⟨_, tl_snoc _ _⟩

theorem array_gram {E : Env} {L : List Seg} {el : Ty} {st st' : Seen} {x : Text} (c v : Bool) {dims : List Nat} (hd : dimsOk dims)
    (hu : el.unqualified) (g0 : Reads E L .ty st (el.core E) x st') :
    Reads E L .ty st (.array { c, v } dims (el.tree E)) (arrayCode c v dims ++ x) st' := by
  obtain ⟨h1, h2, h3⟩ := hd
  intro tb hl
  obtain ⟨t', tb', g, ha, hl⟩ := g0 tb hl
  rw [Ty.core_of_unq hu] at ha
  refine ⟨_, _, ?_, .array { c, v } dims ha, hl⟩
  unfold arrayCode
  split
  · exact cast (by simp) (Gram.arrayQ (encode_spec _ h2) h1 (dims_enc h3) (cvLetter_mem c v) g)
  · next h =>
    have hc : c = false ∧ v = false := by cases c <;> cases v <;> simp_all
    obtain ⟨rfl, rfl⟩ := hc
    exact cast (by simp) (Gram.array (encode_spec _ h2) h1 (dims_enc h3) g)

theorem memFn_mem {offs : List Int} (h : offs.length ∈ [1, 2, 3]) :
    ∃ ch, memFnCode offs.length = [ch] ∧ (ch, offs.length) ∈ [('1', 0), ('H', 1), ('I', 2), ('J', 3)] := by
  have : ∀ n ∈ [1, 2, 3], ∃ ch, memFnCode n = [ch] ∧ (ch, n) ∈ [('1', 0), ('H', 1), ('I', 2), ('J', 3)] := by
    intro n hn
    simp only [List.mem_cons, List.not_mem_nil, or_false] at hn
    rcases hn with rfl | rfl | rfl
    · exact ⟨'H', rfl, by decide⟩
    · exact ⟨'I', rfl, by decide⟩
    · exact ⟨'J', rfl, by decide⟩
  exact this _ h

theorem memData_mem {offs : List Int} (h : offs.length ∈ [2, 3]) :
    ∃ ch, (if offs.length = 2 then c!"F" else c!"G") = [ch] ∧ (ch, offs.length) ∈ [('F', 2), ('G', 3)] := by
  have : ∀ n ∈ [2, 3], ∃ ch, (if n = 2 then c!"F" else c!"G") = [ch] ∧ (ch, n) ∈ [('F', 2), ('G', 3)] := by
    intro n hn
    simp only [List.mem_cons, List.not_mem_nil, or_false] at hn
    rcases hn with rfl | rfl
    · exact ⟨'F', rfl, by decide⟩
    · exact ⟨'G', rfl, by decide⟩
  exact this _ h

/-- A variable. -/
theorem var_gram {E : Env} {L : List Seg} (w : Bool) {st : Storage} {i ps : T} {x y : Text} {tb0 tb1 tb2 : Tbl} {seen : Seen}
    (h1 : Gram E .sname tb0 i x tb1) (hi : i.isPlain = true) (h2 : Gram E .scopes tb1 ps y tb2) (hl : seen.Like E L tb2)
    {ty : Ty} (gt : Reads E L .ty seen (ty.core E) (ty.mangle w seen).1 (ty.mangle w seen).2)
    (gc : ∀ k u cls to, ty = .mptr k u cls to → ∀ st, Reads E L .qtn st (.qname (cls.tree E)) (cls.mangle w st).1 (cls.mangle w st).2)
    (gc' : ∀ k cls q s, ty = .mfptr k cls q s → ∀ st, Reads E L .qtn st (.qname (cls.tree E)) (cls.mangle w st).1 (cls.mangle w st).2) :
    ∃ (ty' : T) (tb' : Tbl), Gram E .decl tb0 (.var (some st.cls) (.qname (ps.snoc i)) ty'.one)
        (x ++ y ++ st.code :: (ty.mangle w seen).1 ++ (ty.again w (ty.mangle w seen).2).1) tb' ∧ Alike E ty' (ty.tree E) ∧
      (ty.again w (ty.mangle w seen).2).2.Like E L tb' ∧ tb2.names <+: tb'.names := by
  obtain ⟨t', tb3, g, ha, hl⟩ := gt tb2 hl
  have hg := gram_grow g
  cases ty with
  | prim k c v =>
    have hp : t'.isPtr = false := by rw [ha.isPtr]; rfl
    refine ⟨T.setQ { c, v } t', tb3, cast (by simp [Ty.again]) (Gram.var h1 hi h2 st.mem g hp (List.mem_append_left _ (cvLetter_mem c v))), ?_, by rw [Ty.again]; exact hl, hg⟩
    exact cast (by simp [Ty.core, T.setQ, Ty.tree]) (ha.setQ { c, v })
  | tag k p c v =>
    have hp : t'.isPtr = false := by rw [ha.isPtr]; rfl
    refine ⟨T.setQ { c, v } t', tb3, cast (by simp [Ty.again]) (Gram.var h1 hi h2 st.mem g hp (List.mem_append_left _ (cvLetter_mem c v))), ?_, by rw [Ty.again]; exact hl, hg⟩
    exact cast (by simp [Ty.core, T.setQ, Ty.tree]) (ha.setQ { c, v })
  | ptr k u to =>
    rw [Ty.core.eq_def] at ha; dsimp only at ha
    rw [Ty.tree] at ha ⊢
    obtain ⟨c', to', rfl, hc, hb⟩ := alike_ptr ha
    obtain rfl := alike_nil hc
    refine ⟨_, tb3, cast ?_ (Gram.varPtr ⟨w, k.restrict, u⟩ h1 hi h2 st.mem g (tail_mem to)), .ptr _ _ (.refl _) (by have := hb.addQ to.cv; rwa [tree_addQ] at this),
      by rw [Ty.again]; exact hl, hg⟩
    rw [cv_or_self]
    simp [Ty.again, ext_code]
  | fptr k s =>
    rw [Ty.core.eq_def] at ha; dsimp only at ha
    rw [Ty.tree] at ha ⊢
    obtain ⟨c', to', rfl, hc, hb⟩ := alike_ptr ha
    obtain rfl := alike_nil hc
    have hb' := hb.addQ {}
    rw [show (T.sig (s.fsig {} {}) (s.retT E) (s.parT E)).addQ {} = .sig (s.fsig {} {}) (s.retT E) (s.parT E) by
      cases s; simp [Sig.fsig, Cxx.fsig, T.addQ, CV.or, This.cv]] at hb'
    refine ⟨_, tb3, cast ?_ (Gram.varPtr (ch := 'A') (q := {}) ⟨w, false, false⟩ h1 hi h2 st.mem g (by decide)), .ptr (k.cv false) _ (.refl _) hb',
      by rw [Ty.again]; exact hl, hg⟩
    rw [cv_or_false]
    simp [Ty.again, ext_code]
  | aptr k c v dims el =>
    rw [Ty.core.eq_def] at ha; dsimp only at ha
    rw [Ty.tree] at ha ⊢
    obtain ⟨c', to', rfl, hc, hb⟩ := alike_ptr ha
    obtain rfl := alike_nil hc
    have e : (T.array { c, v } dims (el.tree E)).addQ {} = .array { c, v } dims (el.tree E) := by simp [T.addQ, CV.or]
    have hb' := hb.addQ {}
    rw [e] at hb'
    refine ⟨_, tb3, cast ?_ (Gram.varPtr (ch := 'A') (q := {}) ⟨w, k.restrict, false⟩ h1 hi h2 st.mem g (by decide)), .ptr (k.cv false) _ (.refl _) hb',
      by rw [Ty.again]; exact hl, hg⟩
    rw [cv_or_self]
    simp [Ty.again, ext_code]
  | mptr k u cls to =>
    rw [Ty.core.eq_def] at ha; dsimp only at ha
    rw [Ty.tree] at ha ⊢
    obtain ⟨c', to', rfl, hc, hb⟩ := alike_ptr ha
    obtain ⟨n', rfl, hn⟩ := alike_one hc
    obtain ⟨n2, tb4, gn, _, hl⟩ := gc _ _ _ _ rfl _ _ hl
    refine ⟨_, tb4, cast ?_ (Gram.varMemberPtr ⟨w, k.restrict, u⟩ h1 hi h2 st.mem g (List.mem_append_right _ (memberLetter_mem to)) gn),
      .ptr _ _ hn.one (by have := hb.addQ to.cv; rwa [tree_addQ] at this), by rw [Ty.again]; exact hl, hg.trans (gram_grow gn)⟩
    rw [cv_or_self]
    simp [Ty.again, ext_code]
  | mfptr k cls q s =>
    rw [Ty.core.eq_def] at ha; dsimp only at ha
    rw [Ty.tree] at ha ⊢
    obtain ⟨c', to', rfl, hc, hb⟩ := alike_ptr ha
    obtain ⟨n', rfl, hn⟩ := alike_one hc
    obtain ⟨n2, tb4, gn, _, hl⟩ := gc' _ _ _ _ rfl _ _ hl
    have hb' := hb.addQ {}
    rw [show (T.sig (s.fsig {} q) (s.retT E) (s.parT E)).addQ {} = .sig (s.fsig {} q) (s.retT E) (s.parT E) by
      cases s; simp [Sig.fsig, Cxx.fsig, T.addQ, CV.or]] at hb'
    refine ⟨_, tb4, cast ?_ (Gram.varMemberPtr (ch := 'Q') (q := {}) ⟨w, false, false⟩ h1 hi h2 st.mem g (by decide) gn),
      .ptr (k.cv false) _ hn.one hb', by rw [Ty.again]; exact hl, hg.trans (gram_grow gn)⟩
    rw [cv_or_false]
    simp [Ty.again, ext_code]

theorem Seg.id_gram {E : Env} {L : List Seg} (hL : Distinct E L) (w : Bool) (s : Text) (h : (Seg.id s).Ok E) (hk : Sub (Seg.id s).keys L) (st : Seen) :
    Reads E L .uname st ((Seg.id s).tree E) ((Seg.id s).mangle w st).1 ((Seg.id s).mangle w st).2 := by
    intro tb hl
    rw [Seg.Ok] at h
    rw [Seg.keys] at hk
    rw [Seg.mangle, Seg.tree]
    cases hp : position (.id s) st.names with
    | some i =>
      have := hl.at (position_spec hp).2
      simp only [Seg.known, Seg.cpp] at this
      exact ⟨_, _, .uBack (position_spec hp).1 this, .refl _, hl⟩
    | none =>
      have := hl.note hL (hk (.id s) (by simp))
      simp only [Seg.known, Seg.cpp] at this
      exact ⟨_, _, .uName h, .refl _, this⟩

theorem ident_head {st : Storage} {n : Head} {p : Path} {ty : Ty} {s : Text} (h : (Decl.var st n p ty).ident = some s) : n = .id s := by
  cases n with
  | id x => simp only [Decl.ident, Option.some.injEq] at h; rw [h]
  | _ => simp [Decl.ident] at h

theorem ident_head' {k : Kind} {n : Head} {p : Path} {g : Sig} {s : Text} (h : (Decl.fn k n p g).ident = some s) : n = .id s := by
  cases n with
  | id x => simp only [Decl.ident, Option.some.injEq] at h; rw [h]
  | _ => simp [Decl.ident] at h

set_option maxHeartbeats 2000000 in
mutual
theorem Ty.gram {E : Env} {L : List Seg} (hL : Distinct E L) (w : Bool) : (t : Ty) → t.Ok E → Sub t.keys L → ∀ st : Seen,
    Reads E L .ty st (t.core E) (t.mangle w st).1 (t.mangle w st).2
  | .prim k c v, _, _, st => by
    rw [Ty.mangle]
    exact fun tb hl => ⟨_, _, .prim k, .refl _, hl⟩
  | .tag k p c v, h, hk, st => by
    rw [Ty.Ok] at h
    rw [Ty.keys] at hk
    rw [Ty.mangle]
    intro tb hl
    obtain ⟨t', tb', g, ha, hl⟩ := Path.qtn_gram hL w p h hk st tb hl
    exact ⟨_, _, .tag k g, .tag _ _ ha, hl⟩
  | .ptr k u to, h, hk, st => by
    rw [Ty.Ok] at h
    rw [Ty.keys] at hk
    intro tb hl
    obtain ⟨t', tb', g, ha, hl⟩ := Ty.gram hL w to h hk st tb hl
    rw [Ty.mangle]
    have := Gram.ptr ⟨w, k.restrict, u⟩ (pk_mem k) (letter_mem to) g
    replace ha := ha.addQ to.cv
    rw [core_addQ] at ha
    rw [pk_cv, ext_code] at this
    rw [Ty.core.eq_def]; dsimp only; rw [Ty.tree]
    exact ⟨_, _, this, .ptr _ _ (.refl _) ha, hl⟩
  | .fptr k s, h, hk, st => by
    rw [Ty.Ok] at h
    rw [Ty.keys] at hk
    intro tb hl
    obtain ⟨t', tb', g, ha, hl⟩ := Sig.gram hL w s h.2 hk st tb hl
    rw [Ty.mangle]
    have := Gram.ptrFn (pk_mem k) g
    rw [Ty.core.eq_def]; dsimp only; rw [Ty.tree]
    have e : PK.cv k false = { c := k.c, v := k.v } := by simp [PK.cv, h.1]
    rw [e]
    exact ⟨_, _, cast (by simp) this, .ptr _ _ (.refl _) ha, hl⟩
  | .aptr k c v dims el, h, hk, st => by
    rw [Ty.Ok] at h
    rw [Ty.keys] at hk
    intro tb hl
    obtain ⟨t', tb', ga, ha, hl⟩ := array_gram c v h.1 h.2.1 (Ty.gram hL w el h.2.2 hk st) tb hl
    have := Gram.ptr (ch := 'A') (q := {}) ⟨w, k.restrict, false⟩ (pk_mem k) (by decide) ga
    rw [pk_cv, ext_code] at this
    have hb := ha.addQ {}
    rw [show (T.array { c, v } dims (el.tree E)).addQ {} = .array { c, v } dims (el.tree E) by simp [T.addQ, CV.or]] at hb
    rw [Ty.core.eq_def, Ty.mangle]; dsimp only; rw [Ty.tree]
    exact ⟨_, tb', cast (by simp) this, .ptr _ _ (.refl _) hb, hl⟩
  | .mptr k u cls to, h, hk, st => by
    rw [Ty.Ok] at h
    rw [Ty.keys] at hk
    obtain ⟨h1, h2, h3, h4⟩ := h
    intro tb hl
    obtain ⟨n', tb1, g1, ha1, hl⟩ := Path.qtn_gram hL w cls h2 hk.left st tb hl
    obtain ⟨t', tb', g2, ha, hl⟩ := Ty.gram hL w to h4 hk.right (cls.mangle w st).2 tb1 hl
    have := Gram.ptrMember ⟨w, k.restrict, u⟩ (star_mem h1) (memberLetter_mem to) g1 g2
    rw [pk_cv, ext_code] at this
    replace ha := ha.setQ to.cv
    rw [core_setQ h3 (by rintro k s rfl; rw [Ty.Ok] at h4; exact h4.1) (by rintro k c q s rfl; rw [Ty.Ok] at h4; exact h4.1.2)] at ha
    rw [Ty.core.eq_def, Ty.mangle]; dsimp only; rw [Ty.tree]
    exact ⟨_, _, this, .ptr _ _ ha1.one ha, hl⟩
  | .mfptr k cls q s, h, hk, st => by
    rw [Ty.Ok] at h
    rw [Ty.keys] at hk
    obtain ⟨⟨h1, h0⟩, h2, h3⟩ := h
    intro tb hl
    obtain ⟨n', tb1, g1, ha1, hl⟩ := Path.qtn_gram hL w cls h2 hk.left st tb hl
    obtain ⟨t', tb', g2, ha, hl⟩ := Sig.gramThis hL w s h3 hk.right q (cls.mangle w st).2 tb1 hl
    have := Gram.ptrMemberFn (star_mem h1) g1 g2
    rw [Ty.core.eq_def, Ty.mangle]; dsimp only; rw [Ty.tree]
    have e : PK.cv k false = { c := k.c, v := k.v } := by simp [PK.cv, h0]
    rw [e]
    exact ⟨_, _, cast (by simp) this, .ptr _ _ ha1.one ha, hl⟩
theorem Sig.parts {E : Env} {L : List Seg} (hL : Distinct E L) (w : Bool) : (s : Sig) → s.Ok E → Sub s.keys L → ∀ (st : Seen) (tb : Tbl), st.Like E L tb →
    ∃ (cc : Char) (ne vr : Bool) (r x ps y : _) (tb1 tb2 : Tbl), Gram E .ret tb (T.one r) x tb1 ∧ Gram E (.params vr) tb1 ps y tb2 ∧
      (s.mangle w st).2.Like E L tb2 ∧ (s.mangle w st).1 = cc :: x ++ y ++ throwCode ne ∧
      (∀ k q, s.fsig k q = Cxx.fsig cc vr ne k q) ∧ Alike E r.one (s.retT E) ∧ Alike E ps (s.parT E)
  | .mk cc ret ps vr ne, h, hk, st, tb, hl => by
    rw [Sig.Ok] at h
    rw [Sig.keys] at hk
    obtain ⟨_, h2, h3, _⟩ := h
    obtain ⟨r', tb1, g1, ha1, hl⟩ := ret_gram (Ty.gram hL w ret h2 hk.left st) (ret.mangle_head w st).2.1 tb hl
    have hh := ps.mangle_head w h3 (ret.mangle w st).2
    obtain ⟨p', tb2, g2, ha2, hl⟩ := params_gram (Tys.gram hL w ps h3 hk.right (ret.mangle w st).2) hh.1 hh.2
      (fun e => by rw [hh.2] at e; subst e; rw [Tys.mangle]) vr tb1 hl
    obtain ⟨r0, rfl, _⟩ := alike_one ha1
    rw [Sig.mangle]
    refine ⟨cc, ne, vr, _, _, _, _, _, _, g1, g2, hl, ?_, fun k q => rfl, ?_, ?_⟩
    · cases ne <;> simp [throwCode]
    · rw [Sig.retT]; exact ha1
    · rw [Sig.parT]; exact ha2
theorem Sig.gram {E : Env} {L : List Seg} (hL : Distinct E L) (w : Bool) : (s : Sig) → s.Ok E → Sub s.keys L → ∀ st : Seen,
    Reads E L (.fty false) st (.sig (s.fsig {} {}) (s.retT E) (s.parT E)) (s.mangle w st).1 (s.mangle w st).2
  | s, h, hk, st => by
    intro tb hl
    obtain ⟨cc, ne, vr, r, x, ps, y, tb1, tb2, g1, g2, hl, e, e2, ha, hb⟩ := Sig.parts hL w s h hk st tb hl
    rw [e, e2]
    exact ⟨_, _, .fn cc ne g1 g2, .sig _ ha hb, hl⟩
theorem Sig.gramThis {E : Env} {L : List Seg} (hL : Distinct E L) (w : Bool) : (s : Sig) → s.Ok E → Sub s.keys L → ∀ (q : This) (st : Seen),
    Reads E L (.fty true) st (.sig (s.fsig {} q) (s.retT E) (s.parT E)) (q.code w ++ (s.mangle w st).1) (s.mangle w st).2
  | s, h, hk, q, st => by
    intro tb hl
    obtain ⟨cc, ne, vr, r, x, ps, y, tb1, tb2, g1, g2, hl, e, e2, ha, hb⟩ := Sig.parts hL w s h hk st tb hl
    rw [e, e2]
    have := Gram.fnThis ⟨w, q.restrict, q.unaligned⟩ q.ref cc ne (List.mem_append_left memberCvCodes (cvLetter_mem q.c q.v)) g1 g2
    rw [this_cv] at this
    rw [← this_code]
    refine ⟨.sig (Cxx.fsig cc vr ne {} q) r.one ps, tb2, ?_, .sig _ ha hb, hl⟩
    exact cast (by simp [Cxx.fsig]) this
theorem Tys.gram {E : Env} {L : List Seg} (hL : Distinct E L) (w : Bool) : (ts : Tys) → ts.Ok E → Sub ts.keys L → ∀ st : Seen,
    Reads E L .plist st (ts.tree E) (ts.mangle w st).1 (ts.mangle w st).2
  | .nil, _, _, st => by rw [Tys.mangle, Tys.tree]; exact fun tb hl => ⟨_, _, .pNil, .refl _, hl⟩
  | .cons t ts, h, hk, st => by
    rw [Tys.Ok] at h
    rw [Tys.keys] at hk
    rw [Tys.mangle, Tys.tree]
    intro tb hl
    cases hp : position t st.types with
    | some i =>
      obtain ⟨h1, h2⟩ := position_spec hp
      obtain ⟨t', ht, ha⟩ := hl.types i t h2
      obtain ⟨ts', tb', g, hb, hl⟩ := Tys.gram hL w ts h.2.2.2 hk.right st tb hl
      exact ⟨_, _, .pBack h1 ht g, .cons ha hb, hl⟩
    | none =>
      obtain ⟨t', tb1, g, ha, hl⟩ := Ty.gram hL w t h.2.2.1 hk.left st tb hl
      rw [Ty.core_of_unq h.2.1] at ha
      dsimp only
      by_cases hlen : (t.mangle w st).1.length = 1
      · rw [if_pos hlen]
        obtain ⟨ts', tb', g', hb, hl⟩ := Tys.gram hL w ts h.2.2.2 hk.right _ tb1 hl
        exact ⟨_, _, .pLetter g hlen g', .cons ha hb, hl⟩
      · rw [if_neg hlen]
        obtain ⟨ts', tb', g', hb, hl⟩ := Tys.gram hL w ts h.2.2.2 hk.right _ _ (hl.noteType t ha)
        exact ⟨_, _, .pType g hlen g', .cons ha hb, hl⟩
theorem Path.qtn_gram {E : Env} {L : List Seg} (hL : Distinct E L) (w : Bool) : (p : Path) → p.IsType E → Sub p.keys L → ∀ st : Seen,
    Reads E L .qtn st (.qname (p.tree E)) (p.mangle w st).1 (p.mangle w st).2
  | .nil, h, _, _ => by simp [Path.IsType] at h
  | .cons s p, h, hk, st => by
    rw [Path.IsType] at h
    rw [Path.keys] at hk
    rw [Path.mangle, Path.tree]
    intro tb hl
    obtain ⟨s', tb1, g1, ha, hl⟩ := Seg.uname_gram hL w s h.2.1 h.1 hk.left st tb hl
    obtain ⟨p', tb2, g2, hb, hl⟩ := Path.scopes_gram hL w p h.2.2 hk.right _ tb1 hl
    exact ⟨_, _, .qtn g1 g2, .qname (hb.snoc ha), hl⟩
theorem Path.scopes_gram {E : Env} {L : List Seg} (hL : Distinct E L) (w : Bool) : (p : Path) → p.Ok E → Sub p.keys L → ∀ st : Seen,
    Reads E L .scopes st (p.tree E) (p.mangle w st).1 (p.mangle w st).2
  | .nil, _, _, st => by rw [Path.mangle, Path.tree]; exact fun tb hl => ⟨_, _, .scNil, .refl _, hl⟩
  | .cons s p, h, hk, st => by
    rw [Path.Ok] at h
    rw [Path.keys] at hk
    rw [Path.mangle, Path.tree]
    intro tb hl
    obtain ⟨s', tb1, g1, ha, hl⟩ := Seg.piece_gram hL w s h.1 hk.left st tb hl
    obtain ⟨p', tb2, g2, hb, hl⟩ := Path.scopes_gram hL w p h.2 hk.right _ tb1 hl
    exact ⟨_, _, .scCons g1 g2, hb.snoc ha, hl⟩
theorem Seg.piece_gram {E : Env} {L : List Seg} (hL : Distinct E L) (w : Bool) : (s : Seg) → s.Ok E → Sub s.keys L → ∀ st : Seen,
    Reads E L .piece st (s.tree E) (s.mangle w st).1 (s.mangle w st).2
  | .id s, h, hk, st => by
    intro tb hl
    obtain ⟨t', tb', g, ha, hl⟩ := Seg.id_gram hL w s h hk st tb hl
    exact ⟨t', tb', .scName g, ha, hl⟩
  | .tm s as, h, hk, st => by
    intro tb hl
    obtain ⟨t', tb', g, ha, hl⟩ := Seg.tm_gram hL w s as h hk st tb hl
    exact ⟨t', tb', .scName g, ha, hl⟩
  | .anon key, h, hk, st => by
    intro tb hl
    rw [Seg.Ok] at h
    rw [Seg.keys] at hk
    rw [Seg.mangle, Seg.tree]
    exact ⟨_, _, .scAnon h, .refl _, hl.note hL (hk (.anon key) (by simp))⟩
  | .loc n d, h, hk, st => by
    intro tb hl
    rw [Seg.Ok] at h
    rw [Seg.keys] at hk
    rw [Seg.mangle, Seg.tree]
    obtain ⟨t', x, tb', hd⟩ := Decl.gram hL w d h.2.2 hk st tb hl
    have ht : t'.text E = d.cpp E := by
      rw [hd.alike.text_eq]
      exact (Decl.pr_eq d h.2.2 [] (Ctx.nil E)).trans (List.nil_append _)
    have e : localName E t' n = (Seg.loc n d).cpp E := by rw [localName, ht, Seg.cpp]
    have := Gram.scLocal (encode_scope h.1.1 h.1.2) hd.sym (by rw [e]; exact h.2.1)
    rw [e, ← hd.eq] at this
    exact ⟨_, _, cast (by simp) this, .refl _, hd.like⟩
theorem Seg.uname_gram {E : Env} {L : List Seg} (hL : Distinct E L) (w : Bool) : (s : Seg) → s.Ok E → s.isName → Sub s.keys L → ∀ st : Seen,
    Reads E L .uname st (s.tree E) (s.mangle w st).1 (s.mangle w st).2
  | .id s, h, _, hk, st => Seg.id_gram hL w s h hk st
  | .tm s as, h, _, hk, st => Seg.tm_gram hL w s as h hk st
  | .anon _, _, hn, _, _ => nomatch hn
  | .loc _ _, _, hn, _, _ => nomatch hn
theorem Seg.tm_gram {E : Env} {L : List Seg} (hL : Distinct E L) (w : Bool) : (s : Text) → (as : Args) → (Seg.tm s as).Ok E → Sub (Seg.tm s as).keys L → ∀ st : Seen,
    Reads E L .uname st ((Seg.tm s as).tree E) ((Seg.tm s as).mangle w st).1 ((Seg.tm s as).mangle w st).2
  | s, as, h, hk, st => by
    intro tb hl
    have hpr := Seg.pr_eq (.tm s as) h
    rw [Seg.Ok] at h
    rw [Seg.keys] at hk
    rw [Seg.mangle]
    cases hp : position (.tm s as) st.names with
    | some i =>
      have := hl.at (position_spec hp).2
      simp only [Seg.known] at this
      refine ⟨_, _, .uBack (position_spec hp).1 this, ?_, hl⟩
      rw [Seg.tree] at hpr ⊢
      exact .text hpr
    | none =>
      have h0 := (Seen.like_nil E L).note hL (hk (.id s) (by simp))
      simp only [Seg.known, Seg.cpp] at h0
      obtain ⟨a', tb2, g, ha, _⟩ := Args.gram hL w as h.2.2 hk.right _ _ h0
      have hal : Alike E (.named s (T.one (.arr a'))) (Seg.tree E (.tm s as)) := by
        rw [Seg.tree]
        exact .named _ (Alike.arr ha).one
      have ht : (T.named s (T.one (.arr a'))).text E = (Seg.tm s as).cpp E := by
        rw [hal.text_eq]
        unfold T.text
        rw [hpr]
        rfl
      have := Gram.uTmpl (tmpl_gram h.1 g tb) rfl (by rw [ht]; exact h.2.1)
      rw [ht] at this
      have h1 := hl.note hL (hk (.tm s as) (by simp))
      simp only [Seg.known] at h1
      exact ⟨_, _, this, hal, h1⟩
theorem Args.gram {E : Env} {L : List Seg} (hL : Distinct E L) (w : Bool) : (as : Args) → as.Ok E → Sub as.keys L → ∀ st : Seen,
    Reads E L .targs st (as.tree E) (as.mangle w st).1 (as.mangle w st).2
  | .nil, _, _, st => by rw [Args.mangle, Args.tree]; exact fun tb hl => ⟨_, _, .taNil, .refl _, hl⟩
  | .ty t as, h, hk, st => by
    rw [Args.Ok] at h
    rw [Args.keys] at hk
    rw [Args.mangle, Args.tree]
    intro tb hl
    obtain ⟨t', tb1, g1, ha, hl⟩ := arg_gram (Ty.gram hL w t h.1 hk.left st) tb hl
    obtain ⟨as', tb2, g2, hb, hl⟩ := Args.gram hL w as h.2 hk.right _ tb1 hl
    exact ⟨_, _, .taCons g1 g2, .cons ha hb, hl⟩
  | .int neg n as, h, hk, st => by
    rw [Args.Ok] at h
    rw [Args.keys] at hk
    rw [Args.mangle, Args.tree]
    intro tb hl
    have e := encode_spec n h.1
    have : EncInt ((if neg then c!"?" else []) ++ encode n) n neg := by
      cases neg
      · exact .pos e
      · exact .neg e
    obtain ⟨as', tb2, g2, hb, hl⟩ := Args.gram hL w as h.2 hk _ tb hl
    exact ⟨_, _, cast (by simp) (Gram.taCons (.aInt (m := false) this) g2), .cons (.refl _) hb, hl⟩
  | .pack as, h, hk, st => by
    rw [Args.Ok] at h
    rw [Args.keys] at hk
    rw [Args.mangle, Args.tree]
    intro tb hl
    obtain ⟨as', tb2, g2, hb, hl⟩ := Args.gram hL w as h hk _ tb hl
    exact ⟨_, _, .taPack (by decide) g2, hb, hl⟩
  | .fn s as, h, hk, st => by
    rw [Args.Ok] at h
    rw [Args.keys] at hk
    rw [Args.mangle, Args.tree]
    intro tb hl
    obtain ⟨t', tb1, g1, ha, hl⟩ := Sig.gram hL w s h.1 hk.left st tb hl
    obtain ⟨as', tb2, g2, hb, hl⟩ := Args.gram hL w as h.2 hk.right _ tb1 hl
    exact ⟨_, _, .taCons (.aType (.fnType g1)) g2, .cons ha hb, hl⟩
  | .mfn q s as, h, hk, st => by
    rw [Args.Ok] at h
    rw [Args.keys] at hk
    rw [Args.mangle, Args.tree]
    intro tb hl
    obtain ⟨t', tb1, g1, ha, hl⟩ := Sig.gramThis hL w s h.1 hk.left q st tb hl
    obtain ⟨as', tb2, g2, hb, hl⟩ := Args.gram hL w as h.2 hk.right _ tb1 hl
    exact ⟨_, _, cast (by simp) (Gram.taCons (.aType (.fnTypeThis g1)) g2), .cons ha hb, hl⟩
  | .arr c v dims el as, h, hk, st => by
    rw [Args.Ok] at h
    rw [Args.keys] at hk
    rw [Args.mangle, Args.tree]
    intro tb hl
    obtain ⟨t', tb1, g1, ha, hl⟩ := array_gram c v h.1 h.2.1 (Ty.gram hL w el h.2.2.1 hk.left st) tb hl
    obtain ⟨as', tb2, g2, hb, hl⟩ := Args.gram hL w as h.2.2.2 hk.right _ tb1 hl
    exact ⟨_, _, cast (by simp) (Gram.taCons (.aTypeB g1) g2), .cons ha hb, hl⟩
  | .tmpl p as, h, hk, st => by
    rw [Args.Ok] at h
    rw [Args.keys] at hk
    rw [Args.mangle, Args.tree]
    intro tb hl
    obtain ⟨t', tb1, g1, ha, hl⟩ := Path.qtn_gram hL w p h.1 hk.left st tb hl
    obtain ⟨as', tb2, g2, hb, hl⟩ := Args.gram hL w as h.2 hk.right _ tb1 hl
    exact ⟨_, _, .taCons (.aName g1) g2, .cons ha hb, hl⟩
  | .addr d as, h, hk, st => by
    rw [Args.Ok] at h
    rw [Args.keys] at hk
    rw [Args.mangle, Args.tree]
    intro tb hl
    obtain ⟨⟨s, hs, hf⟩, h1, h2⟩ := h
    obtain ⟨t', x, tb1, hd⟩ := Decl.gram hL w d h1 hk.left st tb hl
    obtain ⟨as', tb2, g2, hb, hl⟩ := Args.gram hL w as h2 hk.right _ tb1 hd.like
    obtain ⟨hi, hn⟩ := hd.ident s hs
    have ht : (T.named s .nil).text E = s := by simp [T.text, T.pr, Pr.ofText, targsOut, Pr.nil]
    have := Gram.aSym (m := false) (ch := '1') (offs := []) (by decide) hd.sym hi (by rw [ht]; exact hf) .nil
    rw [ht, hn, ← hd.eq] at this
    exact ⟨_, _, cast (by simp) (Gram.taCons this g2), .cons (.addr _ _ hd.alike.one) hb, hl⟩
  | .ref d as, h, hk, st => by
    rw [Args.Ok] at h
    rw [Args.keys] at hk
    rw [Args.mangle, Args.tree]
    intro tb hl
    obtain ⟨t', x, tb1, hd⟩ := Decl.gram hL w d h.1 hk.left st tb hl
    obtain ⟨as', tb2, g2, hb, hl⟩ := Args.gram hL w as h.2 hk.right _ tb1 hd.like
    have := Gram.aRef (m := false) hd.sym
    rw [← hd.eq] at this
    exact ⟨_, _, .taCons this g2, .cons (.addr _ _ hd.alike.one) hb, hl⟩
  | .memFn d offs as, h, hk, st => by
    rw [Args.Ok] at h
    rw [Args.keys] at hk
    rw [Args.mangle, Args.tree]
    intro tb hl
    obtain ⟨⟨⟨s, hs, hf⟩, hm, ho⟩, h1, h2⟩ := h
    obtain ⟨t', x, tb1, hd⟩ := Decl.gram hL w d h1 hk.left st tb hl
    obtain ⟨as', tb2, g2, hb, hl⟩ := Args.gram hL w as h2 hk.right _ tb1 hd.like
    obtain ⟨hi, hn⟩ := hd.ident s hs
    obtain ⟨ch, hc, hm⟩ := memFn_mem hm
    have ht : (T.named s .nil).text E = s := by simp [T.text, T.pr, Pr.ofText, targsOut, Pr.nil]
    have := Gram.aSym (m := false) hm hd.sym hi (by rw [ht]; exact hf) (offs_enc ho)
    rw [ht, hn, ← hd.eq] at this
    exact ⟨_, _, cast (by simp [hc]) (Gram.taCons this g2), .cons (.addr _ _ hd.alike.one) hb, hl⟩
  | .memData offs as, h, hk, st => by
    rw [Args.Ok] at h
    rw [Args.keys] at hk
    rw [Args.mangle, Args.tree]
    intro tb hl
    obtain ⟨ch, hc, hm⟩ := memData_mem h.1.1
    have := Gram.aData (E := E) (tb := tb) (m := false) hm (offs_enc h.1.2)
    obtain ⟨as', tb2, g2, hb, hl⟩ := Args.gram hL w as h.2 hk _ tb hl
    exact ⟨_, _, cast (by simp [hc]) (Gram.taCons this g2), .cons (.refl _) hb, hl⟩
/-- Constructors, destructors, operators and conversions, possibly templates. -/
theorem Targs.gram {E : Env} {L : List Seg} (hL : Distinct E L) (w : Bool) : (ta : Targs) → ta.Ok E → Sub ta.keys L →
    ∀ {code : Text} {mk : T → T}, (∀ tb, Gram E .fid tb (mk .nil) code tb) → (∀ a, (mk .nil).withArgs a = mk (T.one (.arr a))) → ∀ tb,
    ∃ TA, Gram E .sname tb (mk TA) (ta.mangle w code) tb ∧ Alike E TA (ta.tree E)
  | .none, _, _, code, mk, g0, _, tb => by
    rw [Targs.mangle, Targs.tree]
    exact ⟨.nil, .sFull (g0 tb), .refl _⟩
  | .some as, h, hk, code, mk, g0, hmk, tb => by
    rw [Targs.Ok] at h
    rw [Targs.keys] at hk
    rw [Targs.mangle, Targs.tree]
    obtain ⟨a', tb2, g, ha, _⟩ := Args.gram hL w as h hk _ _ (Seen.like_nil E L)
    exact ⟨T.one (.arr a'), hmk a' ▸ .sTmpl (.tmpl (g0 {}) g), (Alike.arr ha).one⟩
theorem Head.gram {E : Env} {L : List Seg} (hL : Distinct E L) (w : Bool) : (n : Head) → n.Ok E → Sub n.keys L → ∀ (st : Seen) (tb : Tbl), st.Like E L tb →
    ∃ (i : T) (tb' : Tbl), Gram E .sname tb i (n.mangle w st).1 tb' ∧ i.isPlain = true ∧ T.known i = true ∧ Alike E i (n.tree E) ∧
      (n.mangle w st).2.Like E L tb' ∧ ∀ s, n = .id s → i = .named s .nil
  | .id s, h, hk, st, tb, hl => by
    rw [Head.Ok] at h
    rw [Head.keys] at hk
    rw [Head.mangle, Head.tree]
    cases hp : position (.id s) st.names with
    | some i =>
      have := hl.at (position_spec hp).2
      simp only [Seg.known, Seg.cpp] at this
      exact ⟨_, _, .sBack (position_spec hp).1 this, rfl, rfl, .refl _, hl, by simp⟩
    | none =>
      have := hl.note hL (hk (.id s) (by simp))
      simp only [Seg.known, Seg.cpp] at this
      exact ⟨_, _, .sFull (.fName h), rfl, rfl, .refl _, this, by simp⟩
  | .tm s as, h, hk, st, tb, hl => by
    rw [Head.Ok] at h
    rw [Head.keys] at hk
    rw [Head.mangle, Head.tree]
    have h0 := (Seen.like_nil E L).note hL (hk (.id s) (by simp))
    simp only [Seg.known, Seg.cpp] at h0
    obtain ⟨a', tb2, g, ha, _⟩ := Args.gram hL w as h.2 hk.right _ _ h0
    exact ⟨_, _, .sTmpl (tmpl_gram h.1 g tb), rfl, rfl, .named _ (Alike.arr ha).one, hl, by simp⟩
  | .op o ta, h, hk, st, tb, hl => by
    rw [Head.Ok] at h
    rw [Head.keys] at hk
    rw [Head.mangle, Head.tree]
    obtain ⟨TA, g, ha⟩ := Targs.gram hL w ta h hk (mk := .op (some o)) (fun tb => op_gram E tb o) (fun _ => rfl) tb
    exact ⟨_, _, g, rfl, rfl, .op _ ha, hl, by simp⟩
  | .lit s, h, hk, st, tb, hl => by
    rw [Head.Ok] at h
    rw [Head.mangle, Head.tree]
    exact ⟨_, _, .sFull (.fLit h.1 h.2), rfl, rfl, .refl _, hl, by simp⟩
theorem Decl.gram {E : Env} {L : List Seg} (hL : Distinct E L) (w : Bool) : (d : Decl) → d.Ok E → Sub d.keys L → ∀ (st : Seen) (tb : Tbl), st.Like E L tb →
    ∃ (t' : T) (x : Text) (tb' : Tbl), ReadsDecl E L w d st tb t' x tb'
  | .var st n p ty, h, hk, seen, tb, hl => by
    rw [Decl.Ok] at h
    rw [Decl.keys] at hk
    obtain ⟨h1, h2, h3⟩ := h
    obtain ⟨i, tb1, g1, hp, hkn, hi, hl, hid⟩ := Head.gram hL w n h1 hk.left.left seen tb hl
    obtain ⟨ps, tb2, g2, ha, hl⟩ := Path.scopes_gram hL w p h2 hk.left.right _ _ hl
    obtain ⟨ty', tb', g, hty, hl, hg⟩ := var_gram w (st := st) g1 hp g2 hl (Ty.gram hL w ty h3 hk.right _)
      (by rintro k u cls to rfl st; rw [Ty.Ok] at h3; rw [Ty.keys] at hk; exact Path.qtn_gram hL w cls h3.2.1 hk.right.left st)
      (by rintro k cls q s rfl st; rw [Ty.Ok] at h3; rw [Ty.keys] at hk; exact Path.qtn_gram hL w cls h3.2.1 hk.right.left st)
    refine ⟨_, _, tb', g, by rw [Decl.mangle]; simp, free_of g1 hkn, ?_, by rw [Decl.mangle]; exact hl, ?_⟩
    · rw [Decl.tree]
      exact .var _ (.qname (ha.snoc hi)) hty.one
    · intro s hs
      have hn : n = .id s := ident_head hs
      obtain rfl := hid s hn
      exact ⟨snoc_last _ _ (scopes_tl g2), note_known (known_grow (sname_known g1) ((gram_grow g2).trans hg))⟩
  | .fn k n p s, h, hk, seen, tb, hl => by
    rw [Decl.Ok] at h
    rw [Decl.keys] at hk
    obtain ⟨h0, h1, h2, h3⟩ := h
    obtain ⟨i, tb1, g1, hp, hkn, hi, hl, hid⟩ := Head.gram hL w n h1 hk.left.left seen tb hl
    obtain ⟨ps, tb2, g2, ha, hl⟩ := Path.scopes_gram hL w p h2 hk.left.right _ _ hl
    obtain ⟨cc, ne, vr, r, x, prs, y, tb3, tb4, g3, g4, hl, e, e2, hr, hq⟩ := Sig.parts hL w s h3 hk.right _ tb2 hl
    have gf := Kind.fenc w k h0 (cc := cc) (ne := ne) g3 g4
    have g := Gram.func g1 hp g2 gf
    refine ⟨_, _, tb4, g, by rw [Decl.mangle]; simp [e], free_of g1 hkn, ?_, by rw [Decl.mangle]; exact hl, ?_⟩
    · rw [Decl.tree, e2]
      exact .fn (.qname (ha.snoc hi)) (k.wrap_alike _ hr hq)
    · intro s hs
      have hn : n = .id s := ident_head' hs
      obtain rfl := hid s hn
      exact ⟨snoc_last _ _ (scopes_tl g2), note_known (known_grow (sname_known g1) ((gram_grow g2).trans (gram_grow gf)))⟩
  | .structor d ta k s p cc ps vr ne, h, hk, seen, tb, hl => by
    rw [Decl.Ok] at h
    rw [Decl.keys] at hk
    obtain ⟨⟨h1, h2, h3⟩, h4, h5, h6, h7, h8⟩ := h
    have g0 : ∀ tb, Gram E .fid tb (.structor d .nil .nil) (if d then c!"?1" else c!"?0") tb := by
      intro tb
      cases d
      · exact .fCtor
      · exact .fDtor
    obtain ⟨TA, g1, hTA⟩ := Targs.gram hL w ta h4 hk.left.left.left (mk := .structor d .nil) g0 (fun _ => rfl) tb
    obtain ⟨s', tb1, g2, ha, hl⟩ := Seg.uname_gram hL w s h6 h5 hk.left.left.right seen tb hl
    obtain ⟨p', tb2, g3, hb, hl⟩ := Path.scopes_gram hL w p h7 hk.left.right _ tb1 hl
    have hh := ps.mangle_head w h8 (p.mangle w (s.mangle w seen).2).2
    obtain ⟨p2, tb3, g4, ha2, hl⟩ := params_gram (Tys.gram hL w ps h8 hk.right _) hh.1 hh.2
      (fun e => by rw [hh.2] at e; subst e; rw [Tys.mangle]) vr tb2 hl
    have gf := Kind.fenc w k h1 (cc := cc) (ne := ne) .retNone g4
    have hpl : s'.isPlain = true := by rw [ha.plain]; cases s <;> first | (rw [Seg.tree]; rfl) | cases h5
    have g := Gram.structor g1 (.scCons (.scName g2) g3) hpl gf
    refine ⟨_, _, tb3, g, ?_, free_of g1 rfl, ?_, by rw [Decl.mangle]; exact hl, fun s hs => by cases hs⟩
    · rw [Decl.mangle]
      cases ne <;> simp [throwCode]
    · rw [Decl.tree]
      exact .fn (.qname ((hb.snoc ha).snoc (.structor d ha.one hTA))) (k.wrap_alike _ (.refl _) ha2)
  | .conv ta k p s, h, hk, seen, tb, hl => by
    rw [Decl.Ok] at h
    rw [Decl.keys] at hk
    obtain ⟨h0, h1, h2, h3⟩ := h
    obtain ⟨TA, g1, hTA⟩ := Targs.gram hL w ta h1 hk.left.left (mk := fun a => .conv a .nil) (fun _ => .fConv) (fun _ => rfl) tb
    obtain ⟨ps, tb2, g2, ha, hl⟩ := Path.scopes_gram hL w p h2 hk.left.right _ _ hl
    obtain ⟨cc, ne, vr, r, x, prs, y, tb3, tb4, g3, g4, hl, e, e2, hr, hq⟩ := Sig.parts hL w s h3 hk.right _ tb2 hl
    have gf := Kind.fenc w k h0 (cc := cc) (ne := ne) g3 g4
    have g : Gram E .decl tb (.fn (.qname (ps.snoc (.conv TA (T.one r)))) (k.wrap (Cxx.fsig cc vr ne k.fk k.this) (T.one r) prs))
        (ta.mangle w c!"?B" ++ (p.mangle w seen).1 ++ (k.code ++ k.thisCode w ++ (cc :: x ++ y ++ throwCode ne))) tb4 := by
      cases k <;> first | exact .conv g1 g2 gf | exact .convThunk g1 g2 gf
    refine ⟨_, _, tb4, g, ?_, free_of g1 rfl, ?_, by rw [Decl.mangle]; exact hl, fun s hs => by cases hs⟩
    · rw [Decl.mangle]; simp [e]
    · rw [Decl.tree, e2]
      exact .fn (.qname (ha.snoc (.conv hTA hr))) (k.wrap_alike _ hr hq)
end

end Spec.Cxx
end Undname
