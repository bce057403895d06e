/-
  Whatever coins the mangler of `Spec/Mixed.lean` tosses, the name costs the demangler no more nodes than the one that
  is written without any back-references.
-/
import Verif.Spec.MixedNodes
import Verif.Proof.Mixed

namespace Undname
open Spec
namespace Spec.Cxx

theorem length_le_of_subset {α : Type} [DecidableEq α] : {l m : List α} → l.Nodup → l ⊆ m → l.length ≤ m.length
  | [], _, _, _ => by simp
  | a :: l, m, hn, hs => by
    rw [List.nodup_cons] at hn
    have ha : a ∈ m := hs (by simp)
    have h1 : l ⊆ m.erase a := fun x hx => (List.mem_erase_of_ne (by intro e; subst e; exact hn.1 hx)).2 (hs (by simp [hx]))
    have h2 := length_le_of_subset hn.2 h1
    have h3 := List.length_erase_of_mem ha
    have h4 := List.length_pos_of_mem ha
    simp only [List.length_cons]; omega

theorem mem_of_position {α : Type} [DecidableEq α] {a : α} {l : List α} {i : Nat} (h : position a l = some i) : a ∈ l := by
  rw [position] at h
  have : a ∈ l.take 10 := by
    by_cases hm : a ∈ l.take 10
    · exact hm
    · rw [List.idxOf?_eq_none_iff.2 hm] at h
      cases h
  exact List.mem_of_mem_take this

/-- What walking a part of a name does to the memory of names. -/
structure Grows (n : Nat) (a b : Pen) : Prop where
  lo : a.names.length ≤ b.names.length
  hi : b.names.length ≤ n + a.names.length
  sub : a.names ⊆ b.names
  off : a.coins = (fun _ => false) → b.coins = (fun _ => false)

theorem Grows.refl (n : Nat) (a : Pen) : Grows n a a := ⟨Nat.le_refl _, by omega, fun _ h => h, id⟩
theorem Grows.trans {n m k : Nat} {a b c : Pen} (h : Grows n a b) (g : Grows m b c) (e : n + m ≤ k) : Grows k a c :=
  ⟨Nat.le_trans h.lo g.lo, by have := h.hi; have := g.hi; omega, fun _ x => g.sub (h.sub x), fun x => g.off (h.off x)⟩
theorem Grows.mono {n k : Nat} {a b : Pen} (h : Grows n a b) (e : n ≤ k) : Grows k a b :=
  ⟨h.lo, by have := h.hi; omega, h.sub, h.off⟩
theorem Grows.tick (n : Nat) (a : Pen) : Grows n a a.tick :=
  ⟨Nat.le_refl _, by simp [Pen.tick], fun _ h => h, fun h => by simp [Pen.tick, h]⟩
theorem Grows.odds (n : Nat) (a : Pen) : Grows n a a.odds :=
  ⟨Nat.le_refl _, by simp [Pen.odds], fun _ h => h, fun h => by simp [Pen.odds, h]⟩
theorem Pen.note_length (a : Pen) (s : Seg) : (a.note s).names.length = a.names.length + a.cost s := by
  simp only [Pen.note, Seen.note, Seen.cost]; split <;> simp
theorem Grows.note (a : Pen) (s : Seg) : Grows (a.cost s) a (a.note s) := by
  refine ⟨by rw [Pen.note_length]; omega, by rw [Pen.note_length]; omega, ?_, id⟩
  simp only [Pen.note, Seen.note]; split
  · exact fun _ h => List.mem_append_left _ h
  · exact fun _ h => h
theorem Pen.noteType_names (a : Pen) (t : Ty) : (a.noteType t).names = a.names := by
  simp only [Pen.noteType, Seen.noteType]; split <;> rfl
theorem Grows.noteType (n : Nat) (a : Pen) (c : Prop) [Decidable c] (t : Ty) : Grows n a (if c then a else a.noteType t) := by
  split
  · exact .refl n a
  · exact ⟨by simp [Pen.noteType_names], by simp [Pen.noteType_names], by simp [Pen.noteType_names], id⟩

/-- One mangler, with coins, and one without remember names: the other remembers at least as many. -/
structure Fewer (a b : Pen) : Prop where
  nodup : a.names.Nodup
  few : a.names.length ≤ 10
  off : b.coins = fun _ => false
  sub : 10 ≤ b.names.length ∨ a.names ⊆ b.names

theorem Fewer.len {a b : Pen} (h : Fewer a b) : a.names.length ≤ b.names.length := by
  rcases h.sub with s | s
  · have := h.few; omega
  · exact length_le_of_subset h.nodup s
theorem Fewer.right {a b c : Pen} {n : Nat} (h : Fewer a b) (g : Grows n b c) : Fewer a c :=
  ⟨h.nodup, h.few, g.off h.off, by
    rcases h.sub with s | s
    · exact .inl (by have := g.lo; omega)
    · exact .inr fun _ x => g.sub (s x)⟩
theorem Fewer.names {a b c : Pen} (h : Fewer a b) (e : c.names = a.names) : Fewer c b :=
  ⟨by rw [e]; exact h.nodup, by rw [e]; exact h.few, h.off, by rw [e]; exact h.sub⟩
theorem Fewer.tick {a b : Pen} (h : Fewer a b) : Fewer a.tick b.tick := (h.right (.tick 0 b)).names rfl
theorem Fewer.odds {a b : Pen} (h : Fewer a b) : Fewer a.odds b.odds := (h.right (.odds 0 b)).names rfl
theorem Fewer.evens {a b : Pen} (h : Fewer a b) : Fewer a.evens b.evens :=
  ⟨by simp [Pen.evens], by simp [Pen.evens], by simp [Pen.evens, h.off], .inr (by simp [Pen.evens])⟩
theorem Fewer.noteType {a b : Pen} (h : Fewer a b) (c c' : Prop) [Decidable c] [Decidable c'] (t t' : Ty) :
    Fewer (if c then a else a.noteType t) (if c' then b else b.noteType t') := by
  refine (h.right (.noteType 0 b c' t')).names ?_
  split
  · rfl
  · exact Pen.noteType_names a t
theorem Fewer.note {a b : Pen} (h : Fewer a b) (s : Seg) : Fewer (a.note s) (b.note s) := by
  have g := h.right (.note b s)
  have hs : 10 ≤ (b.note s).names.length ∨ s ∈ (b.note s).names := by
    simp only [Pen.note, Seen.note]; split
    · exact .inr (by simp)
    · by_cases hb : s ∈ b.names
      · exact .inr hb
      · rename_i q
        exact .inl (by have : ¬ b.names.length < 10 := fun z => q ⟨z, hb⟩
                       omega)
  by_cases c : a.names.length < 10 ∧ s ∉ a.names
  · have e : (a.note s).names = a.names ++ [s] := by simp [Pen.note, Seen.note, c]
    refine ⟨?_, ?_, g.off, ?_⟩
    · rw [e]
      refine List.nodup_append.2 ⟨h.nodup, by simp, ?_⟩
      intro x hx y hy e1
      simp only [List.mem_singleton] at hy
      subst hy e1
      exact c.2 hx
    · rw [e, List.length_append, List.length_singleton]; omega
    · rcases g.sub with q | q
      · exact .inl q
      · rcases hs with r | r
        · exact .inl r
        · refine .inr ?_
          rw [e]
          intro x hx
          rcases List.mem_append.1 hx with hx | hx
          · exact q hx
          · rw [List.mem_singleton] at hx; subst hx; exact r
  · exact g.names (by simp [Pen.note, Seen.note, c])

/-- Two walks through a part of a name, with coins and without: the former has no higher costs, apart from those of names
that the latter has remembered before. -/
structure Cheap (n m : Nat) (a b a' b' : Pen) : Prop where
  le : Fewer a' b'
  cost : n + a.names.length + b'.names.length ≤ m + b.names.length + a'.names.length

theorem Pen.pick_off {st : Pen} (h : st.coins = fun _ => false) (o : Option Nat) : st.pick o = none := by
  simp [Pen.pick, h]
theorem Pen.pick_mem {α : Type} [DecidableEq α] {st : Pen} {x : α} {l : List α} {i : Nat} (h : st.pick (position x l) = some i) : x ∈ l := by
  simp only [Pen.pick] at h
  split at h
  · exact mem_of_position h
  · cases h

section
variable (w : Bool)

mutual
theorem Ty.grows : (x : Ty) → (st : Pen) → Grows (x.mixNodes w st) st (x.mix w st).2
  | .prim .., st => by
    simp only [Ty.mix, Ty.mixNodes]
    exact .refl _ st
  | .tag k p _ _, st => by
    simp only [Ty.mix, Ty.mixNodes]
    exact (p.grows st).mono (by omega)
  | .ptr k u to, st => by
    simp only [Ty.mix, Ty.mixNodes]
    exact (to.grows st).mono (by omega)
  | .fptr k s, st => by
    simp only [Ty.mix, Ty.mixNodes]
    exact (s.grows st).mono (by omega)
  | .aptr k c v dims el, st => by
    simp only [Ty.mix, Ty.mixNodes]
    exact (el.grows st).mono (by omega)
  | .mptr k u cls to, st => by
    simp only [Ty.mix, Ty.mixNodes]
    exact ((cls.grows st).trans (to.grows (cls.mix w st).2) (Nat.le_refl _)).mono (by omega)
  | .mfptr k cls q s, st => by
    simp only [Ty.mix, Ty.mixNodes]
    exact ((cls.grows st).trans (s.grows (cls.mix w st).2) (Nat.le_refl _)).mono (by omega)
theorem Sig.grows : (x : Sig) → (st : Pen) → Grows (x.mixNodes w st) st (x.mix w st).2
  | .mk cc ret ps variadic noexc, st => by
    simp only [Sig.mix, Sig.mixNodes]
    exact ((ret.grows st).trans (ps.grows (ret.mix w st).2) (Nat.le_refl _)).mono (by omega)
theorem Tys.grows : (x : Tys) → (st : Pen) → Grows (x.mixNodes w st) st (x.mix w st).2
  | .nil, st => by
    simp only [Tys.mix, Tys.mixNodes]
    exact .refl _ st
  | .cons t ts, st => by
    simp only [Tys.mix, Tys.mixNodes]
    cases hp : st.pick (position t st.types) with
    | some i => exact (Grows.tick 0 st).trans (ts.grows st.tick) (by dsimp only; omega)
    | none =>
      exact (Grows.tick 0 st).trans (((t.grows st.tick).trans (Grows.noteType 0 _ ((t.mix w st.tick).1.length = 1) t) (Nat.le_refl _)).trans
        (ts.grows _) (Nat.le_refl _)) (by dsimp only; omega)
theorem Path.grows : (x : Path) → (st : Pen) → Grows (x.mixNodes w st) st (x.mix w st).2
  | .nil, st => by
    simp only [Path.mix, Path.mixNodes]
    exact .refl _ st
  | .cons s p, st => by
    simp only [Path.mix, Path.mixNodes]
    exact ((s.grows st).trans (p.grows (s.mix w st).2) (Nat.le_refl _)).mono (by omega)
theorem Seg.grows : (x : Seg) → (st : Pen) → Grows (x.mixNodes w st) st (x.mix w st).2
  | .id s, st => by
    simp only [Seg.mix, Seg.mixNodes]
    cases hp : st.pick (position (Seg.id s) st.names) with
    | some i => exact .tick 0 st
    | none => exact (Grows.tick 0 st).trans (.note st.tick (.id s)) (by simp only [Pen.tick]; omega)
  | .tm s as, st => by
    simp only [Seg.mix, Seg.mixNodes]
    cases hp : st.pick (position (Seg.tm s as) st.names) with
    | some i => exact .tick 0 st
    | none => exact (Grows.odds 0 st).trans (.note st.odds (.tm s as)) (by simp only [Pen.odds]; omega)
  | .anon key, st => by
    simp only [Seg.mix, Seg.mixNodes]
    exact (Grows.note st (.anon key)).mono (by omega)
  | .loc n d, st => by
    simp only [Seg.mix, Seg.mixNodes]
    exact (d.grows st).mono (by omega)
theorem Args.grows : (x : Args) → (st : Pen) → Grows (x.mixNodes w st) st (x.mix w st).2
  | .nil, st => by
    simp only [Args.mix, Args.mixNodes]
    exact .refl _ st
  | .ty t as, st => by
    simp only [Args.mix, Args.mixNodes]
    exact ((t.grows st).trans (as.grows (t.mix w st).2) (Nat.le_refl _)).mono (by omega)
  | .int neg n as, st => by
    simp only [Args.mix, Args.mixNodes]
    exact (as.grows st).mono (by omega)
  | .pack as, st => by
    simp only [Args.mix, Args.mixNodes]
    exact (as.grows st).mono (by omega)
  | .fn s as, st => by
    simp only [Args.mix, Args.mixNodes]
    exact ((s.grows st).trans (as.grows (s.mix w st).2) (Nat.le_refl _)).mono (by omega)
  | .mfn q s as, st => by
    simp only [Args.mix, Args.mixNodes]
    exact ((s.grows st).trans (as.grows (s.mix w st).2) (Nat.le_refl _)).mono (by omega)
  | .arr c v dims el as, st => by
    simp only [Args.mix, Args.mixNodes]
    exact ((el.grows st).trans (as.grows (el.mix w st).2) (Nat.le_refl _)).mono (by omega)
  | .tmpl p as, st => by
    simp only [Args.mix, Args.mixNodes]
    exact ((p.grows st).trans (as.grows (p.mix w st).2) (Nat.le_refl _)).mono (by omega)
  | .addr d as, st => by
    simp only [Args.mix, Args.mixNodes]
    exact ((d.grows st).trans (as.grows (d.mix w st).2) (Nat.le_refl _)).mono (by omega)
  | .ref d as, st => by
    simp only [Args.mix, Args.mixNodes]
    exact ((d.grows st).trans (as.grows (d.mix w st).2) (Nat.le_refl _)).mono (by omega)
  | .memFn d offs as, st => by
    simp only [Args.mix, Args.mixNodes]
    exact ((d.grows st).trans (as.grows (d.mix w st).2) (Nat.le_refl _)).mono (by omega)
  | .memData offs as, st => by
    simp only [Args.mix, Args.mixNodes]
    exact (as.grows st).mono (by omega)
theorem Head.grows : (x : Head) → (st : Pen) → Grows (x.mixNodes w st) st (x.mix w st).2
  | .id s, st => by
    simp only [Head.mix, Head.mixNodes]
    cases hp : st.pick (position (Seg.id s) st.names) with
    | some i => exact .tick 0 st
    | none => exact (Grows.tick 0 st).trans (.note st.tick (.id s)) (by simp only [Pen.tick]; omega)
  | .tm s as, st => by
    simp only [Head.mix, Head.mixNodes]
    exact .odds _ st
  | .op o ta, st => by
    simp only [Head.mix, Head.mixNodes]
    exact .odds _ st
  | .lit s, st => by
    simp only [Head.mix, Head.mixNodes]
    exact .refl _ st
theorem Decl.grows : (x : Decl) → (st : Pen) → Grows (x.mixNodes w st) st (x.mix w st).2
  | .var k name scope ty, st => by
    simp only [Decl.mix, Decl.mixNodes]
    exact ((((name.grows st).trans (scope.grows (name.mix w st).2) (Nat.le_refl _)).trans (ty.grows (scope.mix w (name.mix w st).2).2) (Nat.le_refl _)).trans (ty.growsAgain (ty.mix w (scope.mix w (name.mix w st).2).2).2) (Nat.le_refl _)).mono (by omega)
  | .fn k name scope s, st => by
    simp only [Decl.mix, Decl.mixNodes]
    exact (((name.grows st).trans (scope.grows (name.mix w st).2) (Nat.le_refl _)).trans (s.grows (scope.mix w (name.mix w st).2).2) (Nat.le_refl _)).mono (by omega)
  | .structor dtor targs k s scope cc ps variadic noexc, st => by
    simp only [Decl.mix, Decl.mixNodes]
    exact ((((Grows.odds 0 st).trans (s.grows st.odds) (Nat.le_refl _)).trans (scope.grows (s.mix w st.odds).2) (Nat.le_refl _)).trans (ps.grows (scope.mix w (s.mix w st.odds).2).2) (Nat.le_refl _)).mono (by omega)
  | .conv targs k cls s, st => by
    simp only [Decl.mix, Decl.mixNodes]
    exact (((Grows.odds 0 st).trans (cls.grows st.odds) (Nat.le_refl _)).trans (s.grows (cls.mix w st.odds).2) (Nat.le_refl _)).mono (by omega)
theorem Ty.growsAgain : (x : Ty) → (st : Pen) → Grows (x.mixAgainNodes w st) st (x.mixAgain w st).2
  | .prim .., st => by
    simp only [Ty.mixAgain, Ty.mixAgainNodes]
    exact .refl _ st
  | .tag .., st => by
    simp only [Ty.mixAgain, Ty.mixAgainNodes]
    exact .refl _ st
  | .ptr .., st => by
    simp only [Ty.mixAgain, Ty.mixAgainNodes]
    exact .refl _ st
  | .fptr .., st => by
    simp only [Ty.mixAgain, Ty.mixAgainNodes]
    exact .refl _ st
  | .aptr .., st => by
    simp only [Ty.mixAgain, Ty.mixAgainNodes]
    exact .refl _ st
  | .mptr k u cls to, st => by
    simp only [Ty.mixAgain, Ty.mixAgainNodes]
    exact (cls.grows st).mono (by omega)
  | .mfptr k cls q s, st => by
    simp only [Ty.mixAgain, Ty.mixAgainNodes]
    exact (cls.grows st).mono (by omega)
end

mutual
theorem Ty.cheap : (x : Ty) → (st st' : Pen) → Fewer st st' →
    Cheap (x.mixNodes w st) (x.mixNodes w st') st st' (x.mix w st).2 (x.mix w st').2
  | .prim .., st, st', hl => by
    simp only [Ty.mix, Ty.mixNodes]
    exact ⟨hl, by omega⟩
  | .tag k p _ _, st, st', hl => by
    have h1 := p.cheap _ _ hl
    have c1 := h1.cost
    simp only [Ty.mix, Ty.mixNodes]
    exact ⟨h1.le, by omega⟩
  | .ptr k u to, st, st', hl => by
    have h1 := to.cheap _ _ hl
    have c1 := h1.cost
    simp only [Ty.mix, Ty.mixNodes]
    exact ⟨h1.le, by omega⟩
  | .fptr k s, st, st', hl => by
    have h1 := s.cheap _ _ hl
    have c1 := h1.cost
    simp only [Ty.mix, Ty.mixNodes]
    exact ⟨h1.le, by omega⟩
  | .aptr k c v dims el, st, st', hl => by
    have h1 := el.cheap _ _ hl
    have c1 := h1.cost
    simp only [Ty.mix, Ty.mixNodes]
    exact ⟨h1.le, by omega⟩
  | .mptr k u cls to, st, st', hl => by
    have h1 := cls.cheap _ _ hl
    have c1 := h1.cost
    have h2 := to.cheap _ _ h1.le
    have c2 := h2.cost
    simp only [Ty.mix, Ty.mixNodes]
    exact ⟨h2.le, by omega⟩
  | .mfptr k cls q s, st, st', hl => by
    have h1 := cls.cheap _ _ hl
    have c1 := h1.cost
    have h2 := s.cheap _ _ h1.le
    have c2 := h2.cost
    simp only [Ty.mix, Ty.mixNodes]
    exact ⟨h2.le, by omega⟩
theorem Sig.cheap : (x : Sig) → (st st' : Pen) → Fewer st st' →
    Cheap (x.mixNodes w st) (x.mixNodes w st') st st' (x.mix w st).2 (x.mix w st').2
  | .mk cc ret ps variadic noexc, st, st', hl => by
    have h1 := ret.cheap _ _ hl
    have c1 := h1.cost
    have h2 := ps.cheap _ _ h1.le
    have c2 := h2.cost
    simp only [Sig.mix, Sig.mixNodes]
    exact ⟨h2.le, by omega⟩
theorem Tys.cheap : (x : Tys) → (st st' : Pen) → Fewer st st' →
    Cheap (x.mixNodes w st) (x.mixNodes w st') st st' (x.mix w st).2 (x.mix w st').2
  | .nil, st, st', hl => by
    simp only [Tys.mix, Tys.mixNodes]
    exact ⟨hl, by omega⟩
  | .cons t ts, st, st', hl => by
    simp only [Tys.mix, Tys.mixNodes, Pen.pick_off hl.off]
    have g1 := (Grows.tick 0 st').trans (((t.grows w st'.tick).trans (Grows.noteType 0 _ ((t.mix w st'.tick).1.length = 1) t) (Nat.le_refl _))) (Nat.le_refl _)
    cases hp : st.pick (position t st.types) with
    | some i =>
      have h := ts.cheap st.tick _ ((hl.right g1).names rfl)
      have h1 := h.cost
      have h2 := g1.hi
      refine ⟨h.le, ?_⟩
      simp only [Pen.tick] at h1 h2 ⊢
      omega
    | none =>
      have h := t.cheap _ _ hl.tick
      have l := h.le.noteType ((t.mix w st.tick).1.length = 1) ((t.mix w st'.tick).1.length = 1) t t
      have k := ts.cheap _ _ l
      have h1 := h.cost
      have h2 := k.cost
      have e1 : (if (t.mix w st.tick).1.length = 1 then (t.mix w st.tick).2 else (t.mix w st.tick).2.noteType t).names = (t.mix w st.tick).2.names := by
        split
        · rfl
        · exact Pen.noteType_names _ t
      have e2 : (if (t.mix w st'.tick).1.length = 1 then (t.mix w st'.tick).2 else (t.mix w st'.tick).2.noteType t).names = (t.mix w st'.tick).2.names := by
        split
        · rfl
        · exact Pen.noteType_names _ t
      have e3 : st.tick.names = st.names := rfl
      have e4 : st'.tick.names = st'.names := rfl
      rw [e1, e2] at h2
      rw [e3, e4] at h1
      exact ⟨k.le, by dsimp only; omega⟩
theorem Path.cheap : (x : Path) → (st st' : Pen) → Fewer st st' →
    Cheap (x.mixNodes w st) (x.mixNodes w st') st st' (x.mix w st).2 (x.mix w st').2
  | .nil, st, st', hl => by
    simp only [Path.mix, Path.mixNodes]
    exact ⟨hl, by omega⟩
  | .cons s p, st, st', hl => by
    have h1 := s.cheap _ _ hl
    have c1 := h1.cost
    have h2 := p.cheap _ _ h1.le
    have c2 := h2.cost
    simp only [Path.mix, Path.mixNodes]
    exact ⟨h2.le, by omega⟩
theorem Seg.cheap : (x : Seg) → (st st' : Pen) → Fewer st st' →
    Cheap (x.mixNodes w st) (x.mixNodes w st') st st' (x.mix w st).2 (x.mix w st').2
  | .id s, st, st', hl => by
    simp only [Seg.mix, Seg.mixNodes, Pen.pick_off hl.off]
    cases hp : st.pick (position (Seg.id s) st.names) with
    | some i =>
      have g := (Grows.tick 0 st').trans (.note st'.tick (.id s)) (Nat.le_refl _)
      have e := Pen.note_length st'.tick (.id s)
      refine ⟨(hl.right g).names rfl, ?_⟩
      simp only [Pen.tick] at e ⊢
      omega
    | none =>
      have e := Pen.note_length st.tick (.id s)
      have e' := Pen.note_length st'.tick (.id s)
      refine ⟨hl.tick.note (.id s), ?_⟩
      simp only [Pen.tick] at e e' ⊢
      omega
  | .tm s as, st, st', hl => by
    simp only [Seg.mix, Seg.mixNodes, Pen.pick_off hl.off]
    cases hp : st.pick (position (Seg.tm s as) st.names) with
    | some i =>
      have g := (Grows.odds 0 st').trans (.note st'.odds (.tm s as)) (Nat.le_refl _)
      have e := Pen.note_length st'.odds (.tm s as)
      refine ⟨(hl.right g).names rfl, ?_⟩
      simp only [Pen.tick, Pen.odds] at e ⊢
      omega
    | none =>
      have h := as.cheap _ _ (hl.evens.note (.id s))
      have h1 := h.cost
      have h2 := h.le.len
      have h3 := Pen.note_length st.evens (.id s)
      have h4 := Pen.note_length st'.evens (.id s)
      have h5 : st.evens.cost (.id s) = st'.evens.cost (.id s) := rfl
      have h6 : st.evens.names.length = st'.evens.names.length := rfl
      have e := Pen.note_length st.odds (.tm s as)
      have e' := Pen.note_length st'.odds (.tm s as)
      refine ⟨hl.odds.note (.tm s as), ?_⟩
      simp only [Pen.odds] at e e' ⊢
      omega
  | .anon key, st, st', hl => by
    simp only [Seg.mix, Seg.mixNodes]
    have e := Pen.note_length st (.anon key)
    have e' := Pen.note_length st' (.anon key)
    exact ⟨hl.note (.anon key), by omega⟩
  | .loc n d, st, st', hl => by
    have h1 := d.cheap _ _ hl
    have c1 := h1.cost
    simp only [Seg.mix, Seg.mixNodes]
    exact ⟨h1.le, by omega⟩
theorem Args.cheap : (x : Args) → (st st' : Pen) → Fewer st st' →
    Cheap (x.mixNodes w st) (x.mixNodes w st') st st' (x.mix w st).2 (x.mix w st').2
  | .nil, st, st', hl => by
    simp only [Args.mix, Args.mixNodes]
    exact ⟨hl, by omega⟩
  | .ty t as, st, st', hl => by
    have h1 := t.cheap _ _ hl
    have c1 := h1.cost
    have h2 := as.cheap _ _ h1.le
    have c2 := h2.cost
    simp only [Args.mix, Args.mixNodes]
    exact ⟨h2.le, by omega⟩
  | .int neg n as, st, st', hl => by
    have h1 := as.cheap _ _ hl
    have c1 := h1.cost
    simp only [Args.mix, Args.mixNodes]
    exact ⟨h1.le, by omega⟩
  | .pack as, st, st', hl => by
    have h1 := as.cheap _ _ hl
    have c1 := h1.cost
    simp only [Args.mix, Args.mixNodes]
    exact ⟨h1.le, by omega⟩
  | .fn s as, st, st', hl => by
    have h1 := s.cheap _ _ hl
    have c1 := h1.cost
    have h2 := as.cheap _ _ h1.le
    have c2 := h2.cost
    simp only [Args.mix, Args.mixNodes]
    exact ⟨h2.le, by omega⟩
  | .mfn q s as, st, st', hl => by
    have h1 := s.cheap _ _ hl
    have c1 := h1.cost
    have h2 := as.cheap _ _ h1.le
    have c2 := h2.cost
    simp only [Args.mix, Args.mixNodes]
    exact ⟨h2.le, by omega⟩
  | .arr c v dims el as, st, st', hl => by
    have h1 := el.cheap _ _ hl
    have c1 := h1.cost
    have h2 := as.cheap _ _ h1.le
    have c2 := h2.cost
    simp only [Args.mix, Args.mixNodes]
    exact ⟨h2.le, by omega⟩
  | .tmpl p as, st, st', hl => by
    have h1 := p.cheap _ _ hl
    have c1 := h1.cost
    have h2 := as.cheap _ _ h1.le
    have c2 := h2.cost
    simp only [Args.mix, Args.mixNodes]
    exact ⟨h2.le, by omega⟩
  | .addr d as, st, st', hl => by
    have h1 := d.cheap _ _ hl
    have c1 := h1.cost
    have h2 := as.cheap _ _ h1.le
    have c2 := h2.cost
    simp only [Args.mix, Args.mixNodes]
    exact ⟨h2.le, by omega⟩
  | .ref d as, st, st', hl => by
    have h1 := d.cheap _ _ hl
    have c1 := h1.cost
    have h2 := as.cheap _ _ h1.le
    have c2 := h2.cost
    simp only [Args.mix, Args.mixNodes]
    exact ⟨h2.le, by omega⟩
  | .memFn d offs as, st, st', hl => by
    have h1 := d.cheap _ _ hl
    have c1 := h1.cost
    have h2 := as.cheap _ _ h1.le
    have c2 := h2.cost
    simp only [Args.mix, Args.mixNodes]
    exact ⟨h2.le, by omega⟩
  | .memData offs as, st, st', hl => by
    have h1 := as.cheap _ _ hl
    have c1 := h1.cost
    simp only [Args.mix, Args.mixNodes]
    exact ⟨h1.le, by omega⟩
theorem Targs.cheap : (x : Targs) → (st st' : Pen) → Fewer st st' → x.mixNodes w st ≤ x.mixNodes w st'
  | .none, _, _, _ => by simp [Targs.mixNodes]
  | .some as, st, st', hl => by
    have h := as.cheap st.evens st'.evens hl.evens
    have h1 := h.cost
    have h2 := h.le.len
    simp only [Targs.mixNodes]
    simp only [Pen.evens, List.length_nil] at h1 h2 ⊢
    omega
theorem Head.cheap : (x : Head) → (st st' : Pen) → Fewer st st' →
    Cheap (x.mixNodes w st) (x.mixNodes w st') st st' (x.mix w st).2 (x.mix w st').2
  | .id s, st, st', hl => by
    simp only [Head.mix, Head.mixNodes, Pen.pick_off hl.off]
    cases hp : st.pick (position (Seg.id s) st.names) with
    | some i =>
      have g := (Grows.tick 0 st').trans (.note st'.tick (.id s)) (Nat.le_refl _)
      have e := Pen.note_length st'.tick (.id s)
      refine ⟨(hl.right g).names rfl, ?_⟩
      simp only [Pen.tick] at e ⊢
      omega
    | none =>
      have e := Pen.note_length st.tick (.id s)
      have e' := Pen.note_length st'.tick (.id s)
      refine ⟨hl.tick.note (.id s), ?_⟩
      simp only [Pen.tick] at e e' ⊢
      omega
  | .tm s as, st, st', hl => by
    simp only [Head.mix, Head.mixNodes]
    have h := as.cheap _ _ (hl.evens.note (.id s))
    have h1 := h.cost
    have h2 := h.le.len
    have h3 := Pen.note_length st.evens (.id s)
    have h4 := Pen.note_length st'.evens (.id s)
    have h5 : st.evens.cost (.id s) = st'.evens.cost (.id s) := rfl
    have h6 : st.evens.names.length = st'.evens.names.length := rfl
    refine ⟨hl.odds, ?_⟩
    simp only [Pen.odds]
    omega
  | .op o ta, st, st', hl => by
    have h := ta.cheap st st' hl
    simp only [Head.mix, Head.mixNodes]
    refine ⟨hl.odds, ?_⟩
    simp only [Pen.odds]
    omega
  | .lit s, st, st', hl => by
    simp only [Head.mix, Head.mixNodes]
    exact ⟨hl, by omega⟩
theorem Decl.cheap : (x : Decl) → (st st' : Pen) → Fewer st st' →
    Cheap (x.mixNodes w st) (x.mixNodes w st') st st' (x.mix w st).2 (x.mix w st').2
  | .var k name scope ty, st, st', hl => by
    have h1 := name.cheap _ _ hl
    have c1 := h1.cost
    have h2 := scope.cheap _ _ h1.le
    have c2 := h2.cost
    have h3 := ty.cheap _ _ h2.le
    have c3 := h3.cost
    have h4 := ty.cheapAgain _ _ h3.le
    have c4 := h4.cost
    simp only [Decl.mix, Decl.mixNodes]
    exact ⟨h4.le, by omega⟩
  | .fn k name scope s, st, st', hl => by
    have h1 := name.cheap _ _ hl
    have c1 := h1.cost
    have h2 := scope.cheap _ _ h1.le
    have c2 := h2.cost
    have h3 := s.cheap _ _ h2.le
    have c3 := h3.cost
    simp only [Decl.mix, Decl.mixNodes]
    exact ⟨h3.le, by omega⟩
  | .structor dtor targs k s scope cc ps variadic noexc, st, st', hl => by
    have h0 := targs.cheap st st' hl
    have o : st.odds.names = st.names := rfl
    have o' : st'.odds.names = st'.names := rfl
    have h1 := s.cheap _ _ hl.odds
    have c1 := h1.cost
    have h2 := scope.cheap _ _ h1.le
    have c2 := h2.cost
    have h3 := ps.cheap _ _ h2.le
    have c3 := h3.cost
    rw [o, o'] at c1
    simp only [Decl.mix, Decl.mixNodes]
    exact ⟨h3.le, by omega⟩
  | .conv targs k cls s, st, st', hl => by
    have h0 := targs.cheap st st' hl
    have o : st.odds.names = st.names := rfl
    have o' : st'.odds.names = st'.names := rfl
    have h1 := cls.cheap _ _ hl.odds
    have c1 := h1.cost
    have h2 := s.cheap _ _ h1.le
    have c2 := h2.cost
    rw [o, o'] at c1
    simp only [Decl.mix, Decl.mixNodes]
    exact ⟨h2.le, by omega⟩
theorem Ty.cheapAgain : (x : Ty) → (st st' : Pen) → Fewer st st' →
    Cheap (x.mixAgainNodes w st) (x.mixAgainNodes w st') st st' (x.mixAgain w st).2 (x.mixAgain w st').2
  | .prim .., st, st', hl => by
    simp only [Ty.mixAgain, Ty.mixAgainNodes]
    exact ⟨hl, by omega⟩
  | .tag .., st, st', hl => by
    simp only [Ty.mixAgain, Ty.mixAgainNodes]
    exact ⟨hl, by omega⟩
  | .ptr .., st, st', hl => by
    simp only [Ty.mixAgain, Ty.mixAgainNodes]
    exact ⟨hl, by omega⟩
  | .fptr .., st, st', hl => by
    simp only [Ty.mixAgain, Ty.mixAgainNodes]
    exact ⟨hl, by omega⟩
  | .aptr .., st, st', hl => by
    simp only [Ty.mixAgain, Ty.mixAgainNodes]
    exact ⟨hl, by omega⟩
  | .mptr k u cls to, st, st', hl => by
    have h1 := cls.cheap _ _ hl
    have c1 := h1.cost
    simp only [Ty.mixAgain, Ty.mixAgainNodes]
    exact ⟨h1.le, by omega⟩
  | .mfptr k cls q s, st, st', hl => by
    have h1 := cls.cheap _ _ hl
    have c1 := h1.cost
    simp only [Ty.mixAgain, Ty.mixAgainNodes]
    exact ⟨h1.le, by omega⟩
end

theorem fewer_start (coins : Nat → Bool) : Fewer { coins } { coins := fun _ => false } :=
  ⟨by simp, by simp, rfl, .inr (by simp)⟩

/-- The other symbols. -/
theorem Sym.mix_cheap (coins : Nat → Bool) (y : Sym) : y.mixNodes w coins ≤ y.mixNodes w (fun _ => false) := by
  have l := fewer_start coins
  cases y with
  | decl d =>
    have h := d.cheap w _ _ l
    have h1 := h.cost
    have h2 := h.le.len
    simp only [Sym.mixNodes, List.length_nil] at h1 h2 ⊢
    omega
  | table t cls c v target =>
    have h := cls.cheap w _ _ l
    have k := target.cheap w _ _ h.le
    have h1 := h.cost
    have h2 := h.le.len
    have k1 := k.cost
    have k2 := k.le.len
    simp only [Sym.mixNodes, List.length_nil] at h1 h2 ⊢
    split <;> omega
  | baseDescriptor _ _ _ _ cls | baseArray cls | hierarchy cls | vcall cls _ _ | guard _ _ cls _ =>
    have h := cls.cheap w _ _ l
    have h1 := h.cost
    have h2 := h.le.len
    simp only [Sym.mixNodes, List.length_nil] at h1 h2 ⊢
    omega
  | initVar dt st name scope ty k s =>
    have h := (Decl.var st name scope ty).cheap w _ _ l
    have k := s.cheap w _ _ h.le
    have h1 := h.cost
    have h2 := k.cost
    have h3 := k.le.len
    simp only [Sym.mixNodes, List.length_nil] at h1 h2 h3 ⊢
    omega
  | initName dt name scope k s =>
    have h := (Decl.fn k (.id name) scope s).cheap w _ _ l
    have h1 := h.cost
    have h2 := h.le.len
    simp only [Sym.mixNodes, List.length_nil] at h1 h2 ⊢
    omega

theorem EndSym.mix_cheap (coins : Nat → Bool) (y : EndSym) : y.mixNodes w coins ≤ y.mixNodes w (fun _ => false) := by
  have l := fewer_start coins
  cases y with
  | typeDescriptor t | typeName t | guard _ _ t =>
    have h := t.cheap w _ _ l
    have h1 := h.cost
    have h2 := h.le.len
    simp only [EndSym.mixNodes, List.length_nil] at h1 h2 ⊢
    omega

end

end Spec.Cxx
end Undname
