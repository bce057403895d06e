/-
  The name with all the back-references, which a compiler writes, is the shortest of all and costs the demangler the
  fewest nodes.
-/
import Verif.Proof.MixedCheap
import Verif.Proof.MixedLength

set_option linter.unusedSimpArgs false

namespace Undname
open Spec
namespace Spec.Cxx

/-- A memory of ten entries has got no smaller. -/
structure Ext {α : Type} (l m : List α) : Prop where
  sub : l ⊆ m
  len : l.length ≤ m.length

theorem Ext.refl {α : Type} (l : List α) : Ext l l := ⟨fun _ h => h, Nat.le_refl _⟩
theorem Ext.trans {α : Type} {l m n : List α} (h : Ext l m) (g : Ext m n) : Ext l n :=
  ⟨fun _ x => g.sub (h.sub x), Nat.le_trans h.len g.len⟩

structure Up (a b : Pen) : Prop where
  names : Ext a.names b.names
  types : Ext a.types b.types
  namesBound : a.names.length ≤ 10 → b.names.length ≤ 10
  typesBound : a.types.length ≤ 10 → b.types.length ≤ 10

theorem Up.refl (a : Pen) : Up a a := ⟨.refl _, .refl _, id, id⟩
theorem Up.trans {a b c : Pen} (h : Up a b) (g : Up b c) : Up a c :=
  ⟨h.names.trans g.names, h.types.trans g.types, fun x => g.namesBound (h.namesBound x), fun x => g.typesBound (h.typesBound x)⟩
theorem Up.tick (a : Pen) : Up a a.tick := ⟨.refl _, .refl _, id, id⟩
theorem Up.odds (a : Pen) : Up a a.odds := ⟨.refl _, .refl _, id, id⟩
theorem Up.note (a : Pen) (s : Seg) : Up a (a.note s) := by
  simp only [Pen.note, Seen.note]
  split
  · refine ⟨⟨fun _ h => List.mem_append_left _ h, by simp⟩, .refl _, fun _ => ?_, id⟩
    simp only [List.length_append, List.length_singleton]; omega
  · exact .refl a
theorem Up.noteType (a : Pen) (t : Ty) : Up a (a.noteType t) := by
  simp only [Pen.noteType, Seen.noteType]
  split
  · refine ⟨.refl _, ⟨fun _ h => List.mem_append_left _ h, by simp⟩, id, fun _ => ?_⟩
    simp only [List.length_append, List.length_singleton]; omega
  · exact .refl a
theorem Up.noteIf (a : Pen) (c : Prop) [Decidable c] (t : Ty) : Up a (if c then a else a.noteType t) := by
  split
  · exact .refl a
  · exact .noteType a t
theorem noteIf_types {a : Pen} {c : Prop} [Decidable c] {t u : Ty} (h : u ∈ (if c then a else a.noteType t).types) :
    u ∈ a.types ∨ u = t ∧ ¬ c ∧ a.types.length < 10 := by
  split at h
  · exact .inl h
  · simp only [Pen.noteType, Seen.noteType] at h
    split at h
    · simp only [List.mem_append, List.mem_singleton] at h
      rcases h with h | h
      · exact .inl h
      · exact .inr ⟨h, by assumption, by assumption⟩
    · exact .inl h
theorem noteIf_names (a : Pen) (c : Prop) [Decidable c] (t : Ty) : (if c then a else a.noteType t).names = a.names := by
  split
  · rfl
  · exact Pen.noteType_names a t

/-- After `q`, walking a part of a name once more adds nothing that is not in the memory of `q`. -/
def Still (f : Pen → Pen) (q : Pen) : Prop := ∀ p : Pen, Ext q.names p.names → q.types.length ≤ p.types.length ∨ q.types.length < 10 →
  (f p).names = p.names ∧ ∀ u ∈ (f p).types, u ∈ p.types ∨ u ∈ q.types

theorem Still.mono {f : Pen → Pen} {q r : Pen} (h : Still f q) (g : Up q r) : Still f r := fun p e c => by
  have l := g.types.len
  obtain ⟨h1, h2⟩ := h p (g.names.trans e) (by omega)
  exact ⟨h1, fun u hu => (h2 u hu).imp id fun x => g.types.sub x⟩
theorem Still.comp {f g : Pen → Pen} {q : Pen} (h : Still f q) (k : Still g q) (up : ∀ p, Up p (f p)) :
    Still (fun p => g (f p)) q := fun p e c => by
  obtain ⟨h1, h2⟩ := h p e c
  have l := (up p).types.len
  obtain ⟨k1, k2⟩ := k (f p) (h1.symm ▸ e) (by omega)
  exact ⟨k1.trans h1, fun u hu => (k2 u hu).elim (h2 u) .inr⟩
theorem Still.refl (q : Pen) : Still (fun p => p) q := fun _ _ _ => ⟨rfl, fun _ h => .inl h⟩
theorem Still.tick (q : Pen) : Still (fun p => p.tick) q := fun _ _ _ => ⟨rfl, fun _ h => .inl h⟩
theorem Still.odds (q : Pen) : Still (fun p => p.odds) q := fun _ _ _ => ⟨rfl, fun _ h => .inl h⟩
theorem note_same {p : Pen} {s : Seg} (h : s ∈ p.names ∨ 10 ≤ p.names.length) : p.note s = p := by
  simp only [Pen.note, Seen.note]
  rw [if_neg]
  rintro ⟨h1, h2⟩
  rcases h with h | h
  · exact h2 h
  · omega
theorem Still.note {q : Pen} {s : Seg} (h : s ∈ q.names ∨ 10 ≤ q.names.length) : Still (fun p => p.note s) q := fun p e _ => by
  have : p.note s = p := note_same (h.imp (fun x => e.sub x) fun x => Nat.le_trans x e.len)
  show (p.note s).names = _ ∧ ∀ u ∈ (p.note s).types, _
  rw [this]
  exact ⟨rfl, fun _ h => .inl h⟩
theorem note_has (a : Pen) (s : Seg) : s ∈ (a.note s).names ∨ 10 ≤ (a.note s).names.length := by
  simp only [Pen.note, Seen.note]
  split
  · exact .inl (by simp)
  · rename_i q
    by_cases h : s ∈ a.names
    · exact .inl h
    · exact .inr (by have : ¬ a.names.length < 10 := fun z => q ⟨z, h⟩
                     omega)

theorem tagCode_ne (k : TagKind) : 0 < (tagCode k).length := by cases k <;> decide
theorem PK.code_ne (k : PK) : 0 < k.code.length := by cases k <;> simp [PK.code]

section
variable (w : Bool)

theorem Path.mix_ne : (p : Path) → (st : Pen) → 0 < (p.mix w st).1.length
  | .nil, st => by simp [Path.mix]
  | .cons s p, st => by
    have := p.mix_ne (s.mix w st).2
    simp [Path.mix]; omega

/-- A type is written with one letter always, or never. -/
theorem Ty.short_or (t : Ty) : (∀ st, (t.mix w st).1.length = 1) ∨ ∀ st, (t.mix w st).1.length ≠ 1 := by
  cases t with
  | prim k c v =>
    simp only [Ty.mix]
    by_cases h : (primCode k).length = 1
    · exact .inl fun _ => h
    · exact .inr fun _ => h
  | tag k p c v =>
    refine .inr fun st => ?_
    have h1 := p.mix_ne w st
    have h2 := tagCode_ne k
    simp [Ty.mix]; omega
  | ptr k _ _ | fptr k _ | aptr k _ _ _ _ | mptr k _ _ _ | mfptr k _ _ _ =>
    refine .inr fun st => ?_
    have := k.code_ne
    simp [Ty.mix]; try omega

/-- Every type that is remembered can be walked once more. -/
def Known (a : Pen) : Prop := ∀ t ∈ a.types, Still (fun p => (t.mix w p).2) a

theorem Known.up {a b : Pen} (h : Known w a) (g : Up a b) (e : b.types ⊆ a.types) : Known w b := fun t ht => (h t (e ht)).mono g
theorem Known.tick {a : Pen} (h : Known w a) : Known w a.tick := h.up w (.tick a) fun _ h => h
theorem Known.odds {a : Pen} (h : Known w a) : Known w a.odds := h.up w (.odds a) fun _ h => h
theorem Known.note {a : Pen} (h : Known w a) (s : Seg) : Known w (a.note s) := h.up w (.note a s) fun u hu => by
  simp only [Pen.note, Seen.note] at hu
  split at hu <;> exact hu
theorem Known.noteIf {a : Pen} (h : Known w a) (t : Ty) (ht : Still (fun p => (t.mix w p).2) a) (c : Prop) [Decidable c] :
    Known w (if c then a else a.noteType t) := fun u hu => by
  rcases noteIf_types hu with x | ⟨rfl, -⟩
  · exact (h u x).mono (.noteIf a c t)
  · exact ht.mono (.noteIf a c _)

mutual
theorem Ty.up : (x : Ty) → (st : Pen) → Up st (x.mix w st).2
  | .prim .., st => by
    simp only [Ty.mix]
    exact .refl st
  | .tag k p _ _, st => by
    simp only [Ty.mix]
    exact p.up _
  | .ptr k u to, st => by
    simp only [Ty.mix]
    exact to.up _
  | .fptr k s, st => by
    simp only [Ty.mix]
    exact s.up _
  | .aptr k c v dims el, st => by
    simp only [Ty.mix]
    exact el.up _
  | .mptr k u cls to, st => by
    simp only [Ty.mix]
    exact (cls.up _).trans (to.up _)
  | .mfptr k cls q s, st => by
    simp only [Ty.mix]
    exact (cls.up _).trans (s.up _)
theorem Sig.up : (x : Sig) → (st : Pen) → Up st (x.mix w st).2
  | .mk cc ret ps variadic noexc, st => by
    simp only [Sig.mix]
    exact (ret.up _).trans (ps.up _)
theorem Tys.up : (x : Tys) → (st : Pen) → Up st (x.mix w st).2
  | .nil, st => by
    simp only [Tys.mix]
    exact .refl st
  | .cons t ts, st => by
    simp only [Tys.mix]
    cases hp : st.pick (position t st.types) with
    | some i => exact (Up.tick st).trans (ts.up st.tick)
    | none => exact (((Up.tick st).trans (t.up st.tick)).trans (.noteIf _ ((t.mix w st.tick).1.length = 1) t)).trans (ts.up _)
theorem Path.up : (x : Path) → (st : Pen) → Up st (x.mix w st).2
  | .nil, st => by
    simp only [Path.mix]
    exact .refl st
  | .cons s p, st => by
    simp only [Path.mix]
    exact (s.up _).trans (p.up _)
theorem Seg.up : (x : Seg) → (st : Pen) → Up st (x.mix w st).2
  | .id s, st => by
    simp only [Seg.mix]
    cases hp : st.pick (position (Seg.id s) st.names) with
    | some i => exact .tick st
    | none => exact (Up.tick st).trans (.note st.tick (.id s))
  | .tm s as, st => by
    simp only [Seg.mix]
    cases hp : st.pick (position (Seg.tm s as) st.names) with
    | some i => exact .tick st
    | none => exact (Up.odds st).trans (.note st.odds (.tm s as))
  | .anon key, st => by
    simp only [Seg.mix]
    exact .note st (.anon key)
  | .loc n d, st => by
    simp only [Seg.mix]
    exact d.up _
theorem Args.up : (x : Args) → (st : Pen) → Up st (x.mix w st).2
  | .nil, st => by
    simp only [Args.mix]
    exact .refl st
  | .ty t as, st => by
    simp only [Args.mix]
    exact (t.up _).trans (as.up _)
  | .int neg n as, st => by
    simp only [Args.mix]
    exact as.up _
  | .pack as, st => by
    simp only [Args.mix]
    exact as.up _
  | .fn s as, st => by
    simp only [Args.mix]
    exact (s.up _).trans (as.up _)
  | .mfn q s as, st => by
    simp only [Args.mix]
    exact (s.up _).trans (as.up _)
  | .arr c v dims el as, st => by
    simp only [Args.mix]
    exact (el.up _).trans (as.up _)
  | .tmpl p as, st => by
    simp only [Args.mix]
    exact (p.up _).trans (as.up _)
  | .addr d as, st => by
    simp only [Args.mix]
    exact (d.up _).trans (as.up _)
  | .ref d as, st => by
    simp only [Args.mix]
    exact (d.up _).trans (as.up _)
  | .memFn d offs as, st => by
    simp only [Args.mix]
    exact (d.up _).trans (as.up _)
  | .memData offs as, st => by
    simp only [Args.mix]
    exact as.up _
theorem Head.up : (x : Head) → (st : Pen) → Up st (x.mix w st).2
  | .id s, st => by
    simp only [Head.mix]
    cases hp : st.pick (position (Seg.id s) st.names) with
    | some i => exact .tick st
    | none => exact (Up.tick st).trans (.note st.tick (.id s))
  | .tm s as, st => by
    simp only [Head.mix]
    exact .odds st
  | .op o ta, st => by
    simp only [Head.mix]
    exact .odds st
  | .lit s, st => by
    simp only [Head.mix]
    exact .refl st
theorem Decl.up : (x : Decl) → (st : Pen) → Up st (x.mix w st).2
  | .var k name scope ty, st => by
    simp only [Decl.mix]
    exact (((name.up _).trans (scope.up _)).trans (ty.up _)).trans (ty.upAgain _)
  | .fn k name scope s, st => by
    simp only [Decl.mix]
    exact ((name.up _).trans (scope.up _)).trans (s.up _)
  | .structor dtor targs k s scope cc ps variadic noexc, st => by
    simp only [Decl.mix]
    exact (((Up.odds st).trans (s.up _)).trans (scope.up _)).trans (ps.up _)
  | .conv targs k cls s, st => by
    simp only [Decl.mix]
    exact ((Up.odds st).trans (cls.up _)).trans (s.up _)
theorem Ty.upAgain : (x : Ty) → (st : Pen) → Up st (x.mixAgain w st).2
  | .prim .., st => by
    simp only [Ty.mixAgain]
    exact .refl st
  | .tag .., st => by
    simp only [Ty.mixAgain]
    exact .refl st
  | .ptr .., st => by
    simp only [Ty.mixAgain]
    exact .refl st
  | .fptr .., st => by
    simp only [Ty.mixAgain]
    exact .refl st
  | .aptr .., st => by
    simp only [Ty.mixAgain]
    exact .refl st
  | .mptr k u cls to, st => by
    simp only [Ty.mixAgain]
    exact cls.up _
  | .mfptr k cls q s, st => by
    simp only [Ty.mixAgain]
    exact cls.up _
end

theorem Tys.still_cons {t : Ty} {ts : Tys} {q : Pen} (ht : Still (fun p => (t.mix w p).2) q) (hs : Still (fun p => (ts.mix w p).2) q)
    (hn : (∀ st, (t.mix w st).1.length ≠ 1) → t ∈ q.types ∨ 10 ≤ q.types.length) : Still (fun p => ((Tys.cons t ts).mix w p).2) q := by
  intro p e c
  simp only [Tys.mix]
  cases p.pick (position t p.types) with
  | some i => exact hs p.tick e c
  | none =>
    obtain ⟨n1, u1⟩ := ht p.tick e c
    have l1 := (t.up w p.tick).types.len
    have l2 := (Up.noteIf (t.mix w p.tick).2 ((t.mix w p.tick).1.length = 1) t).types.len
    have n2 := noteIf_names (t.mix w p.tick).2 ((t.mix w p.tick).1.length = 1) t
    have l3 : p.tick.types = p.types := rfl
    rw [l3] at l1
    dsimp only at n1 u1
    obtain ⟨n3, u3⟩ := hs (if (t.mix w p.tick).1.length = 1 then (t.mix w p.tick).2 else (t.mix w p.tick).2.noteType t)
      (by rw [n2, n1]; exact e) (by omega)
    refine ⟨n3.trans (n2.trans n1), fun u hu => ?_⟩
    rcases u3 u hu with x | x
    · rcases noteIf_types x with y | ⟨rfl, y1, y2⟩
      · exact u1 u y
      · rcases u.short_or w with z | z
        · exact absurd (z _) y1
        · rcases hn z with v | v
          · exact .inr v
          · omega
    · exact .inr x

mutual
theorem Ty.still : (x : Ty) → (st : Pen) → Known w st → Known w (x.mix w st).2 ∧ Still (fun p => (x.mix w p).2) (x.mix w st).2
  | .prim .., st, kn => by
    simp only [Ty.mix]
    exact ⟨kn, .refl st⟩
  | .tag k p _ _, st, kn => by
    obtain ⟨k1, s1⟩ := p.still _ kn
    simp only [Ty.mix]
    exact ⟨k1, s1⟩
  | .ptr k u to, st, kn => by
    obtain ⟨k1, s1⟩ := to.still _ kn
    simp only [Ty.mix]
    exact ⟨k1, s1⟩
  | .fptr k s, st, kn => by
    obtain ⟨k1, s1⟩ := s.still _ kn
    simp only [Ty.mix]
    exact ⟨k1, s1⟩
  | .aptr k c v dims el, st, kn => by
    obtain ⟨k1, s1⟩ := el.still _ kn
    simp only [Ty.mix]
    exact ⟨k1, s1⟩
  | .mptr k u cls to, st, kn => by
    obtain ⟨k1, s1⟩ := cls.still _ kn
    obtain ⟨k2, s2⟩ := to.still _ k1
    have r2 := ((s1).mono (to.up w _)).comp s2 fun z => cls.up w z
    simp only [Ty.mix]
    exact ⟨k2, r2⟩
  | .mfptr k cls q s, st, kn => by
    obtain ⟨k1, s1⟩ := cls.still _ kn
    obtain ⟨k2, s2⟩ := s.still _ k1
    have r2 := ((s1).mono (s.up w _)).comp s2 fun z => cls.up w z
    simp only [Ty.mix]
    exact ⟨k2, r2⟩
theorem Sig.still : (x : Sig) → (st : Pen) → Known w st → Known w (x.mix w st).2 ∧ Still (fun p => (x.mix w p).2) (x.mix w st).2
  | .mk cc ret ps variadic noexc, st, kn => by
    obtain ⟨k1, s1⟩ := ret.still _ kn
    obtain ⟨k2, s2⟩ := ps.still _ k1
    have r2 := ((s1).mono (ps.up w _)).comp s2 fun z => ret.up w z
    simp only [Sig.mix]
    exact ⟨k2, r2⟩
theorem Tys.still : (x : Tys) → (st : Pen) → Known w st → Known w (x.mix w st).2 ∧ Still (fun p => (x.mix w p).2) (x.mix w st).2
  | .nil, st, kn => by
    simp only [Tys.mix]
    exact ⟨kn, .refl st⟩
  | .cons t ts, st, kn => by
    cases hp : st.pick (position t st.types) with
    | some i =>
      have ht := Pen.pick_mem hp
      obtain ⟨k1, s1⟩ := ts.still st.tick kn.tick
      have e : ((Tys.cons t ts).mix w st).2 = (ts.mix w st.tick).2 := by simp only [Tys.mix, hp]
      rw [e]
      have u := (Up.tick st).trans (ts.up w st.tick)
      exact ⟨k1, Tys.still_cons w ((kn t ht).mono u) s1 fun _ => .inl (u.types.sub ht)⟩
    | none =>
      obtain ⟨k1, s1⟩ := t.still st.tick kn.tick
      have k2 := k1.noteIf w t s1 ((t.mix w st.tick).1.length = 1)
      have u1 := Up.noteIf (t.mix w st.tick).2 ((t.mix w st.tick).1.length = 1) t
      obtain ⟨k3, s3⟩ := ts.still _ k2
      have u2 := ts.up w (if (t.mix w st.tick).1.length = 1 then (t.mix w st.tick).2 else (t.mix w st.tick).2.noteType t)
      have e : ((Tys.cons t ts).mix w st).2 =
          (ts.mix w (if (t.mix w st.tick).1.length = 1 then (t.mix w st.tick).2 else (t.mix w st.tick).2.noteType t)).2 := by
        simp only [Tys.mix, hp]
      rw [e]
      refine ⟨k3, Tys.still_cons w (s1.mono (u1.trans u2)) s3 fun z => ?_⟩
      have l := u2.types.len
      have hsub : t ∈ (if (t.mix w st.tick).1.length = 1 then (t.mix w st.tick).2 else (t.mix w st.tick).2.noteType t).types → _ := fun x => u2.types.sub x
      rw [if_neg (z _)] at l hsub ⊢
      simp only [Pen.noteType, Seen.noteType] at l hsub ⊢
      split at l
      · rename_i h10
        rw [if_pos h10] at hsub
        exact .inl (by simpa only [h10, if_true] using hsub (by simp))
      · rename_i h10
        exact .inr (by simp only [h10, if_false]; omega)
theorem Path.still : (x : Path) → (st : Pen) → Known w st → Known w (x.mix w st).2 ∧ Still (fun p => (x.mix w p).2) (x.mix w st).2
  | .nil, st, kn => by
    simp only [Path.mix]
    exact ⟨kn, .refl st⟩
  | .cons s p, st, kn => by
    obtain ⟨k1, s1⟩ := s.still _ kn
    obtain ⟨k2, s2⟩ := p.still _ k1
    have r2 := ((s1).mono (p.up w _)).comp s2 fun z => s.up w z
    simp only [Path.mix]
    exact ⟨k2, r2⟩
theorem Seg.still : (x : Seg) → (st : Pen) → Known w st → Known w (x.mix w st).2 ∧ Still (fun p => (x.mix w p).2) (x.mix w st).2
  | .id s, st, kn => by
    have hs : ∀ q : Pen, (Seg.id s ∈ q.names ∨ 10 ≤ q.names.length) → Still (fun p => ((Seg.id s).mix w p).2) q := fun q hq p e c => by
      simp only [Seg.mix]
      cases p.pick (position (Seg.id s) p.names) with
      | some i => exact Still.tick q p e c
      | none => exact ((Still.tick q).comp (.note hq) fun p => .tick p) p e c
    refine ⟨?_, hs _ ?_⟩
    · simp only [Seg.mix]
      cases st.pick (position (Seg.id s) st.names) with
      | some i => exact kn.tick
      | none => exact kn.tick.note w (.id s)
    · simp only [Seg.mix]
      cases hp : st.pick (position (Seg.id s) st.names) with
      | some i => exact .inl (Pen.pick_mem hp)
      | none => exact note_has st.tick (.id s)
  | .tm s as, st, kn => by
    have hs : ∀ q : Pen, (Seg.tm s as ∈ q.names ∨ 10 ≤ q.names.length) → Still (fun p => ((Seg.tm s as).mix w p).2) q := fun q hq p e c => by
      simp only [Seg.mix]
      cases p.pick (position (Seg.tm s as) p.names) with
      | some i => exact Still.tick q p e c
      | none => exact ((Still.odds q).comp (.note hq) fun p => .odds p) p e c
    refine ⟨?_, hs _ ?_⟩
    · simp only [Seg.mix]
      cases st.pick (position (Seg.tm s as) st.names) with
      | some i => exact kn.tick
      | none => exact kn.odds.note w (.tm s as)
    · simp only [Seg.mix]
      cases hp : st.pick (position (Seg.tm s as) st.names) with
      | some i => exact .inl (Pen.pick_mem hp)
      | none => exact note_has st.odds (.tm s as)
  | .anon key, st, kn => by
    simp only [Seg.mix]
    exact ⟨kn.note w _, .note (note_has st (.anon key))⟩
  | .loc n d, st, kn => by
    obtain ⟨k1, s1⟩ := d.still _ kn
    simp only [Seg.mix]
    exact ⟨k1, s1⟩
theorem Args.still : (x : Args) → (st : Pen) → Known w st → Known w (x.mix w st).2 ∧ Still (fun p => (x.mix w p).2) (x.mix w st).2
  | .nil, st, kn => by
    simp only [Args.mix]
    exact ⟨kn, .refl st⟩
  | .ty t as, st, kn => by
    obtain ⟨k1, s1⟩ := t.still _ kn
    obtain ⟨k2, s2⟩ := as.still _ k1
    have r2 := ((s1).mono (as.up w _)).comp s2 fun z => t.up w z
    simp only [Args.mix]
    exact ⟨k2, r2⟩
  | .int neg n as, st, kn => by
    obtain ⟨k1, s1⟩ := as.still _ kn
    simp only [Args.mix]
    exact ⟨k1, s1⟩
  | .pack as, st, kn => by
    obtain ⟨k1, s1⟩ := as.still _ kn
    simp only [Args.mix]
    exact ⟨k1, s1⟩
  | .fn s as, st, kn => by
    obtain ⟨k1, s1⟩ := s.still _ kn
    obtain ⟨k2, s2⟩ := as.still _ k1
    have r2 := ((s1).mono (as.up w _)).comp s2 fun z => s.up w z
    simp only [Args.mix]
    exact ⟨k2, r2⟩
  | .mfn q s as, st, kn => by
    obtain ⟨k1, s1⟩ := s.still _ kn
    obtain ⟨k2, s2⟩ := as.still _ k1
    have r2 := ((s1).mono (as.up w _)).comp s2 fun z => s.up w z
    simp only [Args.mix]
    exact ⟨k2, r2⟩
  | .arr c v dims el as, st, kn => by
    obtain ⟨k1, s1⟩ := el.still _ kn
    obtain ⟨k2, s2⟩ := as.still _ k1
    have r2 := ((s1).mono (as.up w _)).comp s2 fun z => el.up w z
    simp only [Args.mix]
    exact ⟨k2, r2⟩
  | .tmpl p as, st, kn => by
    obtain ⟨k1, s1⟩ := p.still _ kn
    obtain ⟨k2, s2⟩ := as.still _ k1
    have r2 := ((s1).mono (as.up w _)).comp s2 fun z => p.up w z
    simp only [Args.mix]
    exact ⟨k2, r2⟩
  | .addr d as, st, kn => by
    obtain ⟨k1, s1⟩ := d.still _ kn
    obtain ⟨k2, s2⟩ := as.still _ k1
    have r2 := ((s1).mono (as.up w _)).comp s2 fun z => d.up w z
    simp only [Args.mix]
    exact ⟨k2, r2⟩
  | .ref d as, st, kn => by
    obtain ⟨k1, s1⟩ := d.still _ kn
    obtain ⟨k2, s2⟩ := as.still _ k1
    have r2 := ((s1).mono (as.up w _)).comp s2 fun z => d.up w z
    simp only [Args.mix]
    exact ⟨k2, r2⟩
  | .memFn d offs as, st, kn => by
    obtain ⟨k1, s1⟩ := d.still _ kn
    obtain ⟨k2, s2⟩ := as.still _ k1
    have r2 := ((s1).mono (as.up w _)).comp s2 fun z => d.up w z
    simp only [Args.mix]
    exact ⟨k2, r2⟩
  | .memData offs as, st, kn => by
    obtain ⟨k1, s1⟩ := as.still _ kn
    simp only [Args.mix]
    exact ⟨k1, s1⟩
theorem Head.still : (x : Head) → (st : Pen) → Known w st → Known w (x.mix w st).2 ∧ Still (fun p => (x.mix w p).2) (x.mix w st).2
  | .id s, st, kn => by
    have hs : ∀ q : Pen, (Seg.id s ∈ q.names ∨ 10 ≤ q.names.length) → Still (fun p => ((Head.id s).mix w p).2) q := fun q hq p e c => by
      simp only [Head.mix]
      cases p.pick (position (Seg.id s) p.names) with
      | some i => exact Still.tick q p e c
      | none => exact ((Still.tick q).comp (.note hq) fun p => .tick p) p e c
    refine ⟨?_, hs _ ?_⟩
    · simp only [Head.mix]
      cases st.pick (position (Seg.id s) st.names) with
      | some i => exact kn.tick
      | none => exact kn.tick.note w (.id s)
    · simp only [Head.mix]
      cases hp : st.pick (position (Seg.id s) st.names) with
      | some i => exact .inl (Pen.pick_mem hp)
      | none => exact note_has st.tick (.id s)
  | .tm s as, st, kn => by
    simp only [Head.mix]
    exact ⟨kn.odds, .odds _⟩
  | .op o ta, st, kn => by
    simp only [Head.mix]
    exact ⟨kn.odds, .odds _⟩
  | .lit s, st, kn => by
    simp only [Head.mix]
    exact ⟨kn, .refl _⟩
theorem Decl.still : (x : Decl) → (st : Pen) → Known w st → Known w (x.mix w st).2 ∧ Still (fun p => (x.mix w p).2) (x.mix w st).2
  | .var k name scope ty, st, kn => by
    obtain ⟨k1, s1⟩ := name.still _ kn
    obtain ⟨k2, s2⟩ := scope.still _ k1
    obtain ⟨k3, s3⟩ := ty.still _ k2
    obtain ⟨k4, s4⟩ := ty.stillAgain _ k3
    have r2 := ((s1).mono (scope.up w _)).comp s2 fun z => name.up w z
    have r3 := ((r2).mono (ty.up w _)).comp s3 fun z => (name.up w z).trans (scope.up w _)
    have r4 := ((r3).mono (ty.upAgain w _)).comp s4 fun z => ((name.up w z).trans (scope.up w _)).trans (ty.up w _)
    simp only [Decl.mix]
    exact ⟨k4, r4⟩
  | .fn k name scope s, st, kn => by
    obtain ⟨k1, s1⟩ := name.still _ kn
    obtain ⟨k2, s2⟩ := scope.still _ k1
    obtain ⟨k3, s3⟩ := s.still _ k2
    have r2 := ((s1).mono (scope.up w _)).comp s2 fun z => name.up w z
    have r3 := ((r2).mono (s.up w _)).comp s3 fun z => (name.up w z).trans (scope.up w _)
    simp only [Decl.mix]
    exact ⟨k3, r3⟩
  | .structor dtor targs k s scope cc ps variadic noexc, st, kn => by
    obtain ⟨k1, s1⟩ := s.still _ (kn.odds w)
    obtain ⟨k2, s2⟩ := scope.still _ k1
    obtain ⟨k3, s3⟩ := ps.still _ k2
    have r2 := ((s1).mono (scope.up w _)).comp s2 fun z => s.up w z
    have r3 := ((r2).mono (ps.up w _)).comp s3 fun z => (s.up w z).trans (scope.up w _)
    have r := (Still.odds _).comp r3 fun p => .odds p
    simp only [Decl.mix]
    exact ⟨k3, r⟩
  | .conv targs k cls s, st, kn => by
    obtain ⟨k1, s1⟩ := cls.still _ (kn.odds w)
    obtain ⟨k2, s2⟩ := s.still _ k1
    have r2 := ((s1).mono (s.up w _)).comp s2 fun z => cls.up w z
    have r := (Still.odds _).comp r2 fun p => .odds p
    simp only [Decl.mix]
    exact ⟨k2, r⟩
theorem Ty.stillAgain : (x : Ty) → (st : Pen) → Known w st → Known w (x.mixAgain w st).2 ∧ Still (fun p => (x.mixAgain w p).2) (x.mixAgain w st).2
  | .prim .., st, kn => by
    simp only [Ty.mixAgain]
    exact ⟨kn, .refl st⟩
  | .tag .., st, kn => by
    simp only [Ty.mixAgain]
    exact ⟨kn, .refl st⟩
  | .ptr .., st, kn => by
    simp only [Ty.mixAgain]
    exact ⟨kn, .refl st⟩
  | .fptr .., st, kn => by
    simp only [Ty.mixAgain]
    exact ⟨kn, .refl st⟩
  | .aptr .., st, kn => by
    simp only [Ty.mixAgain]
    exact ⟨kn, .refl st⟩
  | .mptr k u cls to, st, kn => by
    obtain ⟨k1, s1⟩ := cls.still _ kn
    simp only [Ty.mixAgain]
    exact ⟨k1, s1⟩
  | .mfptr k cls q s, st, kn => by
    obtain ⟨k1, s1⟩ := cls.still _ kn
    simp only [Ty.mixAgain]
    exact ⟨k1, s1⟩
end

/-- A compiler which uses all the back-references, and another one, after the same parts of a name. -/
structure Best (a b : Pen) : Prop where
  on : a.coins = fun _ => true
  known : Known w a
  names : b.names = a.names
  few : a.names.length ≤ 10
  sub : b.types ⊆ a.types
  len : a.types.length ≤ b.types.length
  fewTypes : a.types.length ≤ 10

theorem Best.tick {a b : Pen} (h : Best w a b) : Best w a.tick b.tick :=
  ⟨by simp [Pen.tick, h.on], h.known.tick, h.names, h.few, h.sub, h.len, h.fewTypes⟩
theorem Best.odds {a b : Pen} (h : Best w a b) : Best w a.odds b.odds :=
  ⟨by simp [Pen.odds, h.on], h.known.odds, h.names, h.few, h.sub, h.len, h.fewTypes⟩
theorem Best.tick_odds {a b : Pen} (h : Best w a b) : Best w a.tick b.odds :=
  ⟨by simp [Pen.tick, h.on], h.known.tick, h.names, h.few, h.sub, h.len, h.fewTypes⟩
theorem Best.evens {a b : Pen} (h : Best w a b) : Best w a.evens b.evens :=
  ⟨by simp [Pen.evens, h.on], fun _ hu => by simp [Pen.evens] at hu, rfl, by simp [Pen.evens], by simp [Pen.evens], by simp [Pen.evens],
    by simp [Pen.evens]⟩
theorem Best.cost {a b : Pen} (h : Best w a b) (s : Seg) : a.cost s = b.cost s := by simp only [Seen.cost, h.names]
theorem Best.note {a b : Pen} (h : Best w a b) (s : Seg) : Best w (a.note s) (b.note s) := by
  have u := (Up.note a s).namesBound h.few
  have e : ∀ p : Pen, (p.note s).types = p.types := fun p => by simp only [Pen.note, Seen.note]; split <;> rfl
  refine ⟨h.on, h.known.note w s, ?_, u, by rw [e, e]; exact h.sub, by rw [e, e]; exact h.len, by rw [e]; exact h.fewTypes⟩
  simp only [Pen.note, Seen.note, h.names]
  split <;> simp [h.names]
theorem pick_true {α : Type} [DecidableEq α] {a : Pen} (h : a.coins = fun _ => true) {x : α} {l : List α} (hl : l.length ≤ 10) (hx : x ∈ l) :
    ∃ i, a.pick (position x l) = some i := by
  have : a.pick (position x l) = position x l := by simp [Pen.pick, h]
  rw [this, position, List.take_of_length_le hl]
  cases e : l.idxOf? x with
  | some i => exact ⟨i, rfl⟩
  | none => exact absurd hx (List.idxOf?_eq_none_iff.1 e)

theorem Best.noteIf {a b : Pen} (h : Best w a b) {c d : Prop} [Decidable c] [Decidable d] (cd : c ↔ d) {t : Ty}
    (ht : Still (fun p => (t.mix w p).2) a) : Best w (if c then a else a.noteType t) (if d then b else b.noteType t) := by
  have k := h.known.noteIf w t ht c
  have u := Up.noteIf a c t
  by_cases hc : c
  · rw [if_pos hc, if_pos (cd.1 hc)]; exact h
  · have hd := fun x => hc (cd.2 x)
    rw [if_neg hc] at k u
    rw [if_neg hc, if_neg hd]
    have h1 := h.len
    have h2 := h.fewTypes
    refine ⟨h.on, k, by rw [Pen.noteType_names, Pen.noteType_names]; exact h.names, by rw [Pen.noteType_names]; exact h.few, ?_, ?_,
      u.typesBound h.fewTypes⟩
    · simp only [Pen.noteType, Seen.noteType]
      split
      · rw [if_pos (by omega)]
        intro x hx
        simp only [List.mem_append, List.mem_singleton] at hx ⊢
        exact hx.imp (fun y => h.sub y) id
      · split
        · exact fun _ hx => List.mem_append_left _ (h.sub hx)
        · exact h.sub
    · simp only [Pen.noteType, Seen.noteType]
      split <;> split <;> (try simp only [List.length_append, List.length_singleton]) <;> omega

/-- What walking a type again does to the other compiler. -/
theorem Best.again {a b : Pen} (h : Best w a b) {t : Ty} (ht : t ∈ a.types) (c : Prop) [Decidable c] :
    Best w a (if c then (t.mix w b).2 else (t.mix w b).2.noteType t) := by
  obtain ⟨n, u⟩ := h.known t ht b (h.names ▸ .refl _) (.inl h.len)
  have up := (t.up w b).trans (.noteIf _ c t)
  refine ⟨h.on, h.known, (noteIf_names _ c t).trans (n.trans h.names), h.few, fun x hx => ?_, Nat.le_trans h.len up.types.len, h.fewTypes⟩
  rcases noteIf_types hx with y | ⟨rfl, -⟩
  · exact (u x y).elim (fun z => h.sub z) id
  · exact ht

/-- Two walks through a part of a name, with all the back-references and with some. -/
structure Better (n m l k : Nat) (a b : Pen) : Prop where
  best : Best w a b
  nodes : n ≤ m
  length : l ≤ k

theorem Tys.best_params {ts : Tys} {st st' : Pen} {variadic : Bool} (h : (ts.mix w st).1.length ≤ (ts.mix w st').1.length) :
    (if (ts.mix w st).1.isEmpty && !variadic then c!"X" else (ts.mix w st).1 ++ (if variadic then c!"Z" else c!"@")).length ≤
    (if (ts.mix w st').1.isEmpty && !variadic then c!"X" else (ts.mix w st').1 ++ (if variadic then c!"Z" else c!"@")).length := by
  have h1 := ts.mix_nil w st
  have h2 := ts.mix_nil w st'
  have e : (ts.mix w st).1.isEmpty = (ts.mix w st').1.isEmpty := by
    rw [Bool.eq_iff_iff, List.isEmpty_iff, List.isEmpty_iff, h1, h2]
  rw [e]
  split
  · exact Nat.le_refl _
  · simp only [List.length_append]; omega

mutual
theorem Ty.best : (x : Ty) → (st st' : Pen) → Best w st st' →
    Better w (x.mixNodes w st) (x.mixNodes w st') (x.mix w st).1.length (x.mix w st').1.length (x.mix w st).2 (x.mix w st').2
  | .prim .., st, st', h => by
    simp only [Ty.mix, Ty.mixNodes]
    exact ⟨h, Nat.le_refl _, Nat.le_refl _⟩
  | .tag k p _ _, st, st', h => by
    have b1 := p.best _ _ h
    have n1 := b1.nodes
    have l1 := b1.length
    simp only [Ty.mix, Ty.mixNodes, List.length_append, List.length_cons]
    exact ⟨b1.best, by omega, by omega⟩
  | .ptr k u to, st, st', h => by
    have b1 := to.best _ _ h
    have n1 := b1.nodes
    have l1 := b1.length
    simp only [Ty.mix, Ty.mixNodes, List.length_append, List.length_cons]
    exact ⟨b1.best, by omega, by omega⟩
  | .fptr k s, st, st', h => by
    have b1 := s.best _ _ h
    have n1 := b1.nodes
    have l1 := b1.length
    simp only [Ty.mix, Ty.mixNodes, List.length_append, List.length_cons]
    exact ⟨b1.best, by omega, by omega⟩
  | .aptr k c v dims el, st, st', h => by
    have b1 := el.best _ _ h
    have n1 := b1.nodes
    have l1 := b1.length
    simp only [Ty.mix, Ty.mixNodes, List.length_append, List.length_cons]
    exact ⟨b1.best, by omega, by omega⟩
  | .mptr k u cls to, st, st', h => by
    have b1 := cls.best _ _ h
    have n1 := b1.nodes
    have l1 := b1.length
    have b2 := to.best _ _ b1.best
    have n2 := b2.nodes
    have l2 := b2.length
    simp only [Ty.mix, Ty.mixNodes, List.length_append, List.length_cons]
    exact ⟨b2.best, by omega, by omega⟩
  | .mfptr k cls q s, st, st', h => by
    have b1 := cls.best _ _ h
    have n1 := b1.nodes
    have l1 := b1.length
    have b2 := s.best _ _ b1.best
    have n2 := b2.nodes
    have l2 := b2.length
    simp only [Ty.mix, Ty.mixNodes, List.length_append, List.length_cons]
    exact ⟨b2.best, by omega, by omega⟩
theorem Sig.best : (x : Sig) → (st st' : Pen) → Best w st st' →
    Better w (x.mixNodes w st) (x.mixNodes w st') (x.mix w st).1.length (x.mix w st').1.length (x.mix w st).2 (x.mix w st').2
  | .mk cc ret ps variadic noexc, st, st', h => by
    have b1 := ret.best _ _ h
    have n1 := b1.nodes
    have l1 := b1.length
    have b2 := ps.best _ _ b1.best
    have n2 := b2.nodes
    have l2 := b2.length
    have lp := Tys.best_params w (variadic := variadic) l2
    simp only [Sig.mix, Sig.mixNodes, List.length_append, List.length_cons]
    exact ⟨b2.best, by omega, by omega⟩
theorem Tys.best : (x : Tys) → (st st' : Pen) → Best w st st' →
    Better w (x.mixNodes w st) (x.mixNodes w st') (x.mix w st).1.length (x.mix w st').1.length (x.mix w st).2 (x.mix w st').2
  | .nil, st, st', h => by
    simp only [Tys.mix, Tys.mixNodes]
    exact ⟨h, Nat.le_refl _, Nat.le_refl _⟩
  | .cons t ts, st, st', h => by
    simp only [Tys.mix, Tys.mixNodes]
    by_cases hm : t ∈ st.types
    · obtain ⟨i, hi⟩ := pick_true h.on h.fewTypes hm
      rw [hi]
      cases hp : st'.pick (position t st'.types) with
      | some j =>
        have b := ts.best _ _ h.tick
        have b1 := b.nodes
        have b2 := b.length
        refine ⟨b.best, b1, ?_⟩
        simp only [List.length_append, digit, List.length_cons, List.length_nil]
        omega
      | none =>
        have b := ts.best _ _ (h.tick.again w hm ((t.mix w st'.tick).1.length = 1))
        have b1 := b.nodes
        have b2 := b.length
        have b3 := List.length_pos_iff.2 (t.mix_head w st'.tick).1
        refine ⟨b.best, by dsimp only; omega, ?_⟩
        simp only [List.length_append, digit, List.length_cons, List.length_nil]
        omega
    · cases hi : st.pick (position t st.types) with
      | some i => exact absurd (Pen.pick_mem hi) hm
      | none =>
        cases hp : st'.pick (position t st'.types) with
        | some j => exact absurd (h.sub (Pen.pick_mem hp)) hm
        | none =>
          have d := t.best _ _ h.tick
          have cd : (t.mix w st.tick).1.length = 1 ↔ (t.mix w st'.tick).1.length = 1 := by
            rcases t.short_or w with z | z <;> simp only [z]
          have b := ts.best _ _ (d.best.noteIf w cd (t.still w st.tick h.tick.known).2)
          have b1 := b.nodes
          have b2 := b.length
          have d1 := d.nodes
          have d2 := d.length
          refine ⟨b.best, by dsimp only; omega, ?_⟩
          simp only [List.length_append]
          omega
theorem Path.best : (x : Path) → (st st' : Pen) → Best w st st' →
    Better w (x.mixNodes w st) (x.mixNodes w st') (x.mix w st).1.length (x.mix w st').1.length (x.mix w st).2 (x.mix w st').2
  | .nil, st, st', h => by
    simp only [Path.mix, Path.mixNodes]
    exact ⟨h, Nat.le_refl _, Nat.le_refl _⟩
  | .cons s p, st, st', h => by
    have b1 := s.best _ _ h
    have n1 := b1.nodes
    have l1 := b1.length
    have b2 := p.best _ _ b1.best
    have n2 := b2.nodes
    have l2 := b2.length
    simp only [Path.mix, Path.mixNodes, List.length_append, List.length_cons]
    exact ⟨b2.best, by omega, by omega⟩
theorem Seg.best : (x : Seg) → (st st' : Pen) → Best w st st' →
    Better w (x.mixNodes w st) (x.mixNodes w st') (x.mix w st).1.length (x.mix w st').1.length (x.mix w st).2 (x.mix w st').2
  | .id s, st, st', h => by
    have e := h.names
    simp only [Seg.mix, Seg.mixNodes]
    by_cases hm : Seg.id s ∈ st.names
    · obtain ⟨i, hi⟩ := pick_true h.on h.few hm
      rw [hi]
      cases hp : st'.pick (position (Seg.id s) st'.names) with
      | some j => exact ⟨h.tick, Nat.le_refl _, by simp [digit]⟩
      | none =>
        have q : st'.tick.note (.id s) = st'.tick := note_same (.inl (by rw [show st'.tick.names = st'.names from rfl, e]; exact hm))
        dsimp only
        rw [q]
        exact ⟨h.tick, Nat.zero_le _, by simp [digit]⟩
    · cases hi : st.pick (position (Seg.id s) st.names) with
      | some i => exact absurd (Pen.pick_mem hi) hm
      | none =>
        cases hp : st'.pick (position (Seg.id s) st'.names) with
        | some j => exact absurd (e ▸ Pen.pick_mem hp) hm
        | none => exact ⟨h.tick.note w _, by dsimp only; rw [h.cost]; exact Nat.le_refl _, Nat.le_refl _⟩
  | .tm s as, st, st', h => by
    have e := h.names
    have b := as.best _ _ (h.evens.note w (.id s))
    have b1 := b.nodes
    have b2 := b.length
    simp only [Seg.mix, Seg.mixNodes]
    by_cases hm : Seg.tm s as ∈ st.names
    · obtain ⟨i, hi⟩ := pick_true h.on h.few hm
      rw [hi]
      cases hp : st'.pick (position (Seg.tm s as) st'.names) with
      | some j => exact ⟨h.tick, Nat.le_refl _, by simp [digit]⟩
      | none =>
        have q : st'.odds.note (.tm s as) = st'.odds := note_same (.inl (by rw [show st'.odds.names = st'.names from rfl, e]; exact hm))
        dsimp only
        rw [q]
        exact ⟨h.tick_odds, Nat.zero_le _, by simp [digit]⟩
    · cases hi : st.pick (position (Seg.tm s as) st.names) with
      | some i => exact absurd (Pen.pick_mem hi) hm
      | none =>
        cases hp : st'.pick (position (Seg.tm s as) st'.names) with
        | some j => exact absurd (e ▸ Pen.pick_mem hp) hm
        | none =>
          refine ⟨h.odds.note w _, by dsimp only; rw [h.cost]; omega, ?_⟩
          simp only [List.length_append, List.length_cons]
          omega
  | .anon key, st, st', h => by
    simp only [Seg.mix, Seg.mixNodes]
    exact ⟨h.note w _, by rw [h.cost]; exact Nat.le_refl _, Nat.le_refl _⟩
  | .loc n d, st, st', h => by
    have b1 := d.best _ _ h
    have n1 := b1.nodes
    have l1 := b1.length
    simp only [Seg.mix, Seg.mixNodes, List.length_append, List.length_cons]
    exact ⟨b1.best, by omega, by omega⟩
theorem Args.best : (x : Args) → (st st' : Pen) → Best w st st' →
    Better w (x.mixNodes w st) (x.mixNodes w st') (x.mix w st).1.length (x.mix w st').1.length (x.mix w st).2 (x.mix w st').2
  | .nil, st, st', h => by
    simp only [Args.mix, Args.mixNodes]
    exact ⟨h, Nat.le_refl _, Nat.le_refl _⟩
  | .ty t as, st, st', h => by
    have b1 := t.best _ _ h
    have n1 := b1.nodes
    have l1 := b1.length
    have b2 := as.best _ _ b1.best
    have n2 := b2.nodes
    have l2 := b2.length
    simp only [Args.mix, Args.mixNodes, List.length_append, List.length_cons]
    exact ⟨b2.best, by omega, by omega⟩
  | .int neg n as, st, st', h => by
    have b1 := as.best _ _ h
    have n1 := b1.nodes
    have l1 := b1.length
    simp only [Args.mix, Args.mixNodes, List.length_append, List.length_cons]
    exact ⟨b1.best, by omega, by omega⟩
  | .pack as, st, st', h => by
    have b1 := as.best _ _ h
    have n1 := b1.nodes
    have l1 := b1.length
    simp only [Args.mix, Args.mixNodes, List.length_append, List.length_cons]
    exact ⟨b1.best, by omega, by omega⟩
  | .fn s as, st, st', h => by
    have b1 := s.best _ _ h
    have n1 := b1.nodes
    have l1 := b1.length
    have b2 := as.best _ _ b1.best
    have n2 := b2.nodes
    have l2 := b2.length
    simp only [Args.mix, Args.mixNodes, List.length_append, List.length_cons]
    exact ⟨b2.best, by omega, by omega⟩
  | .mfn q s as, st, st', h => by
    have b1 := s.best _ _ h
    have n1 := b1.nodes
    have l1 := b1.length
    have b2 := as.best _ _ b1.best
    have n2 := b2.nodes
    have l2 := b2.length
    simp only [Args.mix, Args.mixNodes, List.length_append, List.length_cons]
    exact ⟨b2.best, by omega, by omega⟩
  | .arr c v dims el as, st, st', h => by
    have b1 := el.best _ _ h
    have n1 := b1.nodes
    have l1 := b1.length
    have b2 := as.best _ _ b1.best
    have n2 := b2.nodes
    have l2 := b2.length
    simp only [Args.mix, Args.mixNodes, List.length_append, List.length_cons]
    exact ⟨b2.best, by omega, by omega⟩
  | .tmpl p as, st, st', h => by
    have b1 := p.best _ _ h
    have n1 := b1.nodes
    have l1 := b1.length
    have b2 := as.best _ _ b1.best
    have n2 := b2.nodes
    have l2 := b2.length
    simp only [Args.mix, Args.mixNodes, List.length_append, List.length_cons]
    exact ⟨b2.best, by omega, by omega⟩
  | .addr d as, st, st', h => by
    have b1 := d.best _ _ h
    have n1 := b1.nodes
    have l1 := b1.length
    have b2 := as.best _ _ b1.best
    have n2 := b2.nodes
    have l2 := b2.length
    simp only [Args.mix, Args.mixNodes, List.length_append, List.length_cons]
    exact ⟨b2.best, by omega, by omega⟩
  | .ref d as, st, st', h => by
    have b1 := d.best _ _ h
    have n1 := b1.nodes
    have l1 := b1.length
    have b2 := as.best _ _ b1.best
    have n2 := b2.nodes
    have l2 := b2.length
    simp only [Args.mix, Args.mixNodes, List.length_append, List.length_cons]
    exact ⟨b2.best, by omega, by omega⟩
  | .memFn d offs as, st, st', h => by
    have b1 := d.best _ _ h
    have n1 := b1.nodes
    have l1 := b1.length
    have b2 := as.best _ _ b1.best
    have n2 := b2.nodes
    have l2 := b2.length
    simp only [Args.mix, Args.mixNodes, List.length_append, List.length_cons]
    exact ⟨b2.best, by omega, by omega⟩
  | .memData offs as, st, st', h => by
    have b1 := as.best _ _ h
    have n1 := b1.nodes
    have l1 := b1.length
    simp only [Args.mix, Args.mixNodes, List.length_append, List.length_cons]
    exact ⟨b1.best, by omega, by omega⟩
theorem Targs.best : (x : Targs) → (st st' : Pen) → Best w st st' → x.mixNodes w st ≤ x.mixNodes w st' ∧
    ∀ code, (x.mix w st code).length ≤ (x.mix w st' code).length
  | .none, _, _, _ => by simp only [Targs.mixNodes, Targs.mix]; exact ⟨Nat.le_refl _, fun _ => Nat.le_refl _⟩
  | .some as, st, st', h => by
    have b := as.best _ _ h.evens
    have h1 := b.nodes
    have h2 := b.length
    simp only [Targs.mixNodes, Targs.mix, List.length_append]
    exact ⟨by omega, fun _ => by omega⟩
theorem Head.best : (x : Head) → (st st' : Pen) → Best w st st' →
    Better w (x.mixNodes w st) (x.mixNodes w st') (x.mix w st).1.length (x.mix w st').1.length (x.mix w st).2 (x.mix w st').2
  | .id s, st, st', h => by
    have e := h.names
    simp only [Head.mix, Head.mixNodes]
    by_cases hm : Seg.id s ∈ st.names
    · obtain ⟨i, hi⟩ := pick_true h.on h.few hm
      rw [hi]
      cases hp : st'.pick (position (Seg.id s) st'.names) with
      | some j => exact ⟨h.tick, Nat.le_refl _, by simp [digit]⟩
      | none =>
        have q : st'.tick.note (.id s) = st'.tick := note_same (.inl (by rw [show st'.tick.names = st'.names from rfl, e]; exact hm))
        dsimp only
        rw [q]
        exact ⟨h.tick, Nat.zero_le _, by simp [digit]⟩
    · cases hi : st.pick (position (Seg.id s) st.names) with
      | some i => exact absurd (Pen.pick_mem hi) hm
      | none =>
        cases hp : st'.pick (position (Seg.id s) st'.names) with
        | some j => exact absurd (e ▸ Pen.pick_mem hp) hm
        | none => exact ⟨h.tick.note w _, by dsimp only; rw [h.cost]; exact Nat.le_refl _, Nat.le_refl _⟩
  | .tm s as, st, st', h => by
    have b := as.best _ _ (h.evens.note w (.id s))
    have b1 := b.nodes
    have b2 := b.length
    simp only [Head.mix, Head.mixNodes, List.length_append]
    exact ⟨h.odds, by omega, by omega⟩
  | .op o ta, st, st', h => by
    have b := ta.best st st' h
    simp only [Head.mix, Head.mixNodes]
    exact ⟨h.odds, b.1, b.2 _⟩
  | .lit s, st, st', h => by
    simp only [Head.mix, Head.mixNodes]
    exact ⟨h, Nat.le_refl _, Nat.le_refl _⟩
theorem Decl.best : (x : Decl) → (st st' : Pen) → Best w st st' →
    Better w (x.mixNodes w st) (x.mixNodes w st') (x.mix w st).1.length (x.mix w st').1.length (x.mix w st).2 (x.mix w st').2
  | .var k name scope ty, st, st', h => by
    have b1 := name.best _ _ h
    have n1 := b1.nodes
    have l1 := b1.length
    have b2 := scope.best _ _ b1.best
    have n2 := b2.nodes
    have l2 := b2.length
    have b3 := ty.best _ _ b2.best
    have n3 := b3.nodes
    have l3 := b3.length
    have b4 := ty.bestAgain _ _ b3.best
    have n4 := b4.nodes
    have l4 := b4.length
    simp only [Decl.mix, Decl.mixNodes, List.length_append, List.length_cons]
    exact ⟨b4.best, by omega, by omega⟩
  | .fn k name scope s, st, st', h => by
    have b1 := name.best _ _ h
    have n1 := b1.nodes
    have l1 := b1.length
    have b2 := scope.best _ _ b1.best
    have n2 := b2.nodes
    have l2 := b2.length
    have b3 := s.best _ _ b2.best
    have n3 := b3.nodes
    have l3 := b3.length
    simp only [Decl.mix, Decl.mixNodes, List.length_append, List.length_cons]
    exact ⟨b3.best, by omega, by omega⟩
  | .structor dtor targs k s scope cc ps variadic noexc, st, st', h => by
    have h0 := targs.best st st' h
    have n0 := h0.1
    have l0 := h0.2
    have b1 := s.best _ _ (h.odds w)
    have n1 := b1.nodes
    have l1 := b1.length
    have b2 := scope.best _ _ b1.best
    have n2 := b2.nodes
    have l2 := b2.length
    have b3 := ps.best _ _ b2.best
    have n3 := b3.nodes
    have l3 := b3.length
    have lp := Tys.best_params w (variadic := variadic) l3
    have l := l0 (if dtor then c!"?1" else c!"?0")
    simp only [Decl.mix, Decl.mixNodes, List.length_append, List.length_cons]
    exact ⟨b3.best, by omega, by omega⟩
  | .conv targs k cls s, st, st', h => by
    have h0 := targs.best st st' h
    have n0 := h0.1
    have l0 := h0.2
    have b1 := cls.best _ _ (h.odds w)
    have n1 := b1.nodes
    have l1 := b1.length
    have b2 := s.best _ _ b1.best
    have n2 := b2.nodes
    have l2 := b2.length
    have l := l0 c!"?B"
    simp only [Decl.mix, Decl.mixNodes, List.length_append, List.length_cons]
    exact ⟨b2.best, by omega, by omega⟩
theorem Ty.bestAgain : (x : Ty) → (st st' : Pen) → Best w st st' →
    Better w (x.mixAgainNodes w st) (x.mixAgainNodes w st') (x.mixAgain w st).1.length (x.mixAgain w st').1.length (x.mixAgain w st).2 (x.mixAgain w st').2
  | .prim .., st, st', h => by
    simp only [Ty.mixAgain, Ty.mixAgainNodes]
    exact ⟨h, Nat.le_refl _, Nat.le_refl _⟩
  | .tag .., st, st', h => by
    simp only [Ty.mixAgain, Ty.mixAgainNodes]
    exact ⟨h, Nat.le_refl _, Nat.le_refl _⟩
  | .ptr .., st, st', h => by
    simp only [Ty.mixAgain, Ty.mixAgainNodes]
    exact ⟨h, Nat.le_refl _, Nat.le_refl _⟩
  | .fptr .., st, st', h => by
    simp only [Ty.mixAgain, Ty.mixAgainNodes]
    exact ⟨h, Nat.le_refl _, Nat.le_refl _⟩
  | .aptr .., st, st', h => by
    simp only [Ty.mixAgain, Ty.mixAgainNodes]
    exact ⟨h, Nat.le_refl _, Nat.le_refl _⟩
  | .mptr k u cls to, st, st', h => by
    have b1 := cls.best _ _ h
    have n1 := b1.nodes
    have l1 := b1.length
    simp only [Ty.mixAgain, Ty.mixAgainNodes, List.length_append, List.length_cons]
    exact ⟨b1.best, by omega, by omega⟩
  | .mfptr k cls q s, st, st', h => by
    have b1 := cls.best _ _ h
    have n1 := b1.nodes
    have l1 := b1.length
    simp only [Ty.mixAgain, Ty.mixAgainNodes, List.length_append, List.length_cons]
    exact ⟨b1.best, by omega, by omega⟩
end

theorem best_start (coins : Nat → Bool) : Best w { coins := fun _ => true } { coins } :=
  ⟨rfl, fun _ hu => by simp at hu, rfl, by simp, by simp, by simp, by simp⟩

/-- The other symbols. -/
theorem Sym.mix_best (coins : Nat → Bool) (y : Sym) : y.mixNodes w (fun _ => true) ≤ y.mixNodes w coins ∧
    (y.mix w (fun _ => true)).length ≤ (y.mix w coins).length := by
  have h := best_start w coins
  cases y with
  | decl d =>
    have b := d.best w _ _ h
    exact ⟨b.nodes, b.length⟩
  | table t cls c v target =>
    have b := cls.best w _ _ h
    have b' := target.best w _ _ b.best
    have h1 := b.nodes
    have h2 := b.length
    have h3 := b'.nodes
    have h4 := b'.length
    simp only [Sym.mixNodes, Sym.mix, List.length_append]
    exact ⟨by split <;> omega, by omega⟩
  | baseDescriptor _ _ _ _ cls | baseArray cls | hierarchy cls | vcall cls _ _ | guard _ _ cls _ =>
    have b := cls.best w _ _ h
    have h1 := b.nodes
    have h2 := b.length
    simp only [Sym.mixNodes, Sym.mix, List.length_append]
    exact ⟨by omega, by omega⟩
  | initVar dt st name scope ty k s =>
    have b := (Decl.var st name scope ty).best w _ _ h
    have b' := s.best w _ _ b.best
    have h1 := b.nodes
    have h2 := b.length
    have h3 := b'.nodes
    have h4 := b'.length
    simp only [Sym.mixNodes, Sym.mix, List.length_append]
    exact ⟨by omega, by omega⟩
  | initName dt name scope k s =>
    have b := (Decl.fn k (.id name) scope s).best w _ _ h
    have h1 := b.nodes
    have h2 := b.length
    simp only [Sym.mixNodes, Sym.mix, List.length_append, List.length_drop]
    exact ⟨by omega, by omega⟩

theorem EndSym.mix_best (coins : Nat → Bool) (y : EndSym) : y.mixNodes w (fun _ => true) ≤ y.mixNodes w coins ∧
    (y.mix w (fun _ => true)).length ≤ (y.mix w coins).length := by
  have h := best_start w coins
  cases y with
  | typeDescriptor t | typeName t | guard _ _ t =>
    have b := t.best w _ _ h
    have h1 := b.nodes
    have h2 := b.length
    simp only [EndSym.mixNodes, EndSym.mix, List.length_append]
    exact ⟨by omega, by omega⟩

end

end Spec.Cxx
end Undname
