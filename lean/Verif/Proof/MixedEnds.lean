/-
  The two extreme choices of the mangler of `Spec/Mixed.lean`: with all the back-references it is the mangler of
  `Spec/Mangler.lean`, without any it is the one of `Spec/Spelled.lean`.
-/
import Verif.Spec.Mixed
import Verif.Spec.Spelled

namespace Undname
open Spec
namespace Spec.Cxx

section
variable (w : Bool)

mutual
theorem Ty.mix_true : (t : Ty) → (s : Seen) → t.mix w ⟨s, fun _ => true⟩ = ((t.mangle w s).1, ⟨(t.mangle w s).2, fun _ => true⟩)
  | .prim k _ _, s0 => by
    simp only [Ty.mix, Ty.mangle, Pen.odds]
  | .tag k p _ _, s0 => by
    have h0 := p.mix_true s0
    simp only [Ty.mix, Ty.mangle, Pen.odds, h0]
  | .ptr k u to, s0 => by
    have h0 := to.mix_true s0
    simp only [Ty.mix, Ty.mangle, Pen.odds, h0]
  | .fptr k s, s0 => by
    have h0 := s.mix_true s0
    simp only [Ty.mix, Ty.mangle, Pen.odds, h0]
  | .aptr k c v dims el, s0 => by
    have h0 := el.mix_true s0
    simp only [Ty.mix, Ty.mangle, Pen.odds, h0]
  | .mptr k u cls to, s0 => by
    have h0 := cls.mix_true s0
    have h1 := to.mix_true (cls.mangle w s0).2
    simp only [Ty.mix, Ty.mangle, Pen.odds, h0, h1]
  | .mfptr k cls q s, s0 => by
    have h0 := cls.mix_true s0
    have h1 := s.mix_true (cls.mangle w s0).2
    simp only [Ty.mix, Ty.mangle, Pen.odds, h0, h1]
theorem Sig.mix_true : (g : Sig) → (s : Seen) → g.mix w ⟨s, fun _ => true⟩ = ((g.mangle w s).1, ⟨(g.mangle w s).2, fun _ => true⟩)
  | .mk cc ret ps variadic noexc, s0 => by
    have h0 := ret.mix_true s0
    have h1 := ps.mix_true (ret.mangle w s0).2
    simp only [Sig.mix, Sig.mangle, Pen.odds, h0, h1]
theorem Tys.mix_true : (ts : Tys) → (s : Seen) → ts.mix w ⟨s, fun _ => true⟩ = ((ts.mangle w s).1, ⟨(ts.mangle w s).2, fun _ => true⟩)
  | .nil, s => rfl
  | .cons t ts, s => by
    have h1 := t.mix_true s
    have h2 := fun s => ts.mix_true s
    rw [Tys.mix, Tys.mangle]
    show (match (position t s.types) with
      | some i => (digit i ++ (ts.mix w ⟨s, fun _ => true⟩).1, (ts.mix w ⟨s, fun _ => true⟩).2)
      | none => _) = _
    cases hp : position t s.types with
    | some i => simp only [h2]
    | none =>
      show ((t.mix w ⟨s, fun _ => true⟩).1 ++ (ts.mix w (if (t.mix w ⟨s, fun _ => true⟩).1.length = 1 then (t.mix w ⟨s, fun _ => true⟩).2 else (t.mix w ⟨s, fun _ => true⟩).2.noteType t)).1,
        (ts.mix w (if (t.mix w ⟨s, fun _ => true⟩).1.length = 1 then (t.mix w ⟨s, fun _ => true⟩).2 else (t.mix w ⟨s, fun _ => true⟩).2.noteType t)).2) = _
      rw [h1]
      by_cases hl : (t.mangle w s).1.length = 1
      · simp only [hl, if_true, h2]
      · simp only [hl, if_false, Pen.noteType, h2]
theorem Path.mix_true : (p : Path) → (s : Seen) → p.mix w ⟨s, fun _ => true⟩ = ((p.mangle w s).1, ⟨(p.mangle w s).2, fun _ => true⟩)
  | .nil, s0 => by
    simp only [Path.mix, Path.mangle, Pen.odds]
  | .cons s p, s0 => by
    have h0 := s.mix_true s0
    have h1 := p.mix_true (s.mangle w s0).2
    simp only [Path.mix, Path.mangle, Pen.odds, h0, h1]
theorem Seg.mix_true : (x : Seg) → (s : Seen) → x.mix w ⟨s, fun _ => true⟩ = ((x.mangle w s).1, ⟨(x.mangle w s).2, fun _ => true⟩)
  | .id a, s => by
    rw [Seg.mix, Seg.mangle]
    show (match position (.id a) s.names with | some i => _ | none => _) = _
    cases hp : position (Seg.id a) s.names <;> rfl
  | .tm a as, s => by
    have h := as.mix_true (({} : Seen).note (.id a))
    rw [Seg.mix, Seg.mangle]
    show (match position (.tm a as) s.names with
      | some i => _
      | none => (c!"?$" ++ a ++ c!"@" ++ (as.mix w ⟨({} : Seen).note (.id a), fun _ => true⟩).1, _)) = _
    rw [h]
    cases hp : position (Seg.tm a as) s.names <;> rfl
  | .anon key, s => by rw [Seg.mix, Seg.mangle]; rfl
  | .loc n d, s => by
    have h := d.mix_true s
    rw [Seg.mix, Seg.mangle, h]
theorem Args.mix_true : (as : Args) → (s : Seen) → as.mix w ⟨s, fun _ => true⟩ = ((as.mangle w s).1, ⟨(as.mangle w s).2, fun _ => true⟩)
  | .nil, s0 => by
    simp only [Args.mix, Args.mangle, Pen.odds]
  | .ty t as, s0 => by
    have h0 := t.mix_true s0
    have h1 := as.mix_true (t.mangle w s0).2
    simp only [Args.mix, Args.mangle, Pen.odds, h0, h1]
  | .int neg n as, s0 => by
    have h0 := as.mix_true s0
    simp only [Args.mix, Args.mangle, Pen.odds, h0]
  | .pack as, s0 => by
    have h0 := as.mix_true s0
    simp only [Args.mix, Args.mangle, Pen.odds, h0]
  | .fn s as, s0 => by
    have h0 := s.mix_true s0
    have h1 := as.mix_true (s.mangle w s0).2
    simp only [Args.mix, Args.mangle, Pen.odds, h0, h1]
  | .mfn q s as, s0 => by
    have h0 := s.mix_true s0
    have h1 := as.mix_true (s.mangle w s0).2
    simp only [Args.mix, Args.mangle, Pen.odds, h0, h1]
  | .arr c v dims el as, s0 => by
    have h0 := el.mix_true s0
    have h1 := as.mix_true (el.mangle w s0).2
    simp only [Args.mix, Args.mangle, Pen.odds, h0, h1]
  | .tmpl p as, s0 => by
    have h0 := p.mix_true s0
    have h1 := as.mix_true (p.mangle w s0).2
    simp only [Args.mix, Args.mangle, Pen.odds, h0, h1]
  | .addr d as, s0 => by
    have h0 := d.mix_true s0
    have h1 := as.mix_true (d.mangle w s0).2
    simp only [Args.mix, Args.mangle, Pen.odds, h0, h1]
  | .ref d as, s0 => by
    have h0 := d.mix_true s0
    have h1 := as.mix_true (d.mangle w s0).2
    simp only [Args.mix, Args.mangle, Pen.odds, h0, h1]
  | .memFn d offs as, s0 => by
    have h0 := d.mix_true s0
    have h1 := as.mix_true (d.mangle w s0).2
    simp only [Args.mix, Args.mangle, Pen.odds, h0, h1]
  | .memData offs as, s0 => by
    have h0 := as.mix_true s0
    simp only [Args.mix, Args.mangle, Pen.odds, h0]
theorem Targs.mix_true : (ta : Targs) → (s : Seen) → (code : Text) → ta.mix w ⟨s, fun _ => true⟩ code = ta.mangle w code
  | .none, s, code => rfl
  | .some as, s, code => by
    have h := as.mix_true {}
    rw [Targs.mix, Targs.mangle]
    show c!"?$" ++ code ++ (as.mix w ⟨{}, fun _ => true⟩).1 = _
    rw [h]
theorem Head.mix_true : (n : Head) → (s : Seen) → n.mix w ⟨s, fun _ => true⟩ = ((n.mangle w s).1, ⟨(n.mangle w s).2, fun _ => true⟩)
  | .id a, s => by
    rw [Head.mix, Head.mangle]
    show (match position (.id a) s.names with | some i => _ | none => _) = _
    cases hp : position (Seg.id a) s.names <;> rfl
  | .tm a as, s => by
    have h := as.mix_true (({} : Seen).note (.id a))
    rw [Head.mix, Head.mangle]
    show (c!"?$" ++ a ++ c!"@" ++ (as.mix w ⟨({} : Seen).note (.id a), fun _ => true⟩).1, _) = _
    rw [h]; rfl
  | .op o ta, s => by
    have h := ta.mix_true s (opCode o)
    rw [Head.mix, Head.mangle, h]; rfl
  | .lit a, s => rfl
theorem Decl.mix_true : (d : Decl) → (s : Seen) → d.mix w ⟨s, fun _ => true⟩ = ((d.mangle w s).1, ⟨(d.mangle w s).2, fun _ => true⟩)
  | .var st name scope ty, s0 => by
    have h0 := name.mix_true s0
    have h1 := scope.mix_true (name.mangle w s0).2
    have h2 := ty.mix_true (scope.mangle w (name.mangle w s0).2).2
    have h3 := ty.mixAgain_true (ty.mangle w (scope.mangle w (name.mangle w s0).2).2).2
    simp only [Decl.mix, Decl.mangle, Pen.odds, h0, h1, h2, h3]
  | .fn k name scope g, s0 => by
    have h0 := name.mix_true s0
    have h1 := scope.mix_true (name.mangle w s0).2
    have h2 := g.mix_true (scope.mangle w (name.mangle w s0).2).2
    simp only [Decl.mix, Decl.mangle, Pen.odds, h0, h1, h2]
  | .structor dtor targs k sg scope cc ps variadic noexc, s0 => by
    have h0 := targs.mix_true s0 (if dtor then c!"?1" else c!"?0")
    have h1 := sg.mix_true s0
    have h2 := scope.mix_true (sg.mangle w s0).2
    have h3 := ps.mix_true (scope.mangle w (sg.mangle w s0).2).2
    simp only [Decl.mix, Decl.mangle, Pen.odds, h0, h1, h2, h3]
  | .conv targs k cls g, s0 => by
    have h0 := targs.mix_true s0 c!"?B"
    have h1 := cls.mix_true s0
    have h2 := g.mix_true (cls.mangle w s0).2
    simp only [Decl.mix, Decl.mangle, Pen.odds, h0, h1, h2]
theorem Ty.mixAgain_true : (t : Ty) → (s : Seen) → t.mixAgain w ⟨s, fun _ => true⟩ = ((t.again w s).1, ⟨(t.again w s).2, fun _ => true⟩)
  | .prim _ c v, s | .tag _ _ c v, s | .ptr k u to, s | .fptr _ _, s | .aptr k _ _ _ _, s => by simp only [Ty.mixAgain, Ty.again]
  | .mptr k u cls to, s => by
    have h := cls.mix_true s
    simp only [Ty.mixAgain, Ty.again, h]
  | .mfptr _ cls _ _, s => by
    have h := cls.mix_true s
    simp only [Ty.mixAgain, Ty.again, h]
end

mutual
theorem Ty.mix_false : (t : Ty) → (s : Seen) → ∃ s', t.mix w ⟨s, fun _ => false⟩ = (t.spell w, ⟨s', fun _ => false⟩)
  | .prim k _ _, s0 => by
    exact ⟨s0, by simp only [Ty.mix, Ty.spell, Pen.odds]⟩
  | .tag k p _ _, s0 => by
    obtain ⟨s1, h0⟩ := p.mix_false s0
    exact ⟨s1, by simp only [Ty.mix, Ty.spell, Pen.odds, h0]⟩
  | .ptr k u to, s0 => by
    obtain ⟨s1, h0⟩ := to.mix_false s0
    exact ⟨s1, by simp only [Ty.mix, Ty.spell, Pen.odds, h0]⟩
  | .fptr k s, s0 => by
    obtain ⟨s1, h0⟩ := s.mix_false s0
    exact ⟨s1, by simp only [Ty.mix, Ty.spell, Pen.odds, h0]⟩
  | .aptr k c v dims el, s0 => by
    obtain ⟨s1, h0⟩ := el.mix_false s0
    exact ⟨s1, by simp only [Ty.mix, Ty.spell, Pen.odds, h0]⟩
  | .mptr k u cls to, s0 => by
    obtain ⟨s1, h0⟩ := cls.mix_false s0
    obtain ⟨s2, h1⟩ := to.mix_false s1
    exact ⟨s2, by simp only [Ty.mix, Ty.spell, Pen.odds, h0, h1]⟩
  | .mfptr k cls q s, s0 => by
    obtain ⟨s1, h0⟩ := cls.mix_false s0
    obtain ⟨s2, h1⟩ := s.mix_false s1
    exact ⟨s2, by simp only [Ty.mix, Ty.spell, Pen.odds, h0, h1]⟩
theorem Sig.mix_false : (g : Sig) → (s : Seen) → ∃ s', g.mix w ⟨s, fun _ => false⟩ = (g.spell w, ⟨s', fun _ => false⟩)
  | .mk cc ret ps variadic noexc, s0 => by
    obtain ⟨s1, h0⟩ := ret.mix_false s0
    obtain ⟨s2, h1⟩ := ps.mix_false s1
    exact ⟨s2, by simp only [Sig.mix, Sig.spell, Pen.odds, h0, h1]⟩
theorem Tys.mix_false : (ts : Tys) → (s : Seen) → ∃ s', ts.mix w ⟨s, fun _ => false⟩ = (ts.spell w, ⟨s', fun _ => false⟩)
  | .nil, s => ⟨s, by rw [Tys.mix, Tys.spell]⟩
  | .cons t ts, s => by
    obtain ⟨s1, h1⟩ := t.mix_false s
    have h2 := fun s => ts.mix_false s
    rw [Tys.mix, Tys.spell]
    show ∃ s', ((t.mix w ⟨s, fun _ => false⟩).1 ++ (ts.mix w (if (t.mix w ⟨s, fun _ => false⟩).1.length = 1 then (t.mix w ⟨s, fun _ => false⟩).2 else (t.mix w ⟨s, fun _ => false⟩).2.noteType t)).1,
        (ts.mix w (if (t.mix w ⟨s, fun _ => false⟩).1.length = 1 then (t.mix w ⟨s, fun _ => false⟩).2 else (t.mix w ⟨s, fun _ => false⟩).2.noteType t)).2) = (_, _)
    rw [h1]
    by_cases hl : (t.spell w).length = 1
    · obtain ⟨s2, h2⟩ := h2 s1
      exact ⟨s2, by simp only [hl, if_true, h2]⟩
    · obtain ⟨s2, h2⟩ := h2 (s1.noteType t)
      exact ⟨s2, by simp only [hl, if_false, Pen.noteType, h2]⟩
theorem Path.mix_false : (p : Path) → (s : Seen) → ∃ s', p.mix w ⟨s, fun _ => false⟩ = (p.spell w, ⟨s', fun _ => false⟩)
  | .nil, s0 => by
    exact ⟨s0, by simp only [Path.mix, Path.spell, Pen.odds]⟩
  | .cons s p, s0 => by
    obtain ⟨s1, h0⟩ := s.mix_false s0
    obtain ⟨s2, h1⟩ := p.mix_false s1
    exact ⟨s2, by simp only [Path.mix, Path.spell, Pen.odds, h0, h1]⟩
theorem Seg.mix_false : (x : Seg) → (s : Seen) → ∃ s', x.mix w ⟨s, fun _ => false⟩ = (x.spell w, ⟨s', fun _ => false⟩)
  | .id a, s => ⟨s.note (.id a), by
    rw [Seg.mix, Seg.spell]
    rfl⟩
  | .tm a as, s => by
    obtain ⟨_, h⟩ := as.mix_false (({} : Seen).note (.id a))
    rw [Seg.mix, Seg.spell]
    show ∃ s', (c!"?$" ++ a ++ c!"@" ++ (as.mix w ⟨({} : Seen).note (.id a), fun _ => false⟩).1, _) = (_, _)
    rw [h]
    exact ⟨s.note (.tm a as), rfl⟩
  | .anon key, s => ⟨s.note (.anon key), by rw [Seg.mix, Seg.spell]; rfl⟩
  | .loc n d, s => by
    obtain ⟨s1, h⟩ := d.mix_false s
    exact ⟨s1, by rw [Seg.mix, Seg.spell, h]⟩
theorem Args.mix_false : (as : Args) → (s : Seen) → ∃ s', as.mix w ⟨s, fun _ => false⟩ = (as.spell w, ⟨s', fun _ => false⟩)
  | .nil, s0 => by
    exact ⟨s0, by simp only [Args.mix, Args.spell, Pen.odds]⟩
  | .ty t as, s0 => by
    obtain ⟨s1, h0⟩ := t.mix_false s0
    obtain ⟨s2, h1⟩ := as.mix_false s1
    exact ⟨s2, by simp only [Args.mix, Args.spell, Pen.odds, h0, h1]⟩
  | .int neg n as, s0 => by
    obtain ⟨s1, h0⟩ := as.mix_false s0
    exact ⟨s1, by simp only [Args.mix, Args.spell, Pen.odds, h0]⟩
  | .pack as, s0 => by
    obtain ⟨s1, h0⟩ := as.mix_false s0
    exact ⟨s1, by simp only [Args.mix, Args.spell, Pen.odds, h0]⟩
  | .fn s as, s0 => by
    obtain ⟨s1, h0⟩ := s.mix_false s0
    obtain ⟨s2, h1⟩ := as.mix_false s1
    exact ⟨s2, by simp only [Args.mix, Args.spell, Pen.odds, h0, h1]⟩
  | .mfn q s as, s0 => by
    obtain ⟨s1, h0⟩ := s.mix_false s0
    obtain ⟨s2, h1⟩ := as.mix_false s1
    exact ⟨s2, by simp only [Args.mix, Args.spell, Pen.odds, h0, h1]⟩
  | .arr c v dims el as, s0 => by
    obtain ⟨s1, h0⟩ := el.mix_false s0
    obtain ⟨s2, h1⟩ := as.mix_false s1
    exact ⟨s2, by simp only [Args.mix, Args.spell, Pen.odds, h0, h1]⟩
  | .tmpl p as, s0 => by
    obtain ⟨s1, h0⟩ := p.mix_false s0
    obtain ⟨s2, h1⟩ := as.mix_false s1
    exact ⟨s2, by simp only [Args.mix, Args.spell, Pen.odds, h0, h1]⟩
  | .addr d as, s0 => by
    obtain ⟨s1, h0⟩ := d.mix_false s0
    obtain ⟨s2, h1⟩ := as.mix_false s1
    exact ⟨s2, by simp only [Args.mix, Args.spell, Pen.odds, h0, h1]⟩
  | .ref d as, s0 => by
    obtain ⟨s1, h0⟩ := d.mix_false s0
    obtain ⟨s2, h1⟩ := as.mix_false s1
    exact ⟨s2, by simp only [Args.mix, Args.spell, Pen.odds, h0, h1]⟩
  | .memFn d offs as, s0 => by
    obtain ⟨s1, h0⟩ := d.mix_false s0
    obtain ⟨s2, h1⟩ := as.mix_false s1
    exact ⟨s2, by simp only [Args.mix, Args.spell, Pen.odds, h0, h1]⟩
  | .memData offs as, s0 => by
    obtain ⟨s1, h0⟩ := as.mix_false s0
    exact ⟨s1, by simp only [Args.mix, Args.spell, Pen.odds, h0]⟩
theorem Targs.mix_false : (ta : Targs) → (s : Seen) → (code : Text) → ta.mix w ⟨s, fun _ => false⟩ code = ta.spell w code
  | .none, s, code => by rw [Targs.mix, Targs.spell]
  | .some as, s, code => by
    obtain ⟨_, h⟩ := as.mix_false {}
    rw [Targs.mix, Targs.spell]
    show c!"?$" ++ code ++ (as.mix w ⟨{}, fun _ => false⟩).1 = _
    rw [h]
theorem Head.mix_false : (n : Head) → (s : Seen) → ∃ s', n.mix w ⟨s, fun _ => false⟩ = (n.spell w, ⟨s', fun _ => false⟩)
  | .id a, s => ⟨s.note (.id a), by
    rw [Head.mix, Head.spell]
    rfl⟩
  | .tm a as, s => by
    obtain ⟨_, h⟩ := as.mix_false (({} : Seen).note (.id a))
    rw [Head.mix, Head.spell]
    show ∃ s', (c!"?$" ++ a ++ c!"@" ++ (as.mix w ⟨({} : Seen).note (.id a), fun _ => false⟩).1, _) = (_, _)
    rw [h]
    exact ⟨s, rfl⟩
  | .op o ta, s => by
    have h := ta.mix_false s (opCode o)
    rw [Head.mix, Head.spell, h]
    exact ⟨s, rfl⟩
  | .lit a, s => ⟨s, by rw [Head.mix, Head.spell]⟩
theorem Decl.mix_false : (d : Decl) → (s : Seen) → ∃ s', d.mix w ⟨s, fun _ => false⟩ = (d.spell w, ⟨s', fun _ => false⟩)
  | .var st name scope ty, s0 => by
    obtain ⟨s1, h0⟩ := name.mix_false s0
    obtain ⟨s2, h1⟩ := scope.mix_false s1
    obtain ⟨s3, h2⟩ := ty.mix_false s2
    obtain ⟨s4, h3⟩ := ty.mixAgain_false s3
    exact ⟨s4, by simp only [Decl.mix, Decl.spell, Pen.odds, h0, h1, h2, h3]⟩
  | .fn k name scope g, s0 => by
    obtain ⟨s1, h0⟩ := name.mix_false s0
    obtain ⟨s2, h1⟩ := scope.mix_false s1
    obtain ⟨s3, h2⟩ := g.mix_false s2
    exact ⟨s3, by simp only [Decl.mix, Decl.spell, Pen.odds, h0, h1, h2]⟩
  | .structor dtor targs k sg scope cc ps variadic noexc, s0 => by
    have h0 := targs.mix_false s0 (if dtor then c!"?1" else c!"?0")
    obtain ⟨s2, h1⟩ := sg.mix_false s0
    obtain ⟨s3, h2⟩ := scope.mix_false s2
    obtain ⟨s4, h3⟩ := ps.mix_false s3
    exact ⟨s4, by simp only [Decl.mix, Decl.spell, Pen.odds, h0, h1, h2, h3]⟩
  | .conv targs k cls g, s0 => by
    have h0 := targs.mix_false s0 c!"?B"
    obtain ⟨s2, h1⟩ := cls.mix_false s0
    obtain ⟨s3, h2⟩ := g.mix_false s2
    exact ⟨s3, by simp only [Decl.mix, Decl.spell, Pen.odds, h0, h1, h2]⟩
theorem Ty.mixAgain_false : (t : Ty) → (s : Seen) → ∃ s', t.mixAgain w ⟨s, fun _ => false⟩ = (t.spellAgain w, ⟨s', fun _ => false⟩)
  | .prim _ c v, s | .tag _ _ c v, s | .ptr k u to, s | .fptr _ _, s | .aptr k _ _ _ _, s => ⟨s, by simp only [Ty.mixAgain, Ty.spellAgain]⟩
  | .mptr k u cls to, s => by
    obtain ⟨s1, h⟩ := cls.mix_false s
    exact ⟨s1, by simp only [Ty.mixAgain, Ty.spellAgain, h]⟩
  | .mfptr _ cls _ _, s => by
    obtain ⟨s1, h⟩ := cls.mix_false s
    exact ⟨s1, by simp only [Ty.mixAgain, Ty.spellAgain, h]⟩
end

end

end Spec.Cxx
end Undname
