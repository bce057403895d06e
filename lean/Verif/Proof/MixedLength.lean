/-
  Whatever coins the mangler of `Spec/Mixed.lean` tosses, it never writes more characters than the one of
  `Spec/Spelled.lean`.
-/
import Verif.Proof.Mixed
import Verif.Proof.Shorter

namespace Undname
open Spec
namespace Spec.Cxx

theorem Tys.mix_nil (w : Bool) (ts : Tys) (st : Pen) : (ts.mix w st).1 = [] ↔ ts = .nil := by
  cases ts with
  | nil => simp [Tys.mix]
  | cons t ts =>
    rw [Tys.mix]
    cases hp : st.pick (position t st.types) with
    | some i => simp [digit]
    | none => simp [(t.mix_head w st.tick).1]

theorem Tys.mparams_le (w : Bool) (ts : Tys) (st : Pen) (variadic : Bool) (h : (ts.mix w st).1.length ≤ (ts.spell w).length) :
    (if (ts.mix w st).1.isEmpty && !variadic then c!"X" else (ts.mix w st).1 ++ (if variadic then c!"Z" else c!"@")).length ≤
    (if (ts.spell w).isEmpty && !variadic then c!"X" else ts.spell w ++ (if variadic then c!"Z" else c!"@")).length := by
  have h1 := ts.mix_nil w st
  have h2 := ts.spell_nil w
  have e : (ts.mix w st).1.isEmpty = (ts.spell w).isEmpty := by
    rw [Bool.eq_iff_iff, List.isEmpty_iff, List.isEmpty_iff, h1, h2]
  rw [e]
  split
  · exact Nat.le_refl _
  · simp only [List.length_append]; omega

section
variable (w : Bool)

mutual
theorem Ty.mix_le : (t : Ty) → (st : Pen) → (t.mix w st).1.length ≤ (t.spell w).length
  | .prim k _ _, st => by simp [Ty.mix, Ty.spell]
  | .tag k p _ _, st => by
    have := p.mix_le st
    simp [Ty.mix, Ty.spell]; omega
  | .ptr k u to, st => by
    have := to.mix_le st
    simp [Ty.mix, Ty.spell]; omega
  | .fptr k s, st => by
    have := s.mix_le st
    simp [Ty.mix, Ty.spell]; omega
  | .aptr k c v dims el, st => by
    have := el.mix_le st
    simp [Ty.mix, Ty.spell]; omega
  | .mptr k u cls to, st => by
    have h1 := cls.mix_le st
    have h2 := to.mix_le (cls.mix w st).2
    simp [Ty.mix, Ty.spell]; omega
  | .mfptr k cls q s, st => by
    have h1 := cls.mix_le st
    have h2 := s.mix_le (cls.mix w st).2
    simp [Ty.mix, Ty.spell]; omega
theorem Sig.mix_le : (s : Sig) → (st : Pen) → (s.mix w st).1.length ≤ (s.spell w).length
  | .mk cc ret ps variadic noexc, st => by
    have h1 := ret.mix_le st
    have h2 := ps.mix_le (ret.mix w st).2
    have h3 := ps.mparams_le w (ret.mix w st).2 variadic h2
    rw [Sig.mix, Sig.spell]
    simp only [List.length_append, List.length_cons]
    omega
theorem Tys.mix_le : (ts : Tys) → (st : Pen) → (ts.mix w st).1.length ≤ (ts.spell w).length
  | .nil, st => by simp [Tys.mix]
  | .cons t ts, st => by
    have h1 := t.mix_le st.tick
    have h2 := fun st => ts.mix_le st
    have h3 := List.length_pos_iff.2 (t.spell_head w).1
    rw [Tys.mix, Tys.spell]
    cases hp : st.pick (position t st.types) with
    | some i =>
      have := h2 st.tick
      simp only [List.length_append, digit, List.length_cons, List.length_nil]
      omega
    | none =>
      have := h2 (if (t.mix w st.tick).1.length = 1 then (t.mix w st.tick).2 else (t.mix w st.tick).2.noteType t)
      simp only [List.length_append]
      omega
theorem Path.mix_le : (p : Path) → (st : Pen) → (p.mix w st).1.length ≤ (p.spell w).length
  | .nil, st => by simp [Path.mix, Path.spell]
  | .cons s p, st => by
    have h1 := s.mix_le st
    have h2 := p.mix_le (s.mix w st).2
    simp [Path.mix, Path.spell]; omega
theorem Seg.mix_le : (s : Seg) → (st : Pen) → (s.mix w st).1.length ≤ (s.spell w).length
  | .id s, st => by
    rw [Seg.mix, Seg.spell]
    cases hp : st.pick (position (Seg.id s) st.names) <;> simp [digit]
  | .tm s as, st => by
    have h1 := as.mix_le (st.evens.note (.id s))
    rw [Seg.mix, Seg.spell]
    cases hp : st.pick (position (Seg.tm s as) st.names) with
    | some i => simp [digit]
    | none => simp; omega
  | .anon key, st => by simp [Seg.mix, Seg.spell]
  | .loc n d, st => by
    have h1 := d.mix_le st
    simp [Seg.mix, Seg.spell]; omega
theorem Args.mix_le : (as : Args) → (st : Pen) → (as.mix w st).1.length ≤ (as.spell w).length
  | .nil, st => by simp [Args.mix, Args.spell]
  | .ty t as, st => by
    have h1 := t.mix_le st
    have h2 := as.mix_le (t.mix w st).2
    simp [Args.mix, Args.spell]; omega
  | .int neg n as, st => by
    have h2 := as.mix_le st
    simp [Args.mix, Args.spell]; omega
  | .pack as, st => by
    have h2 := as.mix_le st
    simp [Args.mix, Args.spell]; omega
  | .fn s as, st => by
    have h1 := s.mix_le st
    have h2 := as.mix_le (s.mix w st).2
    simp [Args.mix, Args.spell]; omega
  | .mfn q s as, st => by
    have h1 := s.mix_le st
    have h2 := as.mix_le (s.mix w st).2
    simp [Args.mix, Args.spell]; omega
  | .arr c v dims el as, st => by
    have h1 := el.mix_le st
    have h2 := as.mix_le (el.mix w st).2
    simp [Args.mix, Args.spell]; omega
  | .tmpl p as, st => by
    have h1 := p.mix_le st
    have h2 := as.mix_le (p.mix w st).2
    simp [Args.mix, Args.spell]; omega
  | .addr d as, st => by
    have h1 := d.mix_le st
    have h2 := as.mix_le (d.mix w st).2
    simp [Args.mix, Args.spell]; omega
  | .ref d as, st => by
    have h1 := d.mix_le st
    have h2 := as.mix_le (d.mix w st).2
    simp [Args.mix, Args.spell]; omega
  | .memFn d offs as, st => by
    have h1 := d.mix_le st
    have h2 := as.mix_le (d.mix w st).2
    rw [Args.mix, Args.spell]
    simp only [List.length_append]
    omega
  | .memData offs as, st => by
    have h2 := as.mix_le st
    rw [Args.mix, Args.spell]
    simp only [List.length_append]
    omega
theorem Targs.mix_le : (ta : Targs) → (st : Pen) → (code : Text) → (ta.mix w st code).length ≤ (ta.spell w code).length
  | .none, st, code => by simp [Targs.mix, Targs.spell]
  | .some as, st, code => by
    have h1 := as.mix_le st.evens
    simp [Targs.mix, Targs.spell]; omega
theorem Head.mix_le : (n : Head) → (st : Pen) → (n.mix w st).1.length ≤ (n.spell w).length
  | .id s, st => by
    rw [Head.mix, Head.spell]
    cases hp : st.pick (position (Seg.id s) st.names) <;> simp [digit]
  | .tm s as, st => by
    have h1 := as.mix_le (st.evens.note (.id s))
    simp [Head.mix, Head.spell]; omega
  | .op o ta, st => by
    have h1 := ta.mix_le st (opCode o)
    simp [Head.mix, Head.spell]; omega
  | .lit s, st => by simp [Head.mix, Head.spell]
theorem Decl.mix_le : (d : Decl) → (st : Pen) → (d.mix w st).1.length ≤ (d.spell w).length
  | .var st name scope ty, seen => by
    have h1 := name.mix_le seen
    have h2 := scope.mix_le (name.mix w seen).2
    have h3 := ty.mix_le (scope.mix w (name.mix w seen).2).2
    have h4 := ty.mixAgain_le (ty.mix w (scope.mix w (name.mix w seen).2).2).2
    simp [Decl.mix, Decl.spell]; omega
  | .fn k name scope s, seen => by
    have h1 := name.mix_le seen
    have h2 := scope.mix_le (name.mix w seen).2
    have h3 := s.mix_le (scope.mix w (name.mix w seen).2).2
    simp [Decl.mix, Decl.spell]; omega
  | .structor dtor targs k s scope cc ps variadic noexc, seen => by
    have h0 := targs.mix_le seen (if dtor then c!"?1" else c!"?0")
    have h1 := s.mix_le seen.odds
    have h2 := scope.mix_le (s.mix w seen.odds).2
    have h3 := ps.mix_le (scope.mix w (s.mix w seen.odds).2).2
    have h4 := ps.mparams_le w (scope.mix w (s.mix w seen.odds).2).2 variadic h3
    rw [Decl.mix, Decl.spell]
    simp only [List.length_append, List.length_cons, List.length_nil]
    omega
  | .conv targs k cls s, seen => by
    have h0 := targs.mix_le seen c!"?B"
    have h1 := cls.mix_le seen.odds
    have h2 := s.mix_le (cls.mix w seen.odds).2
    simp [Decl.mix, Decl.spell]; omega
theorem Ty.mixAgain_le : (t : Ty) → (st : Pen) → (t.mixAgain w st).1.length ≤ (t.spellAgain w).length
  | .prim _ c v, st | .tag _ _ c v, st => by simp [Ty.mixAgain, Ty.spellAgain]
  | .ptr k u to, st => by simp [Ty.mixAgain, Ty.spellAgain]
  | .fptr _ _, st => by simp [Ty.mixAgain, Ty.spellAgain]
  | .aptr k .., st => by simp [Ty.mixAgain, Ty.spellAgain]
  | .mptr k u cls to, st => by
    have h1 := cls.mix_le st
    simp [Ty.mixAgain, Ty.spellAgain]; omega
  | .mfptr _ cls _ _, st => by
    have h1 := cls.mix_le st
    simp [Ty.mixAgain, Ty.spellAgain]; omega
end

end

end Spec.Cxx
end Undname
