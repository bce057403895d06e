/-
  The width of pointers: the names of a declaration for 32 and for 64 bits cost the demangler the same number of nodes.
-/
import Verif.Spec.MixedNodes

namespace Undname
open Spec
namespace Spec.Cxx

theorem Path.mix_pos (w : Bool) : (p : Path) → (st : Pen) → 0 < (p.mix w st).1.length
  | .nil, st => by simp [Path.mix]
  | .cons s p, st => by
    have := p.mix_pos w (s.mix w st).2
    simp [Path.mix]; omega

theorem tagCode_pos (k : TagKind) : 0 < (tagCode k).length := by cases k <;> decide
theorem PK.code_pos (k : PK) : 0 < k.code.length := by cases k <;> simp [PK.code]

/-- A type is written with one letter for both widths, or for neither. -/
theorem Ty.mix_short (t : Ty) (st : Pen) : (t.mix true st).1.length = 1 ↔ (t.mix false st).1.length = 1 := by
  have k (w : Bool) : (∃ k c v, t = .prim k c v) ∨ 1 < (t.mix w st).1.length := by
    cases t with
    | prim k c v => exact .inl ⟨k, c, v, rfl⟩
    | tag k p c v =>
      have h1 := p.mix_pos w st
      have h2 := tagCode_pos k
      exact .inr (by simp [Ty.mix]; omega)
    | ptr k _ _ | fptr k _ | aptr k _ _ _ _ | mptr k _ _ _ | mfptr k _ _ _ =>
      have := k.code_pos
      exact .inr (by simp [Ty.mix]; try omega)
  rcases k true with ⟨a, b, c, rfl⟩ | h
  · rfl
  · rcases k false with ⟨a, b, c, rfl⟩ | g
    · rfl
    · constructor <;> intro <;> omega

mutual
theorem Ty.width : (x : Ty) → (st : Pen) → (x.mix true st).2 = (x.mix false st).2 ∧ x.mixNodes true st = x.mixNodes false st
  | .prim .., st => by
    simp only [Ty.mix, Ty.mixNodes]
    all_goals (refine ⟨?_, ?_⟩ <;> first | rfl | trivial)
  | .tag k p _ _, st => by
    obtain ⟨e1, n1⟩ := p.width st
    simp only [Ty.mix, Ty.mixNodes, e1, n1]
    all_goals (refine ⟨?_, ?_⟩ <;> first | rfl | trivial)
  | .ptr k u to, st => by
    obtain ⟨e1, n1⟩ := to.width st
    simp only [Ty.mix, Ty.mixNodes, e1, n1]
    all_goals (refine ⟨?_, ?_⟩ <;> first | rfl | trivial)
  | .fptr k s, st => by
    obtain ⟨e1, n1⟩ := s.width st
    simp only [Ty.mix, Ty.mixNodes, e1, n1]
    all_goals (refine ⟨?_, ?_⟩ <;> first | rfl | trivial)
  | .aptr k c v dims el, st => by
    obtain ⟨e1, n1⟩ := el.width st
    simp only [Ty.mix, Ty.mixNodes, e1, n1]
    all_goals (refine ⟨?_, ?_⟩ <;> first | rfl | trivial)
  | .mptr k u cls to, st => by
    obtain ⟨e1, n1⟩ := cls.width st
    obtain ⟨e2, n2⟩ := to.width (cls.mix false st).2
    simp only [Ty.mix, Ty.mixNodes, e1, n1, e2, n2]
    all_goals (refine ⟨?_, ?_⟩ <;> first | rfl | trivial)
  | .mfptr k cls q s, st => by
    obtain ⟨e1, n1⟩ := cls.width st
    obtain ⟨e2, n2⟩ := s.width (cls.mix false st).2
    simp only [Ty.mix, Ty.mixNodes, e1, n1, e2, n2]
    all_goals (refine ⟨?_, ?_⟩ <;> first | rfl | trivial)
theorem Sig.width : (x : Sig) → (st : Pen) → (x.mix true st).2 = (x.mix false st).2 ∧ x.mixNodes true st = x.mixNodes false st
  | .mk cc ret ps variadic noexc, st => by
    obtain ⟨e1, n1⟩ := ret.width st
    obtain ⟨e2, n2⟩ := ps.width (ret.mix false st).2
    simp only [Sig.mix, Sig.mixNodes, e1, n1, e2, n2]
    all_goals (refine ⟨?_, ?_⟩ <;> first | rfl | trivial)
theorem Tys.width : (x : Tys) → (st : Pen) → (x.mix true st).2 = (x.mix false st).2 ∧ x.mixNodes true st = x.mixNodes false st
  | .nil, st => by
    simp only [Tys.mix, Tys.mixNodes]
    all_goals (refine ⟨?_, ?_⟩ <;> first | rfl | trivial)
  | .cons t ts, st => by
    simp only [Tys.mix, Tys.mixNodes]
    cases st.pick (position t st.types) with
    | some i =>
      obtain ⟨e, n⟩ := ts.width st.tick
      simp only [e, n]
      all_goals (refine ⟨?_, ?_⟩ <;> first | rfl | trivial)
    | none =>
      obtain ⟨e, n⟩ := t.width st.tick
      have c := t.mix_short st.tick
      simp only [e, n, c]
      obtain ⟨e', n'⟩ := ts.width (if (t.mix false st.tick).1.length = 1 then (t.mix false st.tick).2 else (t.mix false st.tick).2.noteType t)
      simp only [e', n']
      all_goals (refine ⟨?_, ?_⟩ <;> first | rfl | trivial)
theorem Path.width : (x : Path) → (st : Pen) → (x.mix true st).2 = (x.mix false st).2 ∧ x.mixNodes true st = x.mixNodes false st
  | .nil, st => by
    simp only [Path.mix, Path.mixNodes]
    all_goals (refine ⟨?_, ?_⟩ <;> first | rfl | trivial)
  | .cons s p, st => by
    obtain ⟨e1, n1⟩ := s.width st
    obtain ⟨e2, n2⟩ := p.width (s.mix false st).2
    simp only [Path.mix, Path.mixNodes, e1, n1, e2, n2]
    all_goals (refine ⟨?_, ?_⟩ <;> first | rfl | trivial)
theorem Seg.width : (x : Seg) → (st : Pen) → (x.mix true st).2 = (x.mix false st).2 ∧ x.mixNodes true st = x.mixNodes false st
  | .id s, st => by
    simp only [Seg.mix, Seg.mixNodes]
    exact ⟨trivial, trivial⟩
  | .tm s as, st => by
    obtain ⟨_, n⟩ := as.width (st.evens.note (.id s))
    simp only [Seg.mix, Seg.mixNodes, n]
    split <;> (refine ⟨?_, ?_⟩ <;> first | rfl | trivial)
  | .anon key, st => by
    simp only [Seg.mix, Seg.mixNodes]
    all_goals (refine ⟨?_, ?_⟩ <;> first | rfl | trivial)
  | .loc n d, st => by
    obtain ⟨e1, n1⟩ := d.width st
    simp only [Seg.mix, Seg.mixNodes, e1, n1]
    all_goals (refine ⟨?_, ?_⟩ <;> first | rfl | trivial)
theorem Args.width : (x : Args) → (st : Pen) → (x.mix true st).2 = (x.mix false st).2 ∧ x.mixNodes true st = x.mixNodes false st
  | .nil, st => by
    simp only [Args.mix, Args.mixNodes]
    all_goals (refine ⟨?_, ?_⟩ <;> first | rfl | trivial)
  | .ty t as, st => by
    obtain ⟨e1, n1⟩ := t.width st
    obtain ⟨e2, n2⟩ := as.width (t.mix false st).2
    simp only [Args.mix, Args.mixNodes, e1, n1, e2, n2]
    all_goals (refine ⟨?_, ?_⟩ <;> first | rfl | trivial)
  | .int neg n as, st => by
    obtain ⟨e1, n1⟩ := as.width st
    simp only [Args.mix, Args.mixNodes, e1, n1]
    all_goals (refine ⟨?_, ?_⟩ <;> first | rfl | trivial)
  | .pack as, st => by
    obtain ⟨e1, n1⟩ := as.width st
    simp only [Args.mix, Args.mixNodes, e1, n1]
    all_goals (refine ⟨?_, ?_⟩ <;> first | rfl | trivial)
  | .fn s as, st => by
    obtain ⟨e1, n1⟩ := s.width st
    obtain ⟨e2, n2⟩ := as.width (s.mix false st).2
    simp only [Args.mix, Args.mixNodes, e1, n1, e2, n2]
    all_goals (refine ⟨?_, ?_⟩ <;> first | rfl | trivial)
  | .mfn q s as, st => by
    obtain ⟨e1, n1⟩ := s.width st
    obtain ⟨e2, n2⟩ := as.width (s.mix false st).2
    simp only [Args.mix, Args.mixNodes, e1, n1, e2, n2]
    all_goals (refine ⟨?_, ?_⟩ <;> first | rfl | trivial)
  | .arr c v dims el as, st => by
    obtain ⟨e1, n1⟩ := el.width st
    obtain ⟨e2, n2⟩ := as.width (el.mix false st).2
    simp only [Args.mix, Args.mixNodes, e1, n1, e2, n2]
    all_goals (refine ⟨?_, ?_⟩ <;> first | rfl | trivial)
  | .tmpl p as, st => by
    obtain ⟨e1, n1⟩ := p.width st
    obtain ⟨e2, n2⟩ := as.width (p.mix false st).2
    simp only [Args.mix, Args.mixNodes, e1, n1, e2, n2]
    all_goals (refine ⟨?_, ?_⟩ <;> first | rfl | trivial)
  | .addr d as, st => by
    obtain ⟨e1, n1⟩ := d.width st
    obtain ⟨e2, n2⟩ := as.width (d.mix false st).2
    simp only [Args.mix, Args.mixNodes, e1, n1, e2, n2]
    all_goals (refine ⟨?_, ?_⟩ <;> first | rfl | trivial)
  | .ref d as, st => by
    obtain ⟨e1, n1⟩ := d.width st
    obtain ⟨e2, n2⟩ := as.width (d.mix false st).2
    simp only [Args.mix, Args.mixNodes, e1, n1, e2, n2]
    all_goals (refine ⟨?_, ?_⟩ <;> first | rfl | trivial)
  | .memFn d offs as, st => by
    obtain ⟨e1, n1⟩ := d.width st
    obtain ⟨e2, n2⟩ := as.width (d.mix false st).2
    simp only [Args.mix, Args.mixNodes, e1, n1, e2, n2]
    all_goals (refine ⟨?_, ?_⟩ <;> first | rfl | trivial)
  | .memData offs as, st => by
    obtain ⟨e1, n1⟩ := as.width st
    simp only [Args.mix, Args.mixNodes, e1, n1]
    all_goals (refine ⟨?_, ?_⟩ <;> first | rfl | trivial)
theorem Targs.width : (x : Targs) → (st : Pen) → x.mixNodes true st = x.mixNodes false st
  | .none, _ => by simp only [Targs.mixNodes]
  | .some as, st => by
    obtain ⟨_, n⟩ := as.width st.evens
    simp only [Targs.mixNodes, n]
theorem Head.width : (x : Head) → (st : Pen) → (x.mix true st).2 = (x.mix false st).2 ∧ x.mixNodes true st = x.mixNodes false st
  | .id s, st => by
    simp only [Head.mix, Head.mixNodes]
    exact ⟨trivial, trivial⟩
  | .tm s as, st => by
    obtain ⟨_, n⟩ := as.width (st.evens.note (.id s))
    simp only [Head.mix, Head.mixNodes, n]
    all_goals (refine ⟨?_, ?_⟩ <;> first | rfl | trivial)
  | .op o ta, st => by
    have n := ta.width st
    simp only [Head.mix, Head.mixNodes, n]
    all_goals (refine ⟨?_, ?_⟩ <;> first | rfl | trivial)
  | .lit s, st => by
    simp only [Head.mix, Head.mixNodes]
    all_goals (refine ⟨?_, ?_⟩ <;> first | rfl | trivial)
theorem Decl.width : (x : Decl) → (st : Pen) → (x.mix true st).2 = (x.mix false st).2 ∧ x.mixNodes true st = x.mixNodes false st
  | .var k name scope ty, st => by
    obtain ⟨e1, n1⟩ := name.width st
    obtain ⟨e2, n2⟩ := scope.width (name.mix false st).2
    obtain ⟨e3, n3⟩ := ty.width (scope.mix false (name.mix false st).2).2
    obtain ⟨e4, n4⟩ := ty.widthAgain (ty.mix false (scope.mix false (name.mix false st).2).2).2
    simp only [Decl.mix, Decl.mixNodes, e1, n1, e2, n2, e3, n3, e4, n4]
    all_goals (refine ⟨?_, ?_⟩ <;> first | rfl | trivial)
  | .fn k name scope s, st => by
    obtain ⟨e1, n1⟩ := name.width st
    obtain ⟨e2, n2⟩ := scope.width (name.mix false st).2
    obtain ⟨e3, n3⟩ := s.width (scope.mix false (name.mix false st).2).2
    simp only [Decl.mix, Decl.mixNodes, e1, n1, e2, n2, e3, n3]
    all_goals (refine ⟨?_, ?_⟩ <;> first | rfl | trivial)
  | .structor dtor targs k s scope cc ps variadic noexc, st => by
    have n0 := targs.width st
    obtain ⟨e1, n1⟩ := s.width st.odds
    obtain ⟨e2, n2⟩ := scope.width (s.mix false st.odds).2
    obtain ⟨e3, n3⟩ := ps.width (scope.mix false (s.mix false st.odds).2).2
    simp only [Decl.mix, Decl.mixNodes, n0, e1, n1, e2, n2, e3, n3]
    all_goals (refine ⟨?_, ?_⟩ <;> first | rfl | trivial)
  | .conv targs k cls s, st => by
    have n0 := targs.width st
    obtain ⟨e1, n1⟩ := cls.width st.odds
    obtain ⟨e2, n2⟩ := s.width (cls.mix false st.odds).2
    simp only [Decl.mix, Decl.mixNodes, n0, e1, n1, e2, n2]
    all_goals (refine ⟨?_, ?_⟩ <;> first | rfl | trivial)
theorem Ty.widthAgain : (x : Ty) → (st : Pen) → (x.mixAgain true st).2 = (x.mixAgain false st).2 ∧ x.mixAgainNodes true st = x.mixAgainNodes false st
  | .prim .., st => by
    simp only [Ty.mixAgain, Ty.mixAgainNodes]
    all_goals (refine ⟨?_, ?_⟩ <;> first | rfl | trivial)
  | .tag .., st => by
    simp only [Ty.mixAgain, Ty.mixAgainNodes]
    all_goals (refine ⟨?_, ?_⟩ <;> first | rfl | trivial)
  | .ptr .., st => by
    simp only [Ty.mixAgain, Ty.mixAgainNodes]
    all_goals (refine ⟨?_, ?_⟩ <;> first | rfl | trivial)
  | .fptr .., st => by
    simp only [Ty.mixAgain, Ty.mixAgainNodes]
    all_goals (refine ⟨?_, ?_⟩ <;> first | rfl | trivial)
  | .aptr .., st => by
    simp only [Ty.mixAgain, Ty.mixAgainNodes]
    all_goals (refine ⟨?_, ?_⟩ <;> first | rfl | trivial)
  | .mptr k u cls to, st => by
    obtain ⟨e1, n1⟩ := cls.width st
    simp only [Ty.mixAgain, Ty.mixAgainNodes, e1, n1]
    all_goals (refine ⟨?_, ?_⟩ <;> first | rfl | trivial)
  | .mfptr k cls q s, st => by
    obtain ⟨e1, n1⟩ := cls.width st
    simp only [Ty.mixAgain, Ty.mixAgainNodes, e1, n1]
    all_goals (refine ⟨?_, ?_⟩ <;> first | rfl | trivial)
end

/-- The other symbols. -/
theorem Sym.width (coins : Nat → Bool) (y : Sym) : y.mixNodes true coins = y.mixNodes false coins := by
  cases y with
  | decl d => exact (d.width _).2
  | table t cls c v target =>
    obtain ⟨e, n⟩ := cls.width { coins }
    obtain ⟨_, n'⟩ := target.width (cls.mix false { coins }).2
    simp only [Sym.mixNodes, e, n, n']
  | baseDescriptor _ _ _ _ cls | baseArray cls | hierarchy cls | vcall cls _ _ | guard _ _ cls _ =>
    simp only [Sym.mixNodes, (cls.width { coins }).2]
  | initVar dt st name scope ty k s =>
    obtain ⟨e, n⟩ := (Decl.var st name scope ty).width { coins }
    obtain ⟨_, n'⟩ := s.width ((Decl.var st name scope ty).mix false { coins }).2
    simp only [Sym.mixNodes, e, n, n']
  | initName dt name scope k s => simp only [Sym.mixNodes, ((Decl.fn k (.id name) scope s).width { coins }).2]

theorem EndSym.width (coins : Nat → Bool) (y : EndSym) : y.mixNodes true coins = y.mixNodes false coins := by
  cases y with
  | typeDescriptor t | typeName t | guard _ _ t => simp only [EndSym.mixNodes, (t.width { coins }).2]

end Spec.Cxx
end Undname
