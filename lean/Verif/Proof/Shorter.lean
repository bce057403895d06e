/-
  Back-references only make a mangled name shorter: the mangler of `Spec/Mangler.lean` never writes more characters
  than the one of `Spec/Spelled.lean`.
-/
import Verif.Proof.SpelledSym

namespace Undname
open Spec
namespace Spec.Cxx

theorem Tys.mangle_nil (w : Bool) (ts : Tys) (st : Seen) : (ts.mangle w st).1 = [] ↔ ts = .nil := by
  cases ts with
  | nil => simp [Tys.mangle]
  | cons t ts =>
    rw [Tys.mangle]
    cases hp : position t st.types with
    | some i => simp [digit]
    | none => simp [(t.mangle_head w st).1]

theorem Tys.spell_nil (w : Bool) (ts : Tys) : ts.spell w = [] ↔ ts = .nil := by
  cases ts with
  | nil => simp [Tys.spell]
  | cons t ts => simp [Tys.spell, (t.spell_head w).1]

theorem Tys.params_le (w : Bool) (ts : Tys) (st : Seen) (variadic : Bool) (h : (ts.mangle w st).1.length ≤ (ts.spell w).length) :
    (if (ts.mangle w st).1.isEmpty && !variadic then c!"X" else (ts.mangle w st).1 ++ (if variadic then c!"Z" else c!"@")).length ≤
    (if (ts.spell w).isEmpty && !variadic then c!"X" else ts.spell w ++ (if variadic then c!"Z" else c!"@")).length := by
  have h1 := ts.mangle_nil w st
  have h2 := ts.spell_nil w
  have e : (ts.mangle w st).1.isEmpty = (ts.spell w).isEmpty := by
    rw [Bool.eq_iff_iff, List.isEmpty_iff, List.isEmpty_iff, h1, h2]
  rw [e]
  split
  · exact Nat.le_refl _
  · simp only [List.length_append]; omega

section
variable (w : Bool)

mutual
theorem Ty.mangle_le : (t : Ty) → (st : Seen) → (t.mangle w st).1.length ≤ (t.spell w).length
  | .prim k _ _, st => by simp [Ty.mangle, Ty.spell]
  | .tag k p _ _, st => by
    have := p.mangle_le st
    simp [Ty.mangle, Ty.spell]; omega
  | .ptr k u to, st => by
    have := to.mangle_le st
    simp [Ty.mangle, Ty.spell]; omega
  | .fptr k s, st => by
    have := s.mangle_le st
    simp [Ty.mangle, Ty.spell]; omega
  | .aptr k c v dims el, st => by
    have := el.mangle_le st
    simp [Ty.mangle, Ty.spell]; omega
  | .mptr k u cls to, st => by
    have h1 := cls.mangle_le st
    have h2 := to.mangle_le (cls.mangle w st).2
    simp [Ty.mangle, Ty.spell]; omega
  | .mfptr k cls q s, st => by
    have h1 := cls.mangle_le st
    have h2 := s.mangle_le (cls.mangle w st).2
    simp [Ty.mangle, Ty.spell]; omega
theorem Sig.mangle_le : (s : Sig) → (st : Seen) → (s.mangle w st).1.length ≤ (s.spell w).length
  | .mk cc ret ps variadic noexc, st => by
    have h1 := ret.mangle_le st
    have h2 := ps.mangle_le (ret.mangle w st).2
    have h3 := ps.params_le w (ret.mangle w st).2 variadic h2
    rw [Sig.mangle, Sig.spell]
    simp only [List.length_append, List.length_cons]
    omega
theorem Tys.mangle_le : (ts : Tys) → (st : Seen) → (ts.mangle w st).1.length ≤ (ts.spell w).length
  | .nil, st => by simp [Tys.mangle]
  | .cons t ts, st => by
    have h1 := t.mangle_le st
    have h2 := fun st => ts.mangle_le st
    have h3 := List.length_pos_iff.2 (t.spell_head w).1
    rw [Tys.mangle, Tys.spell]
    cases hp : position t st.types with
    | some i =>
      have := h2 st
      simp only [List.length_append, digit, List.length_cons, List.length_nil]
      omega
    | none =>
      have := h2 (if (t.mangle w st).1.length = 1 then (t.mangle w st).2 else (t.mangle w st).2.noteType t)
      simp only [List.length_append]
      omega
theorem Path.mangle_le : (p : Path) → (st : Seen) → (p.mangle w st).1.length ≤ (p.spell w).length
  | .nil, st => by simp [Path.mangle, Path.spell]
  | .cons s p, st => by
    have h1 := s.mangle_le st
    have h2 := p.mangle_le (s.mangle w st).2
    simp [Path.mangle, Path.spell]; omega
theorem Seg.mangle_le : (s : Seg) → (st : Seen) → (s.mangle w st).1.length ≤ (s.spell w).length
  | .id s, st => by
    rw [Seg.mangle, Seg.spell]
    cases hp : position (Seg.id s) st.names <;> simp [digit]
  | .tm s as, st => by
    have h1 := as.mangle_le (({} : Seen).note (.id s))
    rw [Seg.mangle, Seg.spell]
    cases hp : position (Seg.tm s as) st.names with
    | some i => simp [digit]
    | none => simp; omega
  | .anon key, st => by simp [Seg.mangle, Seg.spell]
  | .loc n d, st => by
    have h1 := d.mangle_le st
    simp [Seg.mangle, Seg.spell]; omega
theorem Args.mangle_le : (as : Args) → (st : Seen) → (as.mangle w st).1.length ≤ (as.spell w).length
  | .nil, st => by simp [Args.mangle, Args.spell]
  | .ty t as, st => by
    have h1 := t.mangle_le st
    have h2 := as.mangle_le (t.mangle w st).2
    simp [Args.mangle, Args.spell]; omega
  | .int neg n as, st => by
    have h2 := as.mangle_le st
    simp [Args.mangle, Args.spell]; omega
  | .pack as, st => by
    have h2 := as.mangle_le st
    simp [Args.mangle, Args.spell]; omega
  | .fn s as, st => by
    have h1 := s.mangle_le st
    have h2 := as.mangle_le (s.mangle w st).2
    simp [Args.mangle, Args.spell]; omega
  | .mfn q s as, st => by
    have h1 := s.mangle_le st
    have h2 := as.mangle_le (s.mangle w st).2
    simp [Args.mangle, Args.spell]; omega
  | .arr c v dims el as, st => by
    have h1 := el.mangle_le st
    have h2 := as.mangle_le (el.mangle w st).2
    simp [Args.mangle, Args.spell]; omega
  | .tmpl p as, st => by
    have h1 := p.mangle_le st
    have h2 := as.mangle_le (p.mangle w st).2
    simp [Args.mangle, Args.spell]; omega
  | .addr d as, st => by
    have h1 := d.mangle_le st
    have h2 := as.mangle_le (d.mangle w st).2
    simp [Args.mangle, Args.spell]; omega
  | .ref d as, st => by
    have h1 := d.mangle_le st
    have h2 := as.mangle_le (d.mangle w st).2
    simp [Args.mangle, Args.spell]; omega
  | .memFn d offs as, st => by
    have h1 := d.mangle_le st
    have h2 := as.mangle_le (d.mangle w st).2
    rw [Args.mangle, Args.spell]
    simp only [List.length_append]
    omega
  | .memData offs as, st => by
    have h2 := as.mangle_le st
    rw [Args.mangle, Args.spell]
    simp only [List.length_append]
    omega
theorem Targs.mangle_le : (ta : Targs) → (code : Text) → (ta.mangle w code).length ≤ (ta.spell w code).length
  | .none, code => by simp [Targs.mangle, Targs.spell]
  | .some as, code => by
    have h1 := as.mangle_le {}
    simp [Targs.mangle, Targs.spell]; omega
theorem Head.mangle_le : (n : Head) → (st : Seen) → (n.mangle w st).1.length ≤ (n.spell w).length
  | .id s, st => by
    rw [Head.mangle, Head.spell]
    cases hp : position (Seg.id s) st.names <;> simp [digit]
  | .tm s as, st => by
    have h1 := as.mangle_le (({} : Seen).note (.id s))
    simp [Head.mangle, Head.spell]; omega
  | .op o ta, st => by
    have h1 := ta.mangle_le (opCode o)
    simp [Head.mangle, Head.spell]; omega
  | .lit s, st => by simp [Head.mangle, Head.spell]
theorem Decl.mangle_le : (d : Decl) → (st : Seen) → (d.mangle w st).1.length ≤ (d.spell w).length
  | .var st name scope ty, seen => by
    have h1 := name.mangle_le seen
    have h2 := scope.mangle_le (name.mangle w seen).2
    have h3 := ty.mangle_le (scope.mangle w (name.mangle w seen).2).2
    have h4 := ty.again_le (ty.mangle w (scope.mangle w (name.mangle w seen).2).2).2
    simp [Decl.mangle, Decl.spell]; omega
  | .fn k name scope s, seen => by
    have h1 := name.mangle_le seen
    have h2 := scope.mangle_le (name.mangle w seen).2
    have h3 := s.mangle_le (scope.mangle w (name.mangle w seen).2).2
    simp [Decl.mangle, Decl.spell]; omega
  | .structor dtor targs k s scope cc ps variadic noexc, seen => by
    have h0 := targs.mangle_le (if dtor then c!"?1" else c!"?0")
    have h1 := s.mangle_le seen
    have h2 := scope.mangle_le (s.mangle w seen).2
    have h3 := ps.mangle_le (scope.mangle w (s.mangle w seen).2).2
    have h4 := ps.params_le w (scope.mangle w (s.mangle w seen).2).2 variadic h3
    rw [Decl.mangle, Decl.spell]
    simp only [List.length_append, List.length_cons, List.length_nil]
    omega
  | .conv targs k cls s, seen => by
    have h0 := targs.mangle_le c!"?B"
    have h1 := cls.mangle_le seen
    have h2 := s.mangle_le (cls.mangle w seen).2
    simp [Decl.mangle, Decl.spell]; omega
theorem Ty.again_le : (t : Ty) → (st : Seen) → (t.again w st).1.length ≤ (t.spellAgain w).length
  | .prim _ c v, st | .tag _ _ c v, st => by simp [Ty.again, Ty.spellAgain]
  | .ptr k u to, st => by simp [Ty.again, Ty.spellAgain]
  | .fptr _ _, st => by simp [Ty.again, Ty.spellAgain]
  | .aptr k .., st => by simp [Ty.again, Ty.spellAgain]
  | .mptr k u cls to, st => by
    have h1 := cls.mangle_le st
    simp [Ty.again, Ty.spellAgain]; omega
  | .mfptr _ cls _ _, st => by
    have h1 := cls.mangle_le st
    simp [Ty.again, Ty.spellAgain]; omega
end

theorem Sym.mangle_le (y : Sym) : (y.mangle w).length ≤ (y.spell w).length := by
  cases y with
  | decl d => exact d.mangle_le w {}
  | table t cls c v target =>
    have h1 := cls.mangle_le w {}
    have h2 := target.mangle_le w (cls.mangle w {}).2
    simp only [Sym.mangle, Sym.spell, List.length_append]; omega
  | baseDescriptor nv vb vt fl cls =>
    have h1 := cls.mangle_le w {}
    simp only [Sym.mangle, Sym.spell, List.length_append]; omega
  | baseArray cls =>
    have h1 := cls.mangle_le w {}
    simp only [Sym.mangle, Sym.spell, List.length_append]; omega
  | hierarchy cls =>
    have h1 := cls.mangle_le w {}
    simp only [Sym.mangle, Sym.spell, List.length_append]; omega
  | vcall cls n cc =>
    have h1 := cls.mangle_le w {}
    simp only [Sym.mangle, Sym.spell, List.length_append]; omega
  | guard th vis scope n =>
    have h1 := scope.mangle_le w {}
    simp only [Sym.mangle, Sym.spell, List.length_append]; omega
  | initVar dt st name scope ty k s =>
    have h1 := (Decl.var st name scope ty).mangle_le w {}
    have h2 := s.mangle_le w ((Decl.var st name scope ty).mangle w {}).2
    simp only [Sym.mangle, Sym.spell, List.length_append]; omega
  | initName dt name scope k s =>
    have h1 := (Decl.fn k (.id name) scope s).mangle_le w {}
    have e : ((Decl.fn k (.id name) scope s).spell w).length = (name ++ c!"@" ++ scope.spell w ++ k.code ++ k.thisCode w ++ s.spell w).length + 1 := by
      rw [Decl.spell, Head.spell]; simp
    rw [e] at h1
    simp only [Sym.mangle, Sym.spell, List.length_append, List.length_drop] at h1 ⊢; omega

theorem EndSym.mangle_le (y : EndSym) : (y.mangle w).length ≤ (y.spell w).length := by
  cases y with
  | typeDescriptor t =>
    have h1 := t.mangle_le w {}
    simp only [EndSym.mangle, EndSym.spell, List.length_append]; omega
  | typeName t =>
    have h1 := t.mangle_le w {}
    simp only [EndSym.mangle, EndSym.spell, List.length_append]; omega
  | guard th vis scope =>
    have h1 := scope.mangle_le w {}
    simp only [EndSym.mangle, EndSym.spell, List.length_append]; omega

end

end Spec.Cxx
end Undname
