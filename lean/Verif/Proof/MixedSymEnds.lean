/-
  The extremes of `Spec/Mixed.lean` for the symbols which are not declarations: all the back-references, and none.
-/
import Verif.Proof.MixedEnds

namespace Undname
open Spec
namespace Spec.Cxx

section
variable (w : Bool)

theorem Sym.mix_true (y : Sym) : y.mix w (fun _ => true) = y.mangle w := by
  cases y with
  | decl d => exact congrArg Prod.fst (d.mix_true w {})
  | table t cls c v target => simp only [Sym.mix, Sym.mangle, cls.mix_true w {}, target.mix_true w]
  | baseDescriptor _ _ _ _ cls | baseArray cls | hierarchy cls | vcall cls _ _ | guard _ _ cls _ =>
    simp only [Sym.mix, Sym.mangle, cls.mix_true w {}]
  | initVar dt st name scope ty k s =>
    simp only [Sym.mix, Sym.mangle, (Decl.var st name scope ty).mix_true w {}, s.mix_true w]
  | initName dt name scope k s => simp only [Sym.mix, Sym.mangle, (Decl.fn k (.id name) scope s).mix_true w {}]

theorem EndSym.mix_true (y : EndSym) : y.mix w (fun _ => true) = y.mangle w := by
  cases y with
  | typeDescriptor t | typeName t | guard _ _ t => simp only [EndSym.mix, EndSym.mangle, t.mix_true w {}]

theorem Sym.mix_false (y : Sym) : y.mix w (fun _ => false) = y.spell w := by
  cases y with
  | decl d =>
    obtain ⟨_, h⟩ := d.mix_false w {}
    exact congrArg Prod.fst h
  | table t cls c v target =>
    obtain ⟨s, h⟩ := cls.mix_false w {}
    obtain ⟨_, g⟩ := target.mix_false w s
    simp only [Sym.mix, Sym.spell, h, g]
  | baseDescriptor _ _ _ _ cls | baseArray cls | hierarchy cls | vcall cls _ _ | guard _ _ cls _ =>
    obtain ⟨_, h⟩ := cls.mix_false w {}
    simp only [Sym.mix, Sym.spell, h]
  | initVar dt st name scope ty k s =>
    obtain ⟨x, h⟩ := (Decl.var st name scope ty).mix_false w {}
    obtain ⟨_, g⟩ := s.mix_false w x
    simp only [Sym.mix, Sym.spell, h, g]
  | initName dt name scope k s =>
    obtain ⟨_, h⟩ := (Decl.fn k (.id name) scope s).mix_false w {}
    simp only [Sym.mix, Sym.spell, h, Decl.spell, Head.spell, List.cons_append, List.nil_append, List.append_assoc,
      List.drop_succ_cons, List.drop_zero]

theorem EndSym.mix_false (y : EndSym) : y.mix w (fun _ => false) = y.spell w := by
  cases y with
  | typeDescriptor t | typeName t | guard _ _ t =>
    obtain ⟨_, h⟩ := t.mix_false w {}
    simp only [EndSym.mix, EndSym.spell, h]

end

end Spec.Cxx
end Undname
