/-
  What a mangler remembers, and the number of nodes, are the same for 32 and 64 bits.
-/
import Verif.Spec.MangledNodes

namespace Undname
open Spec
namespace Spec.Cxx

theorem Path.mangle_pos : (p : Path) → ∀ (w : Bool) (st : Seen), 1 ≤ (p.mangle w st).1.length
  | .nil, w, st => by rw [Path.mangle]; simp
  | .cons s p, w, st => by
    have := Path.mangle_pos p w (s.mangle w st).2
    rw [Path.mangle]
    simp only [List.length_append]
    omega

theorem Ty.len_one (w w' : Bool) (t : Ty) (st : Seen) : ((t.mangle w st).1.length = 1) = ((t.mangle w' st).1.length = 1) := by
  have hk : ∀ k : PK, 1 ≤ k.code.length := by intro k; cases k <;> simp [PK.code]
  have hn := Path.mangle_pos
  have ht : ∀ k : TagKind, 1 ≤ (tagCode k).length := by intro k; cases k <;> simp [tagCode]
  cases t with
  | prim k c v => rw [Ty.mangle, Ty.mangle]
  | tag k p c v =>
    rw [Ty.mangle, Ty.mangle]
    have := hn p w st; have := hn p w' st; have := ht k
    simp only [List.length_append, eq_iff_iff]
    omega
  | ptr k u to => rw [Ty.mangle, Ty.mangle]; have := hk k; simp; omega
  | fptr k s => rw [Ty.mangle, Ty.mangle]; have := hk k; simp; omega
  | aptr k c v d e => rw [Ty.mangle, Ty.mangle]; have := hk k; simp; omega
  | mptr k u c to => rw [Ty.mangle, Ty.mangle]; have := hk k; simp; omega
  | mfptr k c q s => rw [Ty.mangle, Ty.mangle]; have := hk k; simp; omega

set_option maxHeartbeats 1000000 in
mutual
theorem Ty.word (w w' : Bool) : (t : Ty) → ∀ st : Seen, (t.mangle w st).2 = (t.mangle w' st).2 ∧ t.nodes w st = t.nodes w' st
  | .prim .., _ => by simp only [Ty.mangle, Ty.nodes, and_self]
  | .tag _ p _ _, st => by
    have h := Path.word w w' p st
    simp only [Ty.mangle, Ty.nodes, h.1, h.2, and_self]
  | .ptr _ _ to, st => by
    have h := Ty.word w w' to st
    simp only [Ty.mangle, Ty.nodes, h.1, h.2, and_self]
  | .fptr _ s, st => by
    have h := Sig.word w w' s st
    simp only [Ty.mangle, Ty.nodes, h.1, h.2, and_self]
  | .aptr _ _ _ _ el, st => by
    have h := Ty.word w w' el st
    simp only [Ty.mangle, Ty.nodes, h.1, h.2, and_self]
  | .mptr _ _ cls to, st => by
    have h := Path.word w w' cls st
    have h' := Ty.word w w' to (cls.mangle w' st).2
    simp only [Ty.mangle, Ty.nodes, h.1, h.2, h'.1, h'.2, and_self]
  | .mfptr _ cls _ s, st => by
    have h := Path.word w w' cls st
    have h' := Sig.word w w' s (cls.mangle w' st).2
    simp only [Ty.mangle, Ty.nodes, h.1, h.2, h'.1, h'.2, and_self]
theorem Sig.word (w w' : Bool) : (s : Sig) → ∀ st : Seen, (s.mangle w st).2 = (s.mangle w' st).2 ∧ s.nodes w st = s.nodes w' st
  | .mk _ ret ps _ _, st => by
    have h := Ty.word w w' ret st
    have h' := Tys.word w w' ps (ret.mangle w' st).2
    simp only [Sig.mangle, Sig.nodes, h.1, h.2, h'.1, h'.2, and_self]
theorem Tys.word (w w' : Bool) : (ts : Tys) → ∀ st : Seen, (ts.mangle w st).2 = (ts.mangle w' st).2 ∧ ts.nodes w st = ts.nodes w' st
  | .nil, _ => by simp only [Tys.mangle, Tys.nodes, and_self]
  | .cons t ts, st => by
    have h := Ty.word w w' t st
    have h1 := Tys.word w w' ts st
    have h2 := fun st => Tys.word w w' ts st
    simp only [Tys.mangle, Tys.nodes]
    cases position t st.types with
    | some i => exact h1
    | none =>
      dsimp only
      simp only [h.1, h.2, (h2 _).1, (h2 _).2, Ty.len_one w w' t st, and_self]
theorem Path.word (w w' : Bool) : (p : Path) → ∀ st : Seen, (p.mangle w st).2 = (p.mangle w' st).2 ∧ p.nodes w st = p.nodes w' st
  | .nil, _ => by simp only [Path.mangle, Path.nodes, and_self]
  | .cons s p, st => by
    have h := Seg.word w w' s st
    have h' := Path.word w w' p (s.mangle w' st).2
    simp only [Path.mangle, Path.nodes, h.1, h.2, h'.1, h'.2, and_self]
theorem Seg.word (w w' : Bool) : (s : Seg) → ∀ st : Seen, (s.mangle w st).2 = (s.mangle w' st).2 ∧ s.nodes w st = s.nodes w' st
  | .id s, st => by simp only [Seg.mangle, Seg.nodes, and_self]
  | .tm s as, st => by
    have h := Args.word w w' as (({} : Seen).note (.id s))
    simp only [Seg.mangle, Seg.nodes, h.2]
    cases position (Seg.tm s as) st.names <;> simp
  | .anon _, st => by simp only [Seg.mangle, Seg.nodes, and_self]
  | .loc _ d, st => by
    have h := Decl.word w w' d st
    simp only [Seg.mangle, Seg.nodes, h.1, h.2, and_self]
theorem Args.word (w w' : Bool) : (as : Args) → ∀ st : Seen, (as.mangle w st).2 = (as.mangle w' st).2 ∧ as.nodes w st = as.nodes w' st
  | .nil, _ => by simp only [Args.mangle, Args.nodes, and_self]
  | .ty t as, st => by
    have h := Ty.word w w' t st
    have h' := Args.word w w' as (t.mangle w' st).2
    simp only [Args.mangle, Args.nodes, h.1, h.2, h'.1, h'.2, and_self]
  | .int _ _ as, st => by
    have h := Args.word w w' as st
    simp only [Args.mangle, Args.nodes, h.1, h.2, and_self]
  | .pack as, st => by
    have h := Args.word w w' as st
    simp only [Args.mangle, Args.nodes, h.1, h.2, and_self]
  | .fn s as, st => by
    have h := Sig.word w w' s st
    have h' := Args.word w w' as (s.mangle w' st).2
    simp only [Args.mangle, Args.nodes, h.1, h.2, h'.1, h'.2, and_self]
  | .mfn _ s as, st => by
    have h := Sig.word w w' s st
    have h' := Args.word w w' as (s.mangle w' st).2
    simp only [Args.mangle, Args.nodes, h.1, h.2, h'.1, h'.2, and_self]
  | .arr _ _ _ el as, st => by
    have h := Ty.word w w' el st
    have h' := Args.word w w' as (el.mangle w' st).2
    simp only [Args.mangle, Args.nodes, h.1, h.2, h'.1, h'.2, and_self]
  | .tmpl p as, st => by
    have h := Path.word w w' p st
    have h' := Args.word w w' as (p.mangle w' st).2
    simp only [Args.mangle, Args.nodes, h.1, h.2, h'.1, h'.2, and_self]
  | .addr d as, st => by
    have h := Decl.word w w' d st
    have h' := Args.word w w' as (d.mangle w' st).2
    simp only [Args.mangle, Args.nodes, h.1, h.2, h'.1, h'.2, and_self]
  | .ref d as, st => by
    have h := Decl.word w w' d st
    have h' := Args.word w w' as (d.mangle w' st).2
    simp only [Args.mangle, Args.nodes, h.1, h.2, h'.1, h'.2, and_self]
  | .memFn d _ as, st => by
    have h := Decl.word w w' d st
    have h' := Args.word w w' as (d.mangle w' st).2
    simp only [Args.mangle, Args.nodes, h.1, h.2, h'.1, h'.2, and_self]
  | .memData _ as, st => by
    have h := Args.word w w' as st
    simp only [Args.mangle, Args.nodes, h.1, h.2, and_self]
theorem Targs.word (w w' : Bool) : (ta : Targs) → ta.nodes w = ta.nodes w'
  | .none => by simp only [Targs.nodes]
  | .some as => by simp only [Targs.nodes, (Args.word w w' as {}).2]
theorem Head.word (w w' : Bool) : (n : Head) → ∀ st : Seen, (n.mangle w st).2 = (n.mangle w' st).2 ∧ n.nodes w st = n.nodes w' st
  | .id s, st => by simp only [Head.mangle, Head.nodes, and_self]
  | .tm s as, st => by
    have h := Args.word w w' as (({} : Seen).note (.id s))
    simp only [Head.mangle, Head.nodes, h.2, and_self]
  | .op _ ta, st => by simp only [Head.mangle, Head.nodes, Targs.word w w' ta, and_self]
  | .lit _, st => by simp only [Head.mangle, Head.nodes, and_self]
theorem Decl.word (w w' : Bool) : (d : Decl) → ∀ st : Seen, (d.mangle w st).2 = (d.mangle w' st).2 ∧ d.nodes w st = d.nodes w' st
  | .var _ n p ty, st => by
    have h1 := Head.word w w' n st
    have h2 := Path.word w w' p (n.mangle w' st).2
    have h3 := Ty.word w w' ty (p.mangle w' (n.mangle w' st).2).2
    have h4 := Ty.againWord w w' ty (ty.mangle w' (p.mangle w' (n.mangle w' st).2).2).2
    simp only [Decl.mangle, Decl.nodes, h1.1, h1.2, h2.1, h2.2, h3.1, h3.2, h4.1, h4.2, and_self]
  | .fn _ n p s, st => by
    have h1 := Head.word w w' n st
    have h2 := Path.word w w' p (n.mangle w' st).2
    have h3 := Sig.word w w' s (p.mangle w' (n.mangle w' st).2).2
    simp only [Decl.mangle, Decl.nodes, h1.1, h1.2, h2.1, h2.2, h3.1, h3.2, and_self]
  | .structor _ ta _ s p _ ps _ _, st => by
    have h0 := Targs.word w w' ta
    have h1 := Seg.word w w' s st
    have h2 := Path.word w w' p (s.mangle w' st).2
    have h3 := Tys.word w w' ps (p.mangle w' (s.mangle w' st).2).2
    simp only [Decl.mangle, Decl.nodes, h0, h1.1, h1.2, h2.1, h2.2, h3.1, h3.2, and_self]
  | .conv ta _ p s, st => by
    have h0 := Targs.word w w' ta
    have h2 := Path.word w w' p st
    have h3 := Sig.word w w' s (p.mangle w' st).2
    simp only [Decl.mangle, Decl.nodes, h0, h2.1, h2.2, h3.1, h3.2, and_self]
theorem Ty.againWord (w w' : Bool) : (t : Ty) → ∀ st : Seen, (t.again w st).2 = (t.again w' st).2 ∧ t.againNodes w st = t.againNodes w' st
  | .prim .., _ => by simp only [Ty.again, Ty.againNodes, and_self]
  | .tag _ p _ _, st => by simp only [Ty.again, Ty.againNodes, and_self]
  | .ptr _ _ to, st => by simp only [Ty.again, Ty.againNodes, and_self]
  | .fptr _ s, st => by simp only [Ty.again, Ty.againNodes, and_self]
  | .aptr _ _ _ _ el, st => by simp only [Ty.again, Ty.againNodes, and_self]
  | .mptr _ _ cls to, st => by
    have h := Path.word w w' cls st
    simp only [Ty.again, Ty.againNodes, h.1, h.2, and_self]
  | .mfptr _ cls _ s, st => by
    have h := Path.word w w' cls st
    simp only [Ty.again, Ty.againNodes, h.1, h.2, and_self]
end

theorem Sym.word (w w' : Bool) (y : Sym) : y.nodes w = y.nodes w' := by
  cases y with
  | decl d => exact (d.word w w' {}).2
  | table t cls c v target => simp only [Sym.nodes, (cls.word w w' {}).2, (cls.word w w' {}).1, (target.word w w' _).2]
  | baseDescriptor nv vb vt fl cls => simp only [Sym.nodes, (cls.word w w' {}).2]
  | baseArray cls => simp only [Sym.nodes, (cls.word w w' {}).2]
  | hierarchy cls => simp only [Sym.nodes, (cls.word w w' {}).2]
  | vcall cls n cc => simp only [Sym.nodes, (cls.word w w' {}).2]
  | guard th vis scope n => simp only [Sym.nodes, (scope.word w w' {}).2]
  | initVar dt st name scope ty k s =>
    simp only [Sym.nodes, (Decl.word w w' (.var st name scope ty) {}).2, (Decl.word w w' (.var st name scope ty) {}).1, (s.word w w' _).2]
  | initName dt name scope k s => simp only [Sym.nodes, (Decl.word w w' (.fn k (.id name) scope s) {}).2]

theorem EndSym.word (w w' : Bool) (y : EndSym) : y.nodes w = y.nodes w' := by
  cases y with
  | typeDescriptor t => simp only [EndSym.nodes, (t.word w w' {}).2]
  | typeName t => simp only [EndSym.nodes, (t.word w w' {}).2]
  | guard th vis scope => simp only [EndSym.nodes, (scope.word w w' {}).2]

end Spec.Cxx
end Undname
