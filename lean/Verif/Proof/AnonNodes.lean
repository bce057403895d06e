/-
  Renaming the keys of anonymous namespaces one to one renames what a mangler remembers, and leaves the number of
  nodes as it is.
-/
import Verif.Spec.MangledNodes
import Verif.Proof.ManglerWord
import Verif.Proof.AnonKeys

namespace Undname
open Spec
namespace Spec.Cxx

section
variable {f g : Text → Text} (hg : ∀ k, g (f k) = k)
include hg

mutual
theorem Ty.mapKeys_back : ∀ t : Ty, (t.mapKeys f).mapKeys g = t
  | .prim .. => rfl
  | .tag k p c v => by simp only [Ty.mapKeys, Path.mapKeys_back p]
  | .ptr k u to => by simp only [Ty.mapKeys, Ty.mapKeys_back to]
  | .fptr k s => by simp only [Ty.mapKeys, Sig.mapKeys_back s]
  | .aptr k c v dims el => by simp only [Ty.mapKeys, Ty.mapKeys_back el]
  | .mptr k u cls to => by simp only [Ty.mapKeys, Ty.mapKeys_back to, Path.mapKeys_back cls]
  | .mfptr k cls q s => by simp only [Ty.mapKeys, Sig.mapKeys_back s, Path.mapKeys_back cls]
theorem Sig.mapKeys_back : ∀ s : Sig, (s.mapKeys f).mapKeys g = s
  | .mk cc ret ps va ne => by simp only [Sig.mapKeys, Ty.mapKeys_back ret, Tys.mapKeys_back ps]
theorem Tys.mapKeys_back : ∀ ts : Tys, (ts.mapKeys f).mapKeys g = ts
  | .nil => rfl
  | .cons t ts => by simp only [Tys.mapKeys, Ty.mapKeys_back t, Tys.mapKeys_back ts]
theorem Path.mapKeys_back : ∀ p : Path, (p.mapKeys f).mapKeys g = p
  | .nil => rfl
  | .cons s p => by simp only [Path.mapKeys, Seg.mapKeys_back s, Path.mapKeys_back p]
theorem Seg.mapKeys_back : ∀ s : Seg, (s.mapKeys f).mapKeys g = s
  | .id s => rfl
  | .tm s as => by simp only [Seg.mapKeys, Args.mapKeys_back as]
  | .anon key => by simp only [Seg.mapKeys, hg key]
  | .loc n d => by simp only [Seg.mapKeys, Decl.mapKeys_back d]
theorem Args.mapKeys_back : ∀ as : Args, (as.mapKeys f).mapKeys g = as
  | .nil => rfl
  | .ty t as => by simp only [Args.mapKeys, Ty.mapKeys_back t, Args.mapKeys_back as]
  | .int neg n as => by simp only [Args.mapKeys, Args.mapKeys_back as]
  | .pack as => by simp only [Args.mapKeys, Args.mapKeys_back as]
  | .fn s as => by simp only [Args.mapKeys, Sig.mapKeys_back s, Args.mapKeys_back as]
  | .mfn q s as => by simp only [Args.mapKeys, Sig.mapKeys_back s, Args.mapKeys_back as]
  | .arr c v dims el as => by simp only [Args.mapKeys, Ty.mapKeys_back el, Args.mapKeys_back as]
  | .tmpl p as => by simp only [Args.mapKeys, Path.mapKeys_back p, Args.mapKeys_back as]
  | .addr d as => by simp only [Args.mapKeys, Decl.mapKeys_back d, Args.mapKeys_back as]
  | .ref d as => by simp only [Args.mapKeys, Decl.mapKeys_back d, Args.mapKeys_back as]
  | .memFn d offs as => by simp only [Args.mapKeys, Decl.mapKeys_back d, Args.mapKeys_back as]
  | .memData offs as => by simp only [Args.mapKeys, Args.mapKeys_back as]
theorem Targs.mapKeys_back : ∀ t : Targs, (t.mapKeys f).mapKeys g = t
  | .none => rfl
  | .some as => by simp only [Targs.mapKeys, Args.mapKeys_back as]
theorem Head.mapKeys_back : ∀ h : Head, (h.mapKeys f).mapKeys g = h
  | .id s => rfl
  | .tm s as => by simp only [Head.mapKeys, Args.mapKeys_back as]
  | .op o ta => by simp only [Head.mapKeys, Targs.mapKeys_back ta]
  | .lit s => rfl
theorem Decl.mapKeys_back : ∀ d : Decl, (d.mapKeys f).mapKeys g = d
  | .var st name scope ty => by simp only [Decl.mapKeys, Head.mapKeys_back name, Path.mapKeys_back scope, Ty.mapKeys_back ty]
  | .fn k name scope s => by simp only [Decl.mapKeys, Head.mapKeys_back name, Path.mapKeys_back scope, Sig.mapKeys_back s]
  | .structor dtor targs k s scope cc ps va ne => by
    simp only [Decl.mapKeys, Seg.mapKeys_back s, Targs.mapKeys_back targs, Path.mapKeys_back scope, Tys.mapKeys_back ps]
  | .conv targs k cls s => by simp only [Decl.mapKeys, Targs.mapKeys_back targs, Path.mapKeys_back cls, Sig.mapKeys_back s]
end

end

/-- An injective function has a left inverse. -/
theorem left_inverse {f : Text → Text} (hf : ∀ a b, f a = f b → a = b) : ∃ g : Text → Text, ∀ k, g (f k) = k := by
  classical
  refine ⟨fun x => if h : ∃ k, f k = x then h.choose else [], fun k => ?_⟩
  have h : ∃ k', f k' = f k := ⟨k, rfl⟩
  simp only [dif_pos h]
  exact hf _ _ h.choose_spec

theorem Seg.mapKeys_inj {f : Text → Text} (hf : ∀ a b, f a = f b → a = b) {a b : Seg} : a.mapKeys f = b.mapKeys f ↔ a = b := by
  obtain ⟨g, hg⟩ := left_inverse hf
  exact ⟨fun e => by rw [← Seg.mapKeys_back hg a, e, Seg.mapKeys_back hg b], fun e => e ▸ rfl⟩
theorem Ty.mapKeys_inj {f : Text → Text} (hf : ∀ a b, f a = f b → a = b) {a b : Ty} : a.mapKeys f = b.mapKeys f ↔ a = b := by
  obtain ⟨g, hg⟩ := left_inverse hf
  exact ⟨fun e => by rw [← Ty.mapKeys_back hg a, e, Ty.mapKeys_back hg b], fun e => e ▸ rfl⟩

theorem position_map {α : Type} [DecidableEq α] {m : α → α} (hm : ∀ {a b}, m a = m b ↔ a = b) (a : α) (l : List α) :
    position (m a) (l.map m) = position a l := by
  unfold position
  rw [← List.map_take]
  induction l.take 10 with
  | nil => rfl
  | cons b l ih =>
    rw [List.map_cons, List.idxOf?_cons, List.idxOf?_cons, ih]
    have : (m b == m a) = (b == a) := by
      rw [Bool.eq_iff_iff, beq_iff_eq, beq_iff_eq]; exact hm
    rw [this]

/-- What is remembered, with other keys. -/
def Seen.mapKeys (f : Text → Text) (st : Seen) : Seen := ⟨st.names.map (·.mapKeys f), st.types.map (·.mapKeys f)⟩

section
variable {f : Text → Text} (hf : ∀ a b, f a = f b → a = b)
include hf

theorem mem_names (st : Seen) (s : Seg) : s.mapKeys f ∈ (st.mapKeys f).names ↔ s ∈ st.names := by
  show s.mapKeys f ∈ st.names.map _ ↔ _
  rw [List.mem_map]
  exact ⟨fun ⟨a, ha, e⟩ => (Seg.mapKeys_inj hf).1 e ▸ ha, fun h => ⟨s, h, rfl⟩⟩

theorem Seen.note_mapKeys (st : Seen) (s : Seg) : (st.mapKeys f).note (s.mapKeys f) = (st.note s).mapKeys f := by
  unfold Seen.note
  have h := mem_names hf st s
  have hl : (st.mapKeys f).names.length = st.names.length := by simp [Seen.mapKeys]
  by_cases c : st.names.length < 10 ∧ s ∉ st.names
  · rw [if_pos c, if_pos (by rw [hl, h]; exact c)]
    simp [Seen.mapKeys]
  · rw [if_neg c, if_neg (by rw [hl, h]; exact c)]

theorem Seen.cost_mapKeys (st : Seen) (s : Seg) : (st.mapKeys f).cost (s.mapKeys f) = st.cost s := by
  unfold Seen.cost
  have hl : (st.mapKeys f).names.length = st.names.length := by simp [Seen.mapKeys]
  rw [hl]
  have h := mem_names hf st s
  by_cases c : st.names.length < 10 ∧ s ∉ st.names
  · rw [if_pos c, if_pos (by rw [h]; exact c)]
  · rw [if_neg c, if_neg (by rw [h]; exact c)]

omit hf in
theorem Seen.noteType_mapKeys (st : Seen) (t : Ty) : (st.mapKeys f).noteType (t.mapKeys f) = (st.noteType t).mapKeys f := by
  unfold Seen.noteType
  have hl : (st.mapKeys f).types.length = st.types.length := by simp [Seen.mapKeys]
  rw [hl]
  split <;> simp [Seen.mapKeys]

theorem position_name (st : Seen) (s : Seg) : position (s.mapKeys f) (st.mapKeys f).names = position s st.names :=
  position_map (Seg.mapKeys_inj hf) s st.names
theorem position_type (st : Seen) (t : Ty) : position (t.mapKeys f) (st.mapKeys f).types = position t st.types :=
  position_map (Ty.mapKeys_inj hf) t st.types

omit hf in
theorem Ty.len_one_mapKeys (w : Bool) (t : Ty) (st st' : Seen) :
    (((t.mapKeys f).mangle w st').1.length = 1) = ((t.mangle w st).1.length = 1) := by
  have hk : ∀ k : PK, 1 ≤ k.code.length := by intro k; cases k <;> simp [PK.code]
  have hn := Path.mangle_pos
  have ht : ∀ k : TagKind, 1 ≤ (tagCode k).length := by intro k; cases k <;> simp [tagCode]
  cases t with
  | prim k c v => rw [Ty.mapKeys, Ty.mangle, Ty.mangle]
  | tag k p c v =>
    rw [Ty.mapKeys, Ty.mangle, Ty.mangle]
    have := hn p w st; have := hn (p.mapKeys f) w st'; have := ht k
    simp only [List.length_append, eq_iff_iff]
    omega
  | ptr k u to => rw [Ty.mapKeys, Ty.mangle, Ty.mangle]; have := hk k; simp; omega
  | fptr k s => rw [Ty.mapKeys, Ty.mangle, Ty.mangle]; have := hk k; simp; omega
  | aptr k c v d e => rw [Ty.mapKeys, Ty.mangle, Ty.mangle]; have := hk k; simp; omega
  | mptr k u c to => rw [Ty.mapKeys, Ty.mangle, Ty.mangle]; have := hk k; simp; omega
  | mfptr k c q s => rw [Ty.mapKeys, Ty.mangle, Ty.mangle]; have := hk k; simp; omega

omit hf in
theorem listNodes_mapKeys (ps : Tys) (va : Bool) : listNodes (ps.mapKeys f) va = listNodes ps va := by
  cases ps <;> simp [listNodes, Tys.mapKeys]

omit hf in
theorem Seen.mapKeys_nil : (({} : Seen)).mapKeys f = {} := rfl

theorem Seen.mapKeys_id (s : Text) : (({} : Seen).note (.id s)).mapKeys f = ({} : Seen).note (.id s) :=
  (Seen.note_mapKeys hf {} (.id s)).symm

theorem Seen.id_name (st : Seen) (s : Text) : position (.id s) (st.mapKeys f).names = position (.id s) st.names ∧
    (st.mapKeys f).note (.id s) = (st.note (.id s)).mapKeys f ∧ (st.mapKeys f).cost (.id s) = st.cost (.id s) :=
  ⟨position_name hf st (.id s), Seen.note_mapKeys hf st (.id s), Seen.cost_mapKeys hf st (.id s)⟩
theorem Seen.anon_name (st : Seen) (k : Text) :
    (st.mapKeys f).note (.anon (f k)) = (st.note (.anon k)).mapKeys f ∧ (st.mapKeys f).cost (.anon (f k)) = st.cost (.anon k) :=
  ⟨Seen.note_mapKeys hf st (.anon k), Seen.cost_mapKeys hf st (.anon k)⟩
theorem Seen.tm_name (st : Seen) (s : Text) (as : Args) : position (.tm s (as.mapKeys f)) (st.mapKeys f).names = position (.tm s as) st.names ∧
    (st.mapKeys f).note (.tm s (as.mapKeys f)) = (st.note (.tm s as)).mapKeys f ∧
    (st.mapKeys f).cost (.tm s (as.mapKeys f)) = st.cost (.tm s as) :=
  ⟨position_name hf st (.tm s as), Seen.note_mapKeys hf st (.tm s as), Seen.cost_mapKeys hf st (.tm s as)⟩

set_option maxHeartbeats 1000000 in
mutual
theorem Ty.nodes_mapKeys (w : Bool) : (t : Ty) → ∀ st : Seen, ((t.mapKeys f).mangle w (st.mapKeys f)).2 = ((t.mangle w st).2).mapKeys f ∧ (t.mapKeys f).nodes w (st.mapKeys f) = t.nodes w st
  | .prim .., _ => by simp only [Ty.mapKeys, Ty.mangle, Ty.nodes, and_self]
  | .tag _ p _ _, st => by
    have h := Path.nodes_mapKeys w p st
    simp only [Ty.mapKeys, Ty.mangle, Ty.nodes, h.1, h.2, and_self]
  | .ptr _ _ to, st => by
    have h := Ty.nodes_mapKeys w to st
    simp only [Ty.mapKeys, Ty.mangle, Ty.nodes, h.1, h.2, and_self]
  | .fptr _ s, st => by
    have h := Sig.nodes_mapKeys w s st
    simp only [Ty.mapKeys, Ty.mangle, Ty.nodes, h.1, h.2, and_self]
  | .aptr _ _ _ _ el, st => by
    have h := Ty.nodes_mapKeys w el st
    simp only [Ty.mapKeys, Ty.mangle, Ty.nodes, h.1, h.2, and_self]
  | .mptr _ _ cls to, st => by
    have h := Path.nodes_mapKeys w cls st
    have h' := Ty.nodes_mapKeys w to (cls.mangle w st).2
    simp only [Ty.mapKeys, Ty.mangle, Ty.nodes, h.1, h.2, h'.1, h'.2, and_self]
  | .mfptr _ cls _ s, st => by
    have h := Path.nodes_mapKeys w cls st
    have h' := Sig.nodes_mapKeys w s (cls.mangle w st).2
    simp only [Ty.mapKeys, Ty.mangle, Ty.nodes, h.1, h.2, h'.1, h'.2, and_self]
theorem Sig.nodes_mapKeys (w : Bool) : (s : Sig) → ∀ st : Seen, ((s.mapKeys f).mangle w (st.mapKeys f)).2 = ((s.mangle w st).2).mapKeys f ∧ (s.mapKeys f).nodes w (st.mapKeys f) = s.nodes w st
  | .mk _ ret ps _ _, st => by
    have h := Ty.nodes_mapKeys w ret st
    have h' := Tys.nodes_mapKeys w ps (ret.mangle w st).2
    simp only [Sig.mapKeys, Sig.mangle, Sig.nodes, listNodes_mapKeys, h.1, h.2, h'.1, h'.2, and_self]
theorem Tys.nodes_mapKeys (w : Bool) : (ts : Tys) → ∀ st : Seen, ((ts.mapKeys f).mangle w (st.mapKeys f)).2 = ((ts.mangle w st).2).mapKeys f ∧ (ts.mapKeys f).nodes w (st.mapKeys f) = ts.nodes w st
  | .nil, _ => by simp only [Tys.mapKeys, Tys.mangle, Tys.nodes, and_self]
  | .cons t ts, st => by
    have h := Ty.nodes_mapKeys w t st
    have h1 := Tys.nodes_mapKeys w ts st
    have h2 := fun st => Tys.nodes_mapKeys w ts st
    simp only [Tys.mapKeys, Tys.mangle, Tys.nodes, position_type hf st t]
    cases position t st.types with
    | some i => exact h1
    | none =>
      dsimp only
      have e : (if ((t.mapKeys f).mangle w (st.mapKeys f)).1.length = 1 then ((t.mapKeys f).mangle w (st.mapKeys f)).2
          else ((t.mapKeys f).mangle w (st.mapKeys f)).2.noteType (t.mapKeys f)) =
          (if (t.mangle w st).1.length = 1 then (t.mangle w st).2 else (t.mangle w st).2.noteType t).mapKeys f := by
        have l := Ty.len_one_mapKeys (f := f) w t st (st.mapKeys f)
        by_cases c : (t.mangle w st).1.length = 1
        · rw [if_pos c, if_pos (l ▸ c), h.1]
        · rw [if_neg c, if_neg (l ▸ c), h.1, Seen.noteType_mapKeys]
      simp only [e, h.2, (h2 _).1, (h2 _).2, and_self]
theorem Path.nodes_mapKeys (w : Bool) : (p : Path) → ∀ st : Seen, ((p.mapKeys f).mangle w (st.mapKeys f)).2 = ((p.mangle w st).2).mapKeys f ∧ (p.mapKeys f).nodes w (st.mapKeys f) = p.nodes w st
  | .nil, _ => by simp only [Path.mapKeys, Path.mangle, Path.nodes, and_self]
  | .cons s p, st => by
    have h := Seg.nodes_mapKeys w s st
    have h' := Path.nodes_mapKeys w p (s.mangle w st).2
    simp only [Path.mapKeys, Path.mangle, Path.nodes, h.1, h.2, h'.1, h'.2, and_self]
theorem Seg.nodes_mapKeys (w : Bool) : (s : Seg) → ∀ st : Seen, ((s.mapKeys f).mangle w (st.mapKeys f)).2 = ((s.mangle w st).2).mapKeys f ∧ (s.mapKeys f).nodes w (st.mapKeys f) = s.nodes w st
  | .id s, st => by
    simp only [Seg.mapKeys, Seg.mangle, Seg.nodes, (Seen.id_name hf st s).1, (Seen.id_name hf st s).2.1, (Seen.id_name hf st s).2.2]
    cases position (.id s) st.names <;> simp
  | .tm s as, st => by
    have h := Args.nodes_mapKeys w as (({} : Seen).note (.id s))
    rw [Seen.mapKeys_id hf] at h
    simp only [Seg.mapKeys, Seg.mangle, Seg.nodes, h.2, (Seen.tm_name hf st s as).1, (Seen.tm_name hf st s as).2.1, (Seen.tm_name hf st s as).2.2]
    cases position (Seg.tm s as) st.names <;> simp
  | .anon k, st => by
    simp only [Seg.mapKeys, Seg.mangle, Seg.nodes, (Seen.anon_name hf st k).1, (Seen.anon_name hf st k).2, and_self]
  | .loc _ d, st => by
    have h := Decl.nodes_mapKeys w d st
    simp only [Seg.mapKeys, Seg.mangle, Seg.nodes, h.1, h.2, and_self]
theorem Args.nodes_mapKeys (w : Bool) : (as : Args) → ∀ st : Seen, ((as.mapKeys f).mangle w (st.mapKeys f)).2 = ((as.mangle w st).2).mapKeys f ∧ (as.mapKeys f).nodes w (st.mapKeys f) = as.nodes w st
  | .nil, _ => by simp only [Args.mapKeys, Args.mangle, Args.nodes, and_self]
  | .ty t as, st => by
    have h := Ty.nodes_mapKeys w t st
    have h' := Args.nodes_mapKeys w as (t.mangle w st).2
    simp only [Args.mapKeys, Args.mangle, Args.nodes, h.1, h.2, h'.1, h'.2, and_self]
  | .int _ _ as, st => by
    have h := Args.nodes_mapKeys w as st
    simp only [Args.mapKeys, Args.mangle, Args.nodes, h.1, h.2, and_self]
  | .pack as, st => by
    have h := Args.nodes_mapKeys w as st
    simp only [Args.mapKeys, Args.mangle, Args.nodes, h.1, h.2, and_self]
  | .fn s as, st => by
    have h := Sig.nodes_mapKeys w s st
    have h' := Args.nodes_mapKeys w as (s.mangle w st).2
    simp only [Args.mapKeys, Args.mangle, Args.nodes, h.1, h.2, h'.1, h'.2, and_self]
  | .mfn _ s as, st => by
    have h := Sig.nodes_mapKeys w s st
    have h' := Args.nodes_mapKeys w as (s.mangle w st).2
    simp only [Args.mapKeys, Args.mangle, Args.nodes, h.1, h.2, h'.1, h'.2, and_self]
  | .arr _ _ _ el as, st => by
    have h := Ty.nodes_mapKeys w el st
    have h' := Args.nodes_mapKeys w as (el.mangle w st).2
    simp only [Args.mapKeys, Args.mangle, Args.nodes, h.1, h.2, h'.1, h'.2, and_self]
  | .tmpl p as, st => by
    have h := Path.nodes_mapKeys w p st
    have h' := Args.nodes_mapKeys w as (p.mangle w st).2
    simp only [Args.mapKeys, Args.mangle, Args.nodes, h.1, h.2, h'.1, h'.2, and_self]
  | .addr d as, st => by
    have h := Decl.nodes_mapKeys w d st
    have h' := Args.nodes_mapKeys w as (d.mangle w st).2
    simp only [Args.mapKeys, Args.mangle, Args.nodes, h.1, h.2, h'.1, h'.2, and_self]
  | .ref d as, st => by
    have h := Decl.nodes_mapKeys w d st
    have h' := Args.nodes_mapKeys w as (d.mangle w st).2
    simp only [Args.mapKeys, Args.mangle, Args.nodes, h.1, h.2, h'.1, h'.2, and_self]
  | .memFn d _ as, st => by
    have h := Decl.nodes_mapKeys w d st
    have h' := Args.nodes_mapKeys w as (d.mangle w st).2
    simp only [Args.mapKeys, Args.mangle, Args.nodes, h.1, h.2, h'.1, h'.2, and_self]
  | .memData _ as, st => by
    have h := Args.nodes_mapKeys w as st
    simp only [Args.mapKeys, Args.mangle, Args.nodes, h.1, h.2, and_self]
theorem Targs.nodes_mapKeys (w : Bool) : (ta : Targs) → (ta.mapKeys f).nodes w = ta.nodes w
  | .none => by simp only [Targs.mapKeys, Targs.nodes]
  | .some as => by 
    have h := Args.nodes_mapKeys w as {}
    rw [Seen.mapKeys_nil] at h
    simp only [Targs.mapKeys, Targs.nodes, h.2]
theorem Head.nodes_mapKeys (w : Bool) : (n : Head) → ∀ st : Seen, ((n.mapKeys f).mangle w (st.mapKeys f)).2 = ((n.mangle w st).2).mapKeys f ∧ (n.mapKeys f).nodes w (st.mapKeys f) = n.nodes w st
  | .id s, st => by
    simp only [Head.mapKeys, Head.mangle, Head.nodes, (Seen.id_name hf st s).1, (Seen.id_name hf st s).2.1, (Seen.id_name hf st s).2.2]
    cases position (.id s) st.names <;> simp
  | .tm s as, st => by
    have h := Args.nodes_mapKeys w as (({} : Seen).note (.id s))
    rw [Seen.mapKeys_id hf] at h
    simp only [Head.mapKeys, Head.mangle, Head.nodes, h.2, and_self]
  | .op _ ta, st => by simp only [Head.mapKeys, Head.mangle, Head.nodes, Targs.nodes_mapKeys w ta, and_self]
  | .lit _, st => by simp only [Head.mapKeys, Head.mangle, Head.nodes, and_self]
theorem Decl.nodes_mapKeys (w : Bool) : (d : Decl) → ∀ st : Seen, ((d.mapKeys f).mangle w (st.mapKeys f)).2 = ((d.mangle w st).2).mapKeys f ∧ (d.mapKeys f).nodes w (st.mapKeys f) = d.nodes w st
  | .var _ n p ty, st => by
    have h1 := Head.nodes_mapKeys w n st
    have h2 := Path.nodes_mapKeys w p (n.mangle w st).2
    have h3 := Ty.nodes_mapKeys w ty (p.mangle w (n.mangle w st).2).2
    have h4 := Ty.again_mapKeys w ty (ty.mangle w (p.mangle w (n.mangle w st).2).2).2
    simp only [Decl.mapKeys, Decl.mangle, Decl.nodes, h1.1, h1.2, h2.1, h2.2, h3.1, h3.2, h4.1, h4.2, and_self]
  | .fn _ n p s, st => by
    have h1 := Head.nodes_mapKeys w n st
    have h2 := Path.nodes_mapKeys w p (n.mangle w st).2
    have h3 := Sig.nodes_mapKeys w s (p.mangle w (n.mangle w st).2).2
    simp only [Decl.mapKeys, Decl.mangle, Decl.nodes, h1.1, h1.2, h2.1, h2.2, h3.1, h3.2, and_self]
  | .structor _ ta _ s p _ ps _ _, st => by
    have h0 := Targs.nodes_mapKeys w ta
    have h1 := Seg.nodes_mapKeys w s st
    have h2 := Path.nodes_mapKeys w p (s.mangle w st).2
    have h3 := Tys.nodes_mapKeys w ps (p.mangle w (s.mangle w st).2).2
    simp only [Decl.mapKeys, Decl.mangle, Decl.nodes, listNodes_mapKeys, h0, h1.1, h1.2, h2.1, h2.2, h3.1, h3.2, and_self]
  | .conv ta _ p s, st => by
    have h0 := Targs.nodes_mapKeys w ta
    have h2 := Path.nodes_mapKeys w p st
    have h3 := Sig.nodes_mapKeys w s (p.mangle w st).2
    simp only [Decl.mapKeys, Decl.mangle, Decl.nodes, listNodes_mapKeys, h0, h2.1, h2.2, h3.1, h3.2, and_self]
theorem Ty.again_mapKeys (w : Bool) : (t : Ty) → ∀ st : Seen, ((t.mapKeys f).again w (st.mapKeys f)).2 = ((t.again w st).2).mapKeys f ∧ (t.mapKeys f).againNodes w (st.mapKeys f) = t.againNodes w st
  | .prim .., _ => by simp only [Ty.mapKeys, Ty.again, Ty.againNodes, and_self]
  | .tag _ p _ _, st => by simp only [Ty.mapKeys, Ty.again, Ty.againNodes, and_self]
  | .ptr _ _ to, st => by simp only [Ty.mapKeys, Ty.again, Ty.againNodes, and_self]
  | .fptr _ s, st => by simp only [Ty.mapKeys, Ty.again, Ty.againNodes, and_self]
  | .aptr _ _ _ _ el, st => by simp only [Ty.mapKeys, Ty.again, Ty.againNodes, and_self]
  | .mptr _ _ cls to, st => by
    have h := Path.nodes_mapKeys w cls st
    simp only [Ty.mapKeys, Ty.again, Ty.againNodes, h.1, h.2, and_self]
  | .mfptr _ cls _ s, st => by
    have h := Path.nodes_mapKeys w cls st
    simp only [Ty.mapKeys, Ty.again, Ty.againNodes, h.1, h.2, and_self]
end

theorem Sym.nodes_mapKeys (w : Bool) (y : Sym) : (y.mapKeys f).nodes w = y.nodes w := by
  have hp : ∀ p : Path, (p.mapKeys f).nodes w {} = p.nodes w {} := fun p => (Path.nodes_mapKeys hf w p {}).2
  cases y with
  | decl d => exact (Decl.nodes_mapKeys hf w d {}).2
  | table t cls c v target =>
    have h := (Path.nodes_mapKeys hf w cls {}).1
    rw [Seen.mapKeys_nil] at h
    have h' := (Path.nodes_mapKeys hf w target (cls.mangle w {}).2).2
    simp only [Sym.mapKeys, Sym.nodes, hp, h, h', Path.mapKeys_nil]
  | initVar dt st name scope ty k s =>
    have h := Decl.nodes_mapKeys hf w (.var st name scope ty) {}
    have h' := (Sig.nodes_mapKeys hf w s ((Decl.var st name scope ty).mangle w {}).2).2
    rw [Decl.mapKeys, Seen.mapKeys_nil] at h
    simp only [Sym.mapKeys, Sym.nodes, h.1, h.2, h']
  | initName dt name scope k s =>
    have h := (Decl.nodes_mapKeys hf w (.fn k (.id name) scope s) {}).2
    rw [Decl.mapKeys, Head.mapKeys, Seen.mapKeys_nil] at h
    simp only [Sym.mapKeys, Sym.nodes, h]
  | _ => simp only [Sym.mapKeys, Sym.nodes, hp]

theorem EndSym.nodes_mapKeys (w : Bool) (y : EndSym) : (y.mapKeys f).nodes w = y.nodes w := by
  cases y with
  | typeDescriptor t => exact congrArg (· + 4) (Ty.nodes_mapKeys hf w t {}).2
  | typeName t => exact congrArg (· + 1) (Ty.nodes_mapKeys hf w t {}).2
  | guard th vis scope => exact congrArg (· + 2) (Path.nodes_mapKeys hf w scope {}).2

end

end Spec.Cxx
end Undname
