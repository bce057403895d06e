/-
  The keys of anonymous namespaces are not part of a declaration's text.
-/
import Verif.Spec.AnonKeys

namespace Undname
namespace Spec.Cxx

section
variable (E : Env) (f : Text → Text)

mutual
theorem Ty.mapKeys_left : ∀ t : Ty, (t.mapKeys f).left E = t.left E
  | .prim .. => rfl
  | .tag k p c v => by simp only [Ty.mapKeys, Ty.left, Path.mapKeys_names p]
  | .ptr k u to => by simp only [Ty.mapKeys, Ty.left, Ty.mapKeys_left to]
  | .fptr k s => by simp only [Ty.mapKeys, Ty.left, Sig.mapKeys_left s]
  | .aptr k c v dims el => by simp only [Ty.mapKeys, Ty.left, Ty.mapKeys_left el]
  | .mptr k u cls to => by simp only [Ty.mapKeys, Ty.left, Ty.mapKeys_left to, Path.mapKeys_names cls]
  | .mfptr k cls q s => by simp only [Ty.mapKeys, Ty.left, Sig.mapKeys_left s, Path.mapKeys_names cls]
theorem Ty.mapKeys_right : ∀ t : Ty, (t.mapKeys f).right E = t.right E
  | .prim .. => rfl
  | .tag .. => rfl
  | .ptr k u to => by simp only [Ty.mapKeys, Ty.right, Ty.mapKeys_right to]
  | .fptr k s => by simp only [Ty.mapKeys, Ty.right, Sig.mapKeys_params s, Sig.mapKeys_right s]
  | .aptr k c v dims el => by simp only [Ty.mapKeys, Ty.right, Ty.mapKeys_right el]
  | .mptr k u cls to => by simp only [Ty.mapKeys, Ty.right, Ty.mapKeys_right to]
  | .mfptr k cls q s => by simp only [Ty.mapKeys, Ty.right, Sig.mapKeys_params s, Sig.mapKeys_right s]
theorem Sig.mapKeys_left : ∀ s : Sig, (s.mapKeys f).left E = s.left E
  | .mk cc ret ps va ne => by simp only [Sig.mapKeys, Sig.left, Ty.mapKeys_left ret]
theorem Sig.mapKeys_ret : ∀ s : Sig, (s.mapKeys f).ret E = s.ret E
  | .mk cc ret ps va ne => by simp only [Sig.mapKeys, Sig.ret, Ty.mapKeys_left ret]
theorem Sig.mapKeys_params : ∀ s : Sig, (s.mapKeys f).params E = s.params E
  | .mk cc ret ps va ne => by simp only [Sig.mapKeys, Sig.params, Tys.mapKeys_list ps]
theorem Sig.mapKeys_right : ∀ (s : Sig) (q : This), (s.mapKeys f).right E q = s.right E q
  | .mk cc ret ps va ne, q => by simp only [Sig.mapKeys, Sig.right, Ty.mapKeys_right ret]
theorem Sig.mapKeys_retType : ∀ s : Sig, (s.mapKeys f).retType E = s.retType E
  | .mk cc ret ps va ne => by simp only [Sig.mapKeys, Sig.retType, Ty.mapKeys_left ret, Ty.mapKeys_right ret]
theorem Sig.mapKeys_type : ∀ (s : Sig) (q : This), (s.mapKeys f).type E q = s.type E q
  | .mk cc ret ps va ne, q => by
    simp only [Sig.mapKeys, Sig.type, Ty.mapKeys_left ret, Ty.mapKeys_right ret, Tys.mapKeys_list ps]
theorem Tys.mapKeys_list : ∀ ts : Tys, (ts.mapKeys f).list E = ts.list E
  | .nil => rfl
  | .cons t ts => by simp only [Tys.mapKeys, Tys.list, Ty.mapKeys_left t, Ty.mapKeys_right t, Tys.mapKeys_list ts]
theorem Path.mapKeys_names : ∀ p : Path, (p.mapKeys f).names E = p.names E
  | .nil => rfl
  | .cons s p => by simp only [Path.mapKeys, Path.names, Seg.mapKeys_cpp s, Path.mapKeys_names p]
theorem Seg.mapKeys_cpp : ∀ s : Seg, (s.mapKeys f).cpp E = s.cpp E
  | .id s => rfl
  | .tm s as => by simp only [Seg.mapKeys, Seg.cpp, Args.mapKeys_list as]
  | .anon key => rfl
  | .loc n d => by simp only [Seg.mapKeys, Seg.cpp, Decl.mapKeys_cpp d]
theorem Args.mapKeys_list : ∀ as : Args, (as.mapKeys f).list E = as.list E
  | .nil => rfl
  | .ty t as => by simp only [Args.mapKeys, Args.list, Ty.mapKeys_left t, Ty.mapKeys_right t, Args.mapKeys_list as]
  | .int neg n as => by simp only [Args.mapKeys, Args.list, Args.mapKeys_list as]
  | .pack as => by simp only [Args.mapKeys, Args.list, Args.mapKeys_list as]
  | .fn s as => by simp only [Args.mapKeys, Args.list, Sig.mapKeys_type s, Args.mapKeys_list as]
  | .mfn q s as => by simp only [Args.mapKeys, Args.list, Sig.mapKeys_type s, Args.mapKeys_list as]
  | .arr c v dims el as => by simp only [Args.mapKeys, Args.list, Ty.mapKeys_left el, Ty.mapKeys_right el, Args.mapKeys_list as]
  | .tmpl p as => by simp only [Args.mapKeys, Args.list, Path.mapKeys_names p, Args.mapKeys_list as]
  | .addr d as => by simp only [Args.mapKeys, Args.list, Decl.mapKeys_cpp d, Args.mapKeys_list as]
  | .ref d as => by simp only [Args.mapKeys, Args.list, Decl.mapKeys_cpp d, Args.mapKeys_list as]
  | .memFn d offs as => by simp only [Args.mapKeys, Args.list, Decl.mapKeys_cpp d, Args.mapKeys_list as]
  | .memData offs as => by simp only [Args.mapKeys, Args.list, Args.mapKeys_list as]
theorem Targs.mapKeys_cpp : ∀ t : Targs, (t.mapKeys f).cpp E = t.cpp E
  | .none => rfl
  | .some as => by simp only [Targs.mapKeys, Targs.cpp, Args.mapKeys_list as]
theorem Head.mapKeys_cpp : ∀ h : Head, (h.mapKeys f).cpp E = h.cpp E
  | .id s => rfl
  | .tm s as => by simp only [Head.mapKeys, Head.cpp, Args.mapKeys_list as]
  | .op o ta => by simp only [Head.mapKeys, Head.cpp, Targs.mapKeys_cpp ta]
  | .lit s => rfl
theorem Decl.mapKeys_cpp : ∀ d : Decl, (d.mapKeys f).cpp E = d.cpp E
  | .var st name scope ty => by
    simp only [Decl.mapKeys, Decl.cpp, Head.mapKeys_cpp name, Path.mapKeys_names scope, Ty.mapKeys_left ty, Ty.mapKeys_right ty]
  | .fn k name scope s => by
    simp only [Decl.mapKeys, Decl.cpp, Head.mapKeys_cpp name, Path.mapKeys_names scope, Sig.mapKeys_ret s, Sig.mapKeys_conv s,
      Sig.mapKeys_params s, Sig.mapKeys_right s]
  | .structor dtor targs k s scope cc ps va ne => by
    simp only [Decl.mapKeys, Decl.cpp, Seg.mapKeys_cpp s, Targs.mapKeys_cpp targs, Path.mapKeys_names scope, Tys.mapKeys_list ps]
  | .conv targs k cls s => by
    simp only [Decl.mapKeys, Decl.cpp, Targs.mapKeys_cpp targs, Path.mapKeys_names cls, Sig.mapKeys_ret s, Sig.mapKeys_conv s,
      Sig.mapKeys_retType s, Sig.mapKeys_params s, Sig.mapKeys_right s]
theorem Sig.mapKeys_conv : ∀ s : Sig, (s.mapKeys f).conv E = s.conv E
  | .mk cc ret ps va ne => rfl
end

mutual
theorem Ty.keys_mapKeys : ∀ t : Ty, (t.mapKeys f).keys = t.keys.map (·.mapKeys f)
  | .prim .. => rfl
  | .tag k p c v => by simp only [Ty.mapKeys, Ty.keys, Path.keys_mapKeys p]
  | .ptr k u to => by simp only [Ty.mapKeys, Ty.keys, Ty.keys_mapKeys to]
  | .fptr k s => by simp only [Ty.mapKeys, Ty.keys, Sig.keys_mapKeys s]
  | .aptr k c v dims el => by simp only [Ty.mapKeys, Ty.keys, Ty.keys_mapKeys el]
  | .mptr k u cls to => by simp only [Ty.mapKeys, Ty.keys, Ty.keys_mapKeys to, Path.keys_mapKeys cls, List.map_append]
  | .mfptr k cls q s => by simp only [Ty.mapKeys, Ty.keys, Sig.keys_mapKeys s, Path.keys_mapKeys cls, List.map_append]
theorem Sig.keys_mapKeys : ∀ s : Sig, (s.mapKeys f).keys = s.keys.map (·.mapKeys f)
  | .mk cc ret ps va ne => by simp only [Sig.mapKeys, Sig.keys, Ty.keys_mapKeys ret, Tys.keys_mapKeys ps, List.map_append]
theorem Tys.keys_mapKeys : ∀ ts : Tys, (ts.mapKeys f).keys = ts.keys.map (·.mapKeys f)
  | .nil => rfl
  | .cons t ts => by simp only [Tys.mapKeys, Tys.keys, Ty.keys_mapKeys t, Tys.keys_mapKeys ts, List.map_append]
theorem Path.keys_mapKeys : ∀ p : Path, (p.mapKeys f).keys = p.keys.map (·.mapKeys f)
  | .nil => rfl
  | .cons s p => by simp only [Path.mapKeys, Path.keys, Seg.keys_mapKeys s, Path.keys_mapKeys p, List.map_append]
theorem Seg.keys_mapKeys : ∀ s : Seg, (s.mapKeys f).keys = s.keys.map (·.mapKeys f)
  | .id s => rfl
  | .tm s as => by simp only [Seg.mapKeys, Seg.keys, Args.keys_mapKeys as, List.map_append, List.map_cons, List.map_nil]
  | .anon key => rfl
  | .loc n d => by simp only [Seg.mapKeys, Seg.keys, Decl.keys_mapKeys d]
theorem Args.keys_mapKeys : ∀ as : Args, (as.mapKeys f).keys = as.keys.map (·.mapKeys f)
  | .nil => rfl
  | .ty t as => by simp only [Args.mapKeys, Args.keys, Ty.keys_mapKeys t, Args.keys_mapKeys as, List.map_append]
  | .int neg n as => by simp only [Args.mapKeys, Args.keys, Args.keys_mapKeys as]
  | .pack as => by simp only [Args.mapKeys, Args.keys, Args.keys_mapKeys as]
  | .fn s as => by simp only [Args.mapKeys, Args.keys, Sig.keys_mapKeys s, Args.keys_mapKeys as, List.map_append]
  | .mfn q s as => by simp only [Args.mapKeys, Args.keys, Sig.keys_mapKeys s, Args.keys_mapKeys as, List.map_append]
  | .arr c v dims el as => by simp only [Args.mapKeys, Args.keys, Ty.keys_mapKeys el, Args.keys_mapKeys as, List.map_append]
  | .tmpl p as => by simp only [Args.mapKeys, Args.keys, Path.keys_mapKeys p, Args.keys_mapKeys as, List.map_append]
  | .addr d as => by simp only [Args.mapKeys, Args.keys, Decl.keys_mapKeys d, Args.keys_mapKeys as, List.map_append]
  | .ref d as => by simp only [Args.mapKeys, Args.keys, Decl.keys_mapKeys d, Args.keys_mapKeys as, List.map_append]
  | .memFn d offs as => by simp only [Args.mapKeys, Args.keys, Decl.keys_mapKeys d, Args.keys_mapKeys as, List.map_append]
  | .memData offs as => by simp only [Args.mapKeys, Args.keys, Args.keys_mapKeys as]
theorem Targs.keys_mapKeys : ∀ t : Targs, (t.mapKeys f).keys = t.keys.map (·.mapKeys f)
  | .none => rfl
  | .some as => by simp only [Targs.mapKeys, Targs.keys, Args.keys_mapKeys as]
theorem Head.keys_mapKeys : ∀ h : Head, (h.mapKeys f).keys = h.keys.map (·.mapKeys f)
  | .id s => rfl
  | .tm s as => by simp only [Head.mapKeys, Head.keys, Args.keys_mapKeys as, List.map_append, List.map_cons, List.map_nil, Seg.mapKeys]
  | .op o ta => by simp only [Head.mapKeys, Head.keys, Targs.keys_mapKeys ta]
  | .lit s => rfl
theorem Decl.keys_mapKeys : ∀ d : Decl, (d.mapKeys f).keys = d.keys.map (·.mapKeys f)
  | .var st name scope ty => by
    simp only [Decl.mapKeys, Decl.keys, Head.keys_mapKeys name, Path.keys_mapKeys scope, Ty.keys_mapKeys ty, List.map_append]
  | .fn k name scope s => by
    simp only [Decl.mapKeys, Decl.keys, Head.keys_mapKeys name, Path.keys_mapKeys scope, Sig.keys_mapKeys s, List.map_append]
  | .structor dtor targs k s scope cc ps va ne => by
    simp only [Decl.mapKeys, Decl.keys, Seg.keys_mapKeys s, Targs.keys_mapKeys targs, Path.keys_mapKeys scope, Tys.keys_mapKeys ps, List.map_append]
  | .conv targs k cls s => by
    simp only [Decl.mapKeys, Decl.keys, Targs.keys_mapKeys targs, Path.keys_mapKeys cls, Sig.keys_mapKeys s, List.map_append]
end

theorem Decl.mapKeys_ident (d : Decl) : (d.mapKeys f).ident = d.ident := by
  match d with
  | .var st name scope ty => cases name <;> rfl
  | .fn k name scope s => cases name <;> rfl
  | .structor .. => rfl
  | .conv .. => rfl
theorem Ty.mapKeys_unqualified (t : Ty) : (t.mapKeys f).unqualified ↔ t.unqualified := by cases t <;> exact Iff.rfl
theorem Ty.mapKeys_noExt (t : Ty) : (t.mapKeys f).noExt ↔ t.noExt := by cases t <;> exact Iff.rfl
theorem Seg.mapKeys_isName (s : Seg) : (s.mapKeys f).isName ↔ s.isName := by cases s <;> exact Iff.rfl
theorem Ty.mapKeys_prim {t : Ty} {k : PrimitiveKind} {c v : Bool} (h : t ≠ .prim k c v) : t.mapKeys f ≠ .prim k c v := by
  cases t <;> simp_all [Ty.mapKeys]

variable {E f}
variable (hf : ∀ k, '@' ∉ k → '@' ∉ f k)
include hf

mutual
theorem Ty.mapKeys_ok : ∀ {t : Ty}, t.Ok E → (t.mapKeys f).Ok E
  | .prim .., h => h
  | .tag k p c v, h => Path.mapKeys_isType h
  | .ptr k u to, h => Ty.mapKeys_ok (t := to) h
  | .fptr k s, h => ⟨h.1, Sig.mapKeys_ok h.2⟩
  | .aptr k c v dims el, h => ⟨h.1, (el.mapKeys_unqualified f).2 h.2.1, Ty.mapKeys_ok h.2.2⟩
  | .mptr k u cls to, h => ⟨h.1, Path.mapKeys_isType h.2.1, (to.mapKeys_noExt f).2 h.2.2.1, Ty.mapKeys_ok h.2.2.2⟩
  | .mfptr k cls q s, h => ⟨h.1, Path.mapKeys_isType h.2.1, Sig.mapKeys_ok h.2.2⟩
theorem Sig.mapKeys_ok : ∀ {s : Sig}, s.Ok E → (s.mapKeys f).Ok E
  | .mk cc ret ps va ne, h => ⟨h.1, Ty.mapKeys_ok h.2.1, Tys.mapKeys_ok h.2.2.1, by rw [Tys.mapKeys_list]; exact h.2.2.2⟩
theorem Tys.mapKeys_ok : ∀ {ts : Tys}, ts.Ok E → (ts.mapKeys f).Ok E
  | .nil, h => h
  | .cons t ts, h => ⟨Ty.mapKeys_prim f h.1, (t.mapKeys_unqualified f).2 h.2.1, Ty.mapKeys_ok h.2.2.1, Tys.mapKeys_ok h.2.2.2⟩
theorem Path.mapKeys_ok : ∀ {p : Path}, p.Ok E → (p.mapKeys f).Ok E
  | .nil, h => h
  | .cons s p, h => ⟨Seg.mapKeys_ok h.1, Path.mapKeys_ok h.2⟩
theorem Path.mapKeys_isType : ∀ {p : Path}, p.IsType E → (p.mapKeys f).IsType E
  | .nil, h => h
  | .cons s p, h => ⟨(s.mapKeys_isName f).2 h.1, Seg.mapKeys_ok h.2.1, Path.mapKeys_ok h.2.2⟩
theorem Seg.mapKeys_ok : ∀ {s : Seg}, s.Ok E → (s.mapKeys f).Ok E
  | .id s, h => h
  | .tm s as, h => ⟨h.1, by have := Seg.mapKeys_cpp E f (.tm s as); rw [Seg.mapKeys] at this; rw [this]; exact h.2.1, Args.mapKeys_ok h.2.2⟩
  | .anon key, h => hf key h
  | .loc n d, h => ⟨h.1, by have := Seg.mapKeys_cpp E f (.loc n d); rw [Seg.mapKeys] at this; rw [this]; exact h.2.1, Decl.mapKeys_ok h.2.2⟩
theorem Args.mapKeys_ok : ∀ {as : Args}, as.Ok E → (as.mapKeys f).Ok E
  | .nil, h => h
  | .ty t as, h => ⟨Ty.mapKeys_ok h.1, Args.mapKeys_ok h.2⟩
  | .int neg n as, h => ⟨h.1, Args.mapKeys_ok h.2⟩
  | .pack as, h => Args.mapKeys_ok (as := as) h
  | .fn s as, h => ⟨Sig.mapKeys_ok h.1, Args.mapKeys_ok h.2⟩
  | .mfn q s as, h => ⟨Sig.mapKeys_ok h.1, Args.mapKeys_ok h.2⟩
  | .arr c v dims el as, h => ⟨h.1, (el.mapKeys_unqualified f).2 h.2.1, Ty.mapKeys_ok h.2.2.1, Args.mapKeys_ok h.2.2.2⟩
  | .tmpl p as, h => ⟨Path.mapKeys_isType h.1, Args.mapKeys_ok h.2⟩
  | .addr d as, h => ⟨by rw [d.mapKeys_ident]; exact h.1, Decl.mapKeys_ok h.2.1, Args.mapKeys_ok h.2.2⟩
  | .ref d as, h => ⟨Decl.mapKeys_ok h.1, Args.mapKeys_ok h.2⟩
  | .memFn d offs as, h => ⟨by rw [d.mapKeys_ident]; exact h.1, Decl.mapKeys_ok h.2.1, Args.mapKeys_ok h.2.2⟩
  | .memData offs as, h => ⟨h.1, Args.mapKeys_ok h.2⟩
theorem Targs.mapKeys_ok : ∀ {t : Targs}, t.Ok E → (t.mapKeys f).Ok E
  | .none, h => h
  | .some as, h => Args.mapKeys_ok (as := as) h
theorem Head.mapKeys_ok : ∀ {a : Head}, a.Ok E → (a.mapKeys f).Ok E
  | .id s, h => h
  | .tm s as, h => ⟨h.1, Args.mapKeys_ok h.2⟩
  | .op o ta, h => Targs.mapKeys_ok (t := ta) h
  | .lit s, h => h
theorem Decl.mapKeys_ok : ∀ {d : Decl}, d.Ok E → (d.mapKeys f).Ok E
  | .var st name scope ty, h => ⟨Head.mapKeys_ok h.1, Path.mapKeys_ok h.2.1, Ty.mapKeys_ok h.2.2⟩
  | .fn k name scope s, h => ⟨h.1, Head.mapKeys_ok h.2.1, Path.mapKeys_ok h.2.2.1, Sig.mapKeys_ok h.2.2.2⟩
  | .structor dtor targs k s scope cc ps va ne, h =>
    ⟨⟨h.1.1, h.1.2.1, by rw [Tys.mapKeys_list]; exact h.1.2.2⟩, Targs.mapKeys_ok h.2.1, (s.mapKeys_isName f).2 h.2.2.1, Seg.mapKeys_ok h.2.2.2.1,
      Path.mapKeys_ok h.2.2.2.2.1, Tys.mapKeys_ok h.2.2.2.2.2⟩
  | .conv targs k cls s, h => ⟨h.1, Targs.mapKeys_ok h.2.1, Path.mapKeys_ok h.2.2.1, Sig.mapKeys_ok h.2.2.2⟩
end

omit hf in
theorem Path.mapKeys_nil {p : Path} : p.mapKeys f = .nil ↔ p = .nil := by cases p <;> simp [Path.mapKeys]

theorem Sym.mapKeys_ok {y : Sym} (h : y.Ok E) : (y.mapKeys f).Ok E := by
  cases y with
  | decl d => exact Decl.mapKeys_ok hf (d := d) h
  | table t cls c v target =>
    exact ⟨Path.mapKeys_ok hf h.1, h.2.imp Path.mapKeys_nil.2 (Path.mapKeys_isType hf)⟩
  | baseDescriptor nv vb vt fl cls => exact ⟨h.1, Path.mapKeys_ok hf h.2⟩
  | baseArray cls => exact Path.mapKeys_ok hf (p := cls) h
  | hierarchy cls => exact Path.mapKeys_ok hf (p := cls) h
  | vcall cls n cc => exact ⟨h.1, h.2.1, Path.mapKeys_ok hf h.2.2⟩
  | guard th vis scope n => exact ⟨h.1, Path.mapKeys_ok hf h.2⟩
  | initVar dt st name scope ty k s => exact ⟨Decl.mapKeys_ok hf h.1, h.2.1, Sig.mapKeys_ok hf h.2.2⟩
  | initName dt name scope k s => exact Decl.mapKeys_ok hf (d := .fn k (.id name) scope s) h

theorem EndSym.mapKeys_ok {y : EndSym} (h : y.Ok E) : (y.mapKeys f).Ok E := by
  cases y with
  | typeDescriptor t => exact Ty.mapKeys_ok hf (t := t) h
  | typeName t => exact Ty.mapKeys_ok hf (t := t) h
  | guard th vis scope => exact Path.mapKeys_ok hf (p := scope) h

omit hf

theorem Sym.mapKeys_cpp (y : Sym) : (y.mapKeys f).cpp E = y.cpp E := by
  cases y with
  | decl d => exact Decl.mapKeys_cpp E f d
  | table t cls c v target => simp only [Sym.mapKeys, Sym.cpp, Path.mapKeys_names, Path.mapKeys_nil]
  | initVar dt st name scope ty k s =>
    have := Decl.mapKeys_cpp E f (.var st name scope ty)
    rw [Decl.mapKeys] at this
    simp only [Sym.mapKeys, Sym.cpp, this, Sig.mapKeys_ret, Sig.mapKeys_conv, Sig.mapKeys_params, Sig.mapKeys_right]
  | initName dt name scope k s =>
    simp only [Sym.mapKeys, Sym.cpp, Path.mapKeys_names, Sig.mapKeys_ret, Sig.mapKeys_conv, Sig.mapKeys_params, Sig.mapKeys_right]
  | _ => simp only [Sym.mapKeys, Sym.cpp, Path.mapKeys_names]

theorem EndSym.mapKeys_cpp (y : EndSym) : (y.mapKeys f).cpp E = y.cpp E := by
  cases y <;> simp only [EndSym.mapKeys, EndSym.cpp, Path.mapKeys_names, Ty.mapKeys_left, Ty.mapKeys_right, Ty.cpp]

theorem Sym.keys_mapKeys (y : Sym) : (y.mapKeys f).keys = y.keys.map (·.mapKeys f) := by
  cases y with
  | decl d => exact Decl.keys_mapKeys f d
  | table t cls c v target => simp only [Sym.mapKeys, Sym.keys, Path.keys_mapKeys, List.map_append]
  | initVar dt st name scope ty k s =>
    have := Decl.keys_mapKeys f (.var st name scope ty)
    rw [Decl.mapKeys] at this
    simp only [Sym.mapKeys, Sym.keys, this, Sig.keys_mapKeys, List.map_append]
  | initName dt name scope k s =>
    have := Decl.keys_mapKeys f (.fn k (.id name) scope s)
    rw [Decl.mapKeys, Head.mapKeys] at this
    simp only [Sym.mapKeys, Sym.keys, this]
  | _ => simp only [Sym.mapKeys, Sym.keys, Path.keys_mapKeys]

theorem EndSym.keys_mapKeys (y : EndSym) : (y.mapKeys f).keys = y.keys.map (·.mapKeys f) := by
  cases y <;> simp only [EndSym.mapKeys, EndSym.keys, Path.keys_mapKeys, Ty.keys_mapKeys]

theorem mem_anonKeys {l : List Seg} {k : Text} : k ∈ anonKeys l ↔ .anon k ∈ l := by
  unfold anonKeys
  rw [List.mem_filterMap]
  constructor
  · rintro ⟨a, ha, e⟩
    split at e
    · obtain rfl := Option.some.inj e; exact ha
    · cases e
  · intro h; exact ⟨_, h, rfl⟩

/-- Names stay different if the new keys are not texts of names. -/
theorem Distinct.mapKeys {l : List Seg} (h : Distinct E l)
    (hn : ∀ k ∈ anonKeys l, f k ∉ otherTexts E l) : Distinct E (l.map (·.mapKeys f)) := by
  have mem : ∀ s ∈ l, (∀ k', s ≠ .anon k') → s.cpp E ∈ otherTexts E l := by
    intro s hs hk
    refine List.mem_filterMap.2 ⟨s, hs, ?_⟩
    cases s with
    | anon k => exact absurd rfl (hk k)
    | _ => rfl
  replace hn : ∀ k ∈ anonKeys l, ∀ s ∈ l, (∀ k', s ≠ .anon k') → f k ≠ s.cpp E :=
    fun k hk s hs ns e => hn k hk (e ▸ mem s hs ns)
  have other : ∀ s : Seg, (∀ k', s ≠ .anon k') → (s.mapKeys f).known E = s.known E ∧ s.known E = s.cpp E := by
    intro s hs
    cases s with
    | id s => exact ⟨rfl, rfl⟩
    | anon k => exact absurd rfl (hs k)
    | tm s as => exact ⟨Seg.mapKeys_cpp E f (.tm s as), rfl⟩
    | loc n d => exact ⟨Seg.mapKeys_cpp E f (.loc n d), rfl⟩
  have cases : ∀ s : Seg, (∃ k, s = .anon k) ∨ ∀ k', s ≠ .anon k' := by
    intro s; cases s <;> simp
  intro a ha b hb e
  obtain ⟨a, ma, rfl⟩ := List.mem_map.1 ha
  obtain ⟨b, mb, rfl⟩ := List.mem_map.1 hb
  rcases cases a with ⟨k, rfl⟩ | na <;> rcases cases b with ⟨k', rfl⟩ | nb
  · exact congrArg Seg.anon e
  · rw [(other b nb).1, (other b nb).2] at e
    exact absurd e (hn k (mem_anonKeys.2 ma) b mb nb)
  · rw [(other a na).1, (other a na).2] at e
    exact absurd e.symm (hn k' (mem_anonKeys.2 mb) a ma na)
  · rw [(other a na).1, (other b nb).1] at e
    rw [h a ma b mb e]

end

end Spec.Cxx
end Undname
