/-
  The names that a mangler remembers in a plain declaration are plain, so they have different texts.
-/
import Verif.Proof.ReadAll

namespace Undname.Spec.Cxx

section
variable {key : Text}

mutual
theorem Ty.keys_plain : ∀ t : Ty, t.plain key = true → ∀ s ∈ t.keys, s.plain key = true
  | .prim .., _, s, hs => by simp [Ty.keys] at hs
  | .tag k p c v, h, s, hs => by
    simp only [Ty.plain, Bool.and_eq_true] at h
    exact Path.keys_plain p h.2 s hs
  | .ptr k u to, h, s, hs => by
    simp only [Ty.plain, Bool.and_eq_true] at h
    exact Ty.keys_plain to h.2 s hs
  | .fptr k sg, h, s, hs => Sig.keys_plain sg h s hs
  | .aptr k c v dims el, h, s, hs => by
    simp only [Ty.plain, Bool.and_eq_true] at h
    exact Ty.keys_plain el h.2 s hs
  | .mptr k u cls to, h, s, hs => by
    simp only [Ty.plain, Bool.and_eq_true] at h
    simp only [Ty.keys, List.mem_append] at hs
    rcases hs with hs | hs
    · exact Path.keys_plain cls h.1.1.2 s hs
    · exact Ty.keys_plain to h.2 s hs
  | .mfptr k cls q sg, h, s, hs => by
    simp only [Ty.plain, Bool.and_eq_true] at h
    simp only [Ty.keys, List.mem_append] at hs
    rcases hs with hs | hs
    · exact Path.keys_plain cls h.1.2 s hs
    · exact Sig.keys_plain sg h.2 s hs
theorem Sig.keys_plain : ∀ sg : Sig, sg.plain key = true → ∀ s ∈ sg.keys, s.plain key = true
  | .mk cc ret ps va ne, h, s, hs => by
    simp only [Sig.plain, Bool.and_eq_true] at h
    simp only [Sig.keys, List.mem_append] at hs
    rcases hs with hs | hs
    · exact Ty.keys_plain ret h.1.2 s hs
    · exact Tys.keys_plain ps h.2 s hs
theorem Tys.keys_plain : ∀ ts : Tys, ts.plain key = true → ∀ s ∈ ts.keys, s.plain key = true
  | .nil, _, s, hs => by simp [Tys.keys] at hs
  | .cons t ts, h, s, hs => by
    simp only [Tys.plain, Bool.and_eq_true] at h
    simp only [Tys.keys, List.mem_append] at hs
    rcases hs with hs | hs
    · exact Ty.keys_plain t h.1.2 s hs
    · exact Tys.keys_plain ts h.2 s hs
theorem Path.keys_plain : ∀ p : Path, p.plain key = true → ∀ s ∈ p.keys, s.plain key = true
  | .nil, _, s, hs => by simp [Path.keys] at hs
  | .cons t ts, h, s, hs => by
    simp only [Path.plain, Bool.and_eq_true] at h
    simp only [Path.keys, List.mem_append] at hs
    rcases hs with hs | hs
    · exact Seg.keys_plain t h.1 s hs
    · exact Path.keys_plain ts h.2 s hs
theorem Seg.keys_plain : ∀ t : Seg, t.plain key = true → ∀ s ∈ t.keys, s.plain key = true
  | .id t, h, s, hs => by
    simp only [Seg.keys, List.mem_singleton] at hs
    rw [hs]; exact h
  | .tm t as, h, s, hs => by
    have h' := h
    simp only [Seg.plain, Bool.and_eq_true] at h'
    simp only [Seg.keys, List.mem_append, List.mem_cons, List.not_mem_nil, or_false] at hs
    rcases hs with (hs | hs) | hs
    · rw [hs]; exact h
    · rw [hs]; exact h'.1
    · exact Args.keys_plain as h'.2 s hs
  | .anon k, h, s, hs => by
    simp only [Seg.keys, List.mem_singleton] at hs
    rw [hs]; exact h
  | .loc n d, h, s, hs => Decl.keys_plain d h s hs
theorem Args.keys_plain : ∀ as : Args, as.plain key = true → ∀ s ∈ as.keys, s.plain key = true
  | .nil, _, s, hs => by simp [Args.keys] at hs
  | .ty t as, h, s, hs => by
    simp only [Args.plain, Bool.and_eq_true] at h
    simp only [Args.keys, List.mem_append] at hs
    rcases hs with hs | hs
    · exact Ty.keys_plain t h.1 s hs
    · exact Args.keys_plain as h.2 s hs
  | .int neg n as, h, s, hs => Args.keys_plain as h s hs
  | .pack as, h, s, hs => by simp [Args.plain] at h
  | .fn sg as, h, s, hs => by
    simp only [Args.plain, Bool.and_eq_true] at h
    simp only [Args.keys, List.mem_append] at hs
    rcases hs with hs | hs
    · exact Sig.keys_plain sg h.1 s hs
    · exact Args.keys_plain as h.2 s hs
  | .mfn q sg as, h, s, hs => by
    simp only [Args.plain, Bool.and_eq_true] at h
    simp only [Args.keys, List.mem_append] at hs
    rcases hs with hs | hs
    · exact Sig.keys_plain sg h.1.2 s hs
    · exact Args.keys_plain as h.2 s hs
  | .arr c v dims el as, h, s, hs => by
    simp only [Args.plain, Bool.and_eq_true] at h
    simp only [Args.keys, List.mem_append] at hs
    rcases hs with hs | hs
    · exact Ty.keys_plain el h.1.2 s hs
    · exact Args.keys_plain as h.2 s hs
  | .tmpl p as, h, s, hs => by
    simp only [Args.plain, Bool.and_eq_true] at h
    simp only [Args.keys, List.mem_append] at hs
    rcases hs with hs | hs
    · exact Path.keys_plain p h.1.2 s hs
    · exact Args.keys_plain as h.2 s hs
  | .addr d as, h, s, hs => by
    simp only [Args.plain, Bool.and_eq_true] at h
    simp only [Args.keys, List.mem_append] at hs
    rcases hs with hs | hs
    · exact Decl.keys_plain d h.1 s hs
    · exact Args.keys_plain as h.2 s hs
  | .ref d as, h, s, hs => by
    simp only [Args.plain, Bool.and_eq_true] at h
    simp only [Args.keys, List.mem_append] at hs
    rcases hs with hs | hs
    · exact Decl.keys_plain d h.1 s hs
    · exact Args.keys_plain as h.2 s hs
  | .memFn d offs as, h, s, hs => by
    simp only [Args.plain, Bool.and_eq_true] at h
    simp only [Args.keys, List.mem_append] at hs
    rcases hs with hs | hs
    · exact Decl.keys_plain d h.1.2 s hs
    · exact Args.keys_plain as h.2 s hs
  | .memData offs as, h, s, hs => by
    simp only [Args.plain, Bool.and_eq_true] at h
    exact Args.keys_plain as h.2 s hs
theorem Targs.keys_plain : ∀ ta : Targs, ta.plain key = true → ∀ s ∈ ta.keys, s.plain key = true
  | .none, _, s, hs => by simp [Targs.keys] at hs
  | .some as, h, s, hs => Args.keys_plain as (by simpa only [Targs.plain] using h) s (by simpa only [Targs.keys] using hs)
theorem Head.keys_plain : ∀ n : Head, n.plain key = true → ∀ s ∈ n.keys, s.plain key = true
  | .id t, h, s, hs => by
    simp only [Head.keys, List.mem_singleton] at hs
    rw [hs]; exact h
  | .tm t as, h, s, hs => by
    simp only [Head.plain, Bool.and_eq_true] at h
    simp only [Head.keys, List.mem_append, List.mem_singleton] at hs
    rcases hs with hs | hs
    · rw [hs]; exact h.1
    · exact Args.keys_plain as h.2 s hs
  | .op o ta, h, s, hs => by
    simp only [Head.plain, Bool.and_eq_true] at h
    exact Targs.keys_plain ta h.2 s hs
  | .lit t, h, s, hs => by simp [Head.keys] at hs
theorem Decl.keys_plain : ∀ d : Decl, d.plain key = true → ∀ s ∈ d.keys, s.plain key = true
  | .var st name scope ty, h, s, hs => by
    simp only [Decl.plain, Bool.and_eq_true] at h
    simp only [Decl.keys, List.mem_append] at hs
    rcases hs with (hs | hs) | hs
    · exact Head.keys_plain name h.1.1.2 s hs
    · exact Path.keys_plain scope h.1.2 s hs
    · exact Ty.keys_plain ty h.2 s hs
  | .fn k name scope sg, h, s, hs => by
    simp only [Decl.plain, Bool.and_eq_true] at h
    simp only [Decl.keys, List.mem_append] at hs
    rcases hs with (hs | hs) | hs
    · exact Head.keys_plain name h.1.1 s hs
    · exact Path.keys_plain scope h.1.2 s hs
    · exact Sig.keys_plain sg h.2 s hs
  | .structor dt targs k t scope cc ps va ne, h, s, hs => by
    simp only [Decl.plain, Bool.and_eq_true] at h
    simp only [Decl.keys, List.mem_append] at hs
    rcases hs with ((hs | hs) | hs) | hs
    · exact Targs.keys_plain targs h.1.1.1.1.1 s hs
    · exact Seg.keys_plain t h.1.1.1.2 s hs
    · exact Path.keys_plain scope h.1.1.2 s hs
    · exact Tys.keys_plain ps h.2 s hs
  | .conv targs k cls sg, h, s, hs => by
    simp only [Decl.plain, Bool.and_eq_true] at h
    simp only [Decl.keys, List.mem_append] at hs
    rcases hs with (hs | hs) | hs
    · exact Targs.keys_plain targs h.1.1.1.1 s hs
    · exact Path.keys_plain cls h.1.2 s hs
    · exact Sig.keys_plain sg h.2 s hs
end

end

/-- The text of a plain name does not begin with a digit. -/
theorem Seg.head_plain {E : Env} {key : Text} {s : Seg} (h : s.plain key = true) : (s.cpp E).head?.all (fun c => !c.isDigit) = true := by
  cases s with
  | id s =>
    simp only [Seg.plain, ident, Bool.and_eq_true] at h
    simpa only [Seg.cpp] using h.1.2
  | tm s as =>
    simp only [Seg.plain, ident, Bool.and_eq_true] at h
    have h1 := h.1.1.2
    have h2 := h.1.1.1.1
    rw [Seg.cpp]
    cases s with
    | nil => simp at h2
    | cons c s => simpa using h1
  | anon k => rfl
  | loc n d => rfl

/-- Plain names have different texts if the key of the anonymous namespace begins with a digit. -/
theorem plain_distinct {E : Env} (hE : E.flags = Flags.default) {key : Text}
    (hk : key.head?.any Char.isDigit = true) {l : List Seg} (h : ∀ s ∈ l, s.plain key = true) : Distinct E l := by
  intro a ha b hb e
  have ha := h a ha
  have hb := h b hb
  have key_ne : ∀ s : Seg, s.plain key = true → key ≠ s.cpp E := by
    intro s hs e
    have := Seg.head_plain (E := E) hs
    rw [← e] at this
    cases hh : key.head? with
    | none => simp [hh] at hk
    | some c => simp [hh] at hk this; rw [hk] at this; exact absurd this (by decide)
  have one : ∀ s : Seg, s.plain key = true → (s = .anon key) ∨ (s.known E = s.cpp E ∧ ∀ k, s ≠ .anon k) := by
    intro s hs
    cases s with
    | anon k => left; simp only [Seg.plain, beq_iff_eq] at hs; rw [hs]
    | _ => right; exact ⟨rfl, by simp⟩
  rcases one a ha with rfl | ⟨ea, -⟩ <;> rcases one b hb with rfl | ⟨eb, -⟩
  · rfl
  · rw [eb] at e; exact absurd e (key_ne b hb)
  · rw [ea] at e; exact absurd e.symm (key_ne a ha)
  · rw [ea, eb] at e; exact Seg.cpp_inj hE ha hb e

/-- So have the remembered names of a plain declaration. -/
theorem Decl.plain_distinct {E : Env} (hE : E.flags = Flags.default) {key : Text}
    (hk : key.head?.any Char.isDigit = true) {d : Decl} (h : d.plain key = true) : Distinct E d.keys :=
  Cxx.plain_distinct hE hk (Decl.keys_plain d h)

end Undname.Spec.Cxx
