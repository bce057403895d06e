/-
  Reading a type together with what it declares.
-/
import Verif.Proof.ReadFlat

namespace Undname.Spec.Cxx

/-! ### Types as base and layers -/

def Sig.ccOf : Sig → Char
  | .mk cc _ _ _ _ => cc
def Sig.retOf : Sig → Ty
  | .mk _ ret _ _ _ => ret
def Sig.rt : Sig → This → Rt
  | .mk _ _ ps va ne, q => .fn ps va ne q

mutual
def Ty.bk : Ty → BK
  | .prim k _ _ => .prim k
  | .tag k p _ _ => .tag k p
  | .ptr _ _ to => to.bk
  | .fptr _ s => s.bk
  | .aptr _ _ _ _ el => el.bk
  | .mptr _ _ _ to => to.bk
  | .mfptr _ _ _ s => s.bk
def Sig.bk : Sig → BK
  | .mk _ ret _ _ _ => ret.bk
end

mutual
/-- The qualifiers of the base. -/
def Ty.cvOf : Ty → Bool × Bool
  | .prim _ c v => (c, v)
  | .tag _ _ c v => (c, v)
  | .ptr _ _ to => to.cvOf
  | .fptr _ s => s.cvOf
  | .aptr _ c v _ el => if el.isBase then (c, v) else el.cvOf
  | .mptr _ _ _ to => to.cvOf
  | .mfptr _ _ _ s => s.cvOf
def Sig.cvOf : Sig → Bool × Bool
  | .mk _ ret _ _ _ => ret.cvOf
end

mutual
/-- The layers, innermost first. -/
def Ty.lays : Ty → List Lay
  | .prim _ _ _ => []
  | .tag _ _ _ _ => []
  | .ptr k u to => to.lays ++ [⟨.data u, .nil, k, .none⟩]
  | .fptr k s => s.lays ++ [⟨.fn s.ccOf, .nil, k, s.rt {}⟩]
  | .aptr k _ _ dims el => el.lays ++ [⟨.arr, .nil, k, .arr dims⟩]
  | .mptr k u cls to => to.lays ++ [⟨.data u, cls, k, .none⟩]
  | .mfptr k cls q s => s.lays ++ [⟨.fn s.ccOf, cls, k, s.rt q⟩]
def Sig.lays : Sig → List Lay
  | .mk _ ret _ _ _ => ret.lays
end

theorem Sig.bk_eq (s : Sig) : s.bk = s.retOf.bk := by cases s; rw [Sig.bk, Sig.retOf]
theorem Sig.cv_eq (s : Sig) : s.cvOf = s.retOf.cvOf := by cases s; rw [Sig.cvOf, Sig.retOf]
theorem Sig.lays_eq (s : Sig) : s.lays = s.retOf.lays := by cases s; rw [Sig.lays, Sig.retOf]

/-- The text of the base. -/
def Ty.baseText (E : Env) (t : Ty) : Text := t.bk.text E ++ Spec.Ty.cvAfter t.cvOf.1 t.cvOf.2

theorem Ty.isBase_lays {t : Ty} (h : t.isBase = true) : t.lays = [] := by
  cases t <;> first | (simp [Ty.isBase] at h; done) | rw [Ty.lays]

theorem Ty.bare_cv {t : Ty} (h : t.isBase = true) (h' : t.bare = true) : t.cvOf = (false, false) := by
  cases t <;> simp [Ty.isBase, Ty.bare] at h h' <;> simp [Ty.cvOf, h']

/-- The induction hypothesis about results. -/
theorem cvAfter_ff : Spec.Ty.cvAfter false false = [] := rfl

section
variable {E : Env} (hE : E.flags = Flags.default) {key : Text}
include hE

/-- The left part of a type. -/
theorem Ty.left_eq : ∀ t : Ty, t.plain key = true → t.left E = t.baseText E ++ adds E (t.baseText E) t.lays
  | .prim k c v, _ => by
    rw [Ty.left, Ty.baseText, Ty.bk, Ty.cvOf, Ty.lays, adds, BK.text, List.append_nil]
  | .tag k p c v, _ => by
    rw [Ty.left, Ty.baseText, Ty.bk, Ty.cvOf, Ty.lays, adds, BK.text, List.append_nil, dflt_tag hE, part_yes, Path.text_eq]
  | .ptr k u to, h => by
    simp only [Ty.plain, Bool.and_eq_true] at h
    have e : (Ty.ptr k u to).baseText E = to.baseText E := by rw [Ty.baseText, Ty.baseText, Ty.bk, Ty.cvOf]
    rw [e, Ty.left, Ty.lays, adds_append, ← List.append_assoc, ← Ty.left_eq to h.2, sp_eq, dflt_ms hE, dflt_msWord hE]
    simp [adds, Lay.add, Stem.text, clsText, Path.isNil]
  | .fptr k (.mk cc ret ps va ne), h => by
    simp only [Ty.plain, Sig.plain, Bool.and_eq_true] at h
    have e : (Ty.fptr k (.mk cc ret ps va ne)).baseText E = ret.baseText E := by rw [Ty.baseText, Ty.baseText, Ty.bk, Ty.cvOf, Sig.bk, Sig.cvOf]
    rw [e, Ty.left, Ty.lays, Sig.lays, adds_append, ← List.append_assoc, ← Ty.left_eq ret h.1.2, Sig.left, dflt_ptrRet hE, dflt_ptrConv hE, dflt_convCpp hE]
    simp [adds, Lay.add, Stem.text, clsText, Path.isNil, Sig.ccOf, part, cword]
  | .aptr k c v dims el, h => by
    simp only [Ty.plain, Bool.and_eq_true, Bool.or_eq_true] at h
    by_cases hb : el.isBase = true
    · have e1 := Ty.left_eq el h.2
      rw [Ty.isBase_lays hb, adds, List.append_nil, Ty.baseText, Ty.bare_cv hb h.1.1.1.2, cvAfter_ff, List.append_nil] at e1
      have e : (Ty.aptr k c v dims el).baseText E = el.left E ++ Spec.Ty.cvAfter c v := by
        rw [Ty.baseText, Ty.bk, Ty.cvOf, if_pos hb, e1]
      rw [e, Ty.left, Ty.lays, Ty.isBase_lays hb, sp_eq]
      simp [adds, Lay.add, Stem.text, clsText, Path.isNil]
    · have hcv : c = false ∧ v = false := by
        rcases h.1.1.1.1 with h | h
        · exact absurd h hb
        · simpa using h
      obtain ⟨rfl, rfl⟩ := hcv
      have e : (Ty.aptr k false false dims el).baseText E = el.baseText E := by
        rw [Ty.baseText, Ty.baseText, Ty.bk, Ty.cvOf, if_neg hb]
      rw [e, Ty.left, Ty.lays, adds_append, ← List.append_assoc, ← Ty.left_eq el h.2, sp_eq, cvAfter_ff]
      simp [adds, Lay.add, Stem.text, clsText, Path.isNil]
  | .mptr k u cls to, h => by
    simp only [Ty.plain, Bool.and_eq_true] at h
    have e : (Ty.mptr k u cls to).baseText E = to.baseText E := by rw [Ty.baseText, Ty.baseText, Ty.bk, Ty.cvOf]
    rw [e, Ty.left, Ty.lays, adds_append, ← List.append_assoc, ← Ty.left_eq to h.2, sp_eq, dflt_ms hE, dflt_msWord hE, Path.text_eq]
    have hn : cls.isNil = false := by simpa using h.1.1.1.2
    simp [adds, Lay.add, Stem.text, clsText, hn]
  | .mfptr k cls q (.mk cc ret ps va ne), h => by
    simp only [Ty.plain, Sig.plain, Bool.and_eq_true] at h
    have e : (Ty.mfptr k cls q (.mk cc ret ps va ne)).baseText E = ret.baseText E := by rw [Ty.baseText, Ty.baseText, Ty.bk, Ty.cvOf, Sig.bk, Sig.cvOf]
    have hn : cls.isNil = false := by simpa using h.1.1.2
    rw [e, Ty.left, Ty.lays, Sig.lays, adds_append, ← List.append_assoc, ← Ty.left_eq ret h.2.1.2, Sig.left, dflt_ptrRet hE, dflt_ptrConv hE, dflt_convCpp hE, Path.text_eq]
    simp [adds, Lay.add, Stem.text, clsText, hn, Sig.ccOf, part, cword]

/-- The right part of a type. -/
theorem Ty.right_eq : ∀ t : Ty, t.right E = rights E t.lays
  | .prim k c v => by rw [Ty.right, Ty.lays, rights]
  | .tag k p c v => by rw [Ty.right, Ty.lays, rights]
  | .ptr k u to => by
    rw [Ty.right, Ty.lays, rights_append, Ty.right_eq to]; simp [rights, Rt.text]
  | .fptr k (.mk cc ret ps va ne) => by
    rw [Ty.right, Ty.lays, Sig.lays, rights_append, Sig.params, Sig.right, Ty.right_eq ret, dflt_this hE, dflt_ret hE]
    simp [rights, Rt.text, Sig.rt, quals, part]
  | .aptr k c v dims el => by
    rw [Ty.right, Ty.lays, rights_append, Ty.right_eq el]; simp [rights, Rt.text]
  | .mptr k u cls to => by
    rw [Ty.right, Ty.lays, rights_append, Ty.right_eq to]; simp [rights, Rt.text]
  | .mfptr k cls q (.mk cc ret ps va ne) => by
    rw [Ty.right, Ty.lays, Sig.lays, rights_append, Sig.params, Sig.right, Ty.right_eq ret, dflt_this hE, dflt_ret hE]
    simp [rights, Rt.text, Sig.rt, quals, part]

end

/-! ### Base and layers determine the type -/

theorem Ty.isRef_lays {t : Ty} : (∃ l ls, t.lays = ls ++ [l] ∧ l.k.isRef = t.isRef) ∨ (t.lays = [] ∧ t.isBase = true) := by
  cases t <;> simp [Ty.lays, Ty.isRef, Ty.isBase]

theorem Chain.snoc {ls : List Lay} {l : Lay} (h : Chain ls) (hl : ∀ ms m, ls = ms ++ [m] → m.k.isRef = true → ∃ cc, l.stem = .fn cc) :
    Chain (ls ++ [l]) := by
  induction ls with
  | nil => trivial
  | cons x ls ih =>
    cases ls with
    | nil => exact ⟨fun hx => hl [] x rfl hx, trivial⟩
    | cons y ls =>
      refine ⟨h.1, ih h.2 fun ms m e hm => ?_⟩
      exact hl (x :: ms) m (by rw [e]; rfl) hm

theorem Ty.lays_ok {key : Text} : ∀ {t : Ty}, t.plain key = true → t.bk.Ok key ∧ (∀ l ∈ t.lays, l.Ok key) ∧ Chain t.lays
  | .prim k c v, _ => by simp [Ty.bk, BK.Ok, Ty.lays, Chain]
  | .tag k p c v, h => by simpa [Ty.plain, Ty.bk, BK.Ok, Ty.lays, Chain] using h
  | .ptr k u to, h => by
    simp only [Ty.plain, Bool.and_eq_true, Bool.not_eq_true'] at h
    obtain ⟨h1, h2, h3⟩ := Ty.lays_ok h.2
    rw [Ty.bk, Ty.lays]
    refine ⟨h1, ?_, h3.snoc ?_⟩
    · intro l hl
      simp only [List.mem_append, List.mem_singleton] at hl
      rcases hl with hl | rfl
      · exact h2 l hl
      · exact ⟨by simp [Path.plain], fun cc hc => by simp at hc, fun hn => by simp [Path.isNil] at hn⟩
    · intro ms m e hm
      rcases Ty.isRef_lays (t := to) with ⟨l, ls, e', hl⟩ | ⟨e', -⟩
      · rw [e'] at e
        obtain ⟨-, e⟩ := List.append_inj' e rfl
        simp at e
        subst e
        rw [hl, h.1] at hm; simp at hm
      · rw [e'] at e; simp at e
  | .fptr k (.mk cc ret ps va ne), h => by
    simp only [Ty.plain, Sig.plain, Bool.and_eq_true] at h
    obtain ⟨h1, h2, h3⟩ := Ty.lays_ok h.1.2
    rw [Ty.bk, Ty.lays, Sig.bk, Sig.lays]
    refine ⟨h1, ?_, h3.snoc fun _ _ _ _ => ⟨_, rfl⟩⟩
    intro l hl
    simp only [List.mem_append, List.mem_singleton] at hl
    rcases hl with hl | rfl
    · exact h2 l hl
    · exact ⟨by simp [Path.plain], fun c hc => by simp [Sig.ccOf] at hc; rw [← hc]; exact h.1.1, fun hn => by simp [Path.isNil] at hn⟩
  | .aptr k c v dims el, h => by
    simp only [Ty.plain, Bool.and_eq_true, Bool.not_eq_true'] at h
    obtain ⟨h1, h2, h3⟩ := Ty.lays_ok h.2
    rw [Ty.bk, Ty.lays]
    refine ⟨h1, ?_, h3.snoc ?_⟩
    · intro l hl
      simp only [List.mem_append, List.mem_singleton] at hl
      rcases hl with hl | rfl
      · exact h2 l hl
      · exact ⟨by simp [Path.plain], fun cc hc => by simp at hc, fun hn => by simp [Path.isNil] at hn⟩
    · intro ms m e hm
      rcases Ty.isRef_lays (t := el) with ⟨l, ls, e', hl⟩ | ⟨e', -⟩
      · rw [e'] at e
        obtain ⟨-, e⟩ := List.append_inj' e rfl
        simp at e
        subst e
        rw [hl, h.1.1.2] at hm; simp at hm
      · rw [e'] at e; simp at e
  | .mptr k u cls to, h => by
    simp only [Ty.plain, Bool.and_eq_true, Bool.not_eq_true'] at h
    obtain ⟨h1, h2, h3⟩ := Ty.lays_ok h.2
    rw [Ty.bk, Ty.lays]
    refine ⟨h1, ?_, h3.snoc ?_⟩
    · intro l hl
      simp only [List.mem_append, List.mem_singleton] at hl
      rcases hl with hl | rfl
      · exact h2 l hl
      · exact ⟨h.1.1.2, fun cc hc => by simp at hc, fun _ => h.1.1.1.1⟩
    · intro ms m e hm
      rcases Ty.isRef_lays (t := to) with ⟨l, ls, e', hl⟩ | ⟨e', -⟩
      · rw [e'] at e
        obtain ⟨-, e⟩ := List.append_inj' e rfl
        simp at e
        subst e
        rw [hl, h.1.2] at hm; simp at hm
      · rw [e'] at e; simp at e
  | .mfptr k cls q (.mk cc ret ps va ne), h => by
    simp only [Ty.plain, Sig.plain, Bool.and_eq_true, Bool.not_eq_true'] at h
    obtain ⟨h1, h2, h3⟩ := Ty.lays_ok h.2.1.2
    rw [Ty.bk, Ty.lays, Sig.bk, Sig.lays]
    refine ⟨h1, ?_, h3.snoc fun _ _ _ _ => ⟨_, rfl⟩⟩
    intro l hl
    simp only [List.mem_append, List.mem_singleton] at hl
    rcases hl with hl | rfl
    · exact h2 l hl
    · exact ⟨h.1.2, fun c hc => by simp [Sig.ccOf] at hc; rw [← hc]; exact h.2.1.1, fun _ => h.1.1.1⟩

/-- The right parts are those of plain types. -/
def Rt.Ok (key : Text) : Rt → Prop
  | .none => True
  | .fn ps _ _ _ => ps.plain key = true
  | .arr dims => dims ≠ []

theorem Ty.rts_ok {key : Text} : ∀ {t : Ty}, t.plain key = true → ∀ l ∈ t.lays, l.rt.Ok key
  | .prim k c v, _ => by simp [Ty.lays]
  | .tag k p c v, h => by simp [Ty.lays]
  | .ptr k u to, h => by
    simp only [Ty.plain, Bool.and_eq_true, Bool.not_eq_true'] at h
    intro l hl
    simp only [Ty.lays, List.mem_append, List.mem_singleton] at hl
    rcases hl with hl | rfl
    · exact Ty.rts_ok h.2 l hl
    · trivial
  | .fptr k (.mk cc ret ps va ne), h => by
    simp only [Ty.plain, Sig.plain, Bool.and_eq_true] at h
    intro l hl
    simp only [Ty.lays, Sig.lays, List.mem_append, List.mem_singleton] at hl
    rcases hl with hl | rfl
    · exact Ty.rts_ok h.1.2 l hl
    · exact h.2
  | .aptr k c v dims el, h => by
    simp only [Ty.plain, Bool.and_eq_true, Bool.not_eq_true'] at h
    intro l hl
    simp only [Ty.lays, List.mem_append, List.mem_singleton] at hl
    rcases hl with hl | rfl
    · exact Ty.rts_ok h.2 l hl
    · simpa [Rt.Ok] using h.1.2
  | .mptr k u cls to, h => by
    simp only [Ty.plain, Bool.and_eq_true, Bool.not_eq_true'] at h
    intro l hl
    simp only [Ty.lays, List.mem_append, List.mem_singleton] at hl
    rcases hl with hl | rfl
    · exact Ty.rts_ok h.2 l hl
    · trivial
  | .mfptr k cls q (.mk cc ret ps va ne), h => by
    simp only [Ty.plain, Sig.plain, Bool.and_eq_true, Bool.not_eq_true'] at h
    intro l hl
    simp only [Ty.lays, Sig.lays, List.mem_append, List.mem_singleton] at hl
    rcases hl with hl | rfl
    · exact Ty.rts_ok h.2.1.2 l hl
    · exact h.2.2

theorem snoc_inj {A B : List Lay} {x y : Lay} : A ++ [x] = B ++ [y] ↔ A = B ∧ x = y := by
  constructor
  · intro h
    obtain ⟨h1, h2⟩ := List.append_inj' h rfl
    exact ⟨h1, by simpa using h2⟩
  · rintro ⟨rfl, rfl⟩; rfl

theorem Ty.flat_inj {key : Text} : ∀ {t u : Ty}, t.plain key = true → u.plain key = true → t.bk = u.bk → t.cvOf = u.cvOf → t.lays = u.lays → t = u
  | .prim k c v, u, _, _, hb, hc, hl => by
    cases u <;> simp [Ty.lays] at hl <;> simp_all [Ty.bk, Ty.cvOf]
  | .tag k p c v, u, _, _, hb, hc, hl => by
    cases u <;> simp [Ty.lays] at hl <;> simp_all [Ty.bk, Ty.cvOf]
  | .ptr k u to, x, ht, hu, hb, hc, hl => by
    cases x with
    | ptr k' u' to' =>
      simp only [Ty.lays, snoc_inj, Lay.mk.injEq, Stem.data.injEq] at hl
      simp only [Ty.plain, Bool.and_eq_true] at ht hu
      simp only [Ty.bk] at hb
      simp only [Ty.cvOf] at hc
      rw [Ty.flat_inj ht.2 hu.2 hb hc hl.1, hl.2.1, hl.2.2.2.1]
    | mptr k' u' cls' to' =>
      simp only [Ty.lays, snoc_inj, Lay.mk.injEq, Stem.data.injEq] at hl
      simp only [Ty.plain, Bool.and_eq_true, Bool.not_eq_true'] at hu
      rw [← hl.2.2.1] at hu
      simp [Path.isNil] at hu
    | prim | tag => simp [Ty.lays] at hl
    | fptr | aptr | mfptr => simp [Ty.lays, snoc_inj] at hl
  | .fptr k (.mk cc ret ps va ne), x, ht, hu, hb, hc, hl => by
    cases x with
    | fptr k' s' =>
      cases s'
      simp only [Ty.lays, Sig.lays, Sig.ccOf, Sig.rt, snoc_inj, Lay.mk.injEq, Stem.fn.injEq, Rt.fn.injEq] at hl
      simp only [Ty.plain, Sig.plain, Bool.and_eq_true] at ht hu
      simp only [Ty.bk, Sig.bk] at hb
      simp only [Ty.cvOf, Sig.cvOf] at hc
      rw [Ty.flat_inj ht.1.2 hu.1.2 hb hc hl.1, hl.2.1, hl.2.2.2.1, hl.2.2.2.2.1, hl.2.2.2.2.2.1, hl.2.2.2.2.2.2.1]
    | mfptr k' cls' q' s' =>
      simp only [Ty.lays, snoc_inj, Lay.mk.injEq] at hl
      simp only [Ty.plain, Bool.and_eq_true, Bool.not_eq_true'] at hu
      rw [← hl.2.2.1] at hu
      simp [Path.isNil] at hu
    | prim | tag => simp [Ty.lays] at hl
    | ptr | aptr | mptr => simp [Ty.lays, snoc_inj] at hl
  | .aptr k c v dims el, x, ht, hu, hb, hc, hl => by
    cases x with
    | aptr k' c' v' dims' el' =>
      simp only [Ty.lays, snoc_inj, Lay.mk.injEq, Rt.arr.injEq] at hl
      simp only [Ty.plain, Bool.and_eq_true, Bool.or_eq_true, Bool.not_eq_true'] at ht hu
      simp only [Ty.bk] at hb
      simp only [Ty.cvOf] at hc
      have base_iff : ∀ {t : Ty}, t.isBase = true ↔ t.lays = [] := by
        intro t; cases t <;> simp [Ty.isBase, Ty.lays]
      have hbb : el.isBase = el'.isBase := by
        rw [Bool.eq_iff_iff, base_iff, base_iff, hl.1]
      by_cases hi : el.isBase = true
      · have hi' : el'.isBase = true := by rw [← hbb]; exact hi
        rw [if_pos hi, if_pos hi'] at hc
        rw [Ty.flat_inj ht.2 hu.2 hb (by rw [Ty.bare_cv hi ht.1.1.1.2, Ty.bare_cv hi' hu.1.1.1.2]) hl.1, hl.2.2.2.1, hl.2.2.2.2]
        simp only [Prod.mk.injEq] at hc
        rw [hc.1, hc.2]
      · have hi' : ¬el'.isBase = true := by rw [← hbb]; exact hi
        rw [if_neg hi, if_neg hi'] at hc
        have h1 := ht.1.1.1.1.resolve_left hi
        have h2 := hu.1.1.1.1.resolve_left hi'
        rw [Ty.flat_inj ht.2 hu.2 hb hc hl.1, hl.2.2.2.1, hl.2.2.2.2, h1.1, h1.2, h2.1, h2.2]
    | prim | tag => simp [Ty.lays] at hl
    | ptr | fptr | mptr | mfptr => simp [Ty.lays, snoc_inj] at hl
  | .mptr k u cls to, x, ht, hu, hb, hc, hl => by
    cases x with
    | mptr k' u' cls' to' =>
      simp only [Ty.lays, snoc_inj, Lay.mk.injEq, Stem.data.injEq] at hl
      simp only [Ty.plain, Bool.and_eq_true] at ht hu
      simp only [Ty.bk] at hb
      simp only [Ty.cvOf] at hc
      rw [Ty.flat_inj ht.2 hu.2 hb hc hl.1, hl.2.1, hl.2.2.1, hl.2.2.2.1]
    | ptr k' u' to' =>
      simp only [Ty.lays, snoc_inj, Lay.mk.injEq, Stem.data.injEq] at hl
      simp only [Ty.plain, Bool.and_eq_true, Bool.not_eq_true'] at ht
      rw [hl.2.2.1] at ht
      simp [Path.isNil] at ht
    | prim | tag => simp [Ty.lays] at hl
    | fptr | aptr | mfptr => simp [Ty.lays, snoc_inj] at hl
  | .mfptr k cls q (.mk cc ret ps va ne), x, ht, hu, hb, hc, hl => by
    cases x with
    | mfptr k' cls' q' s' =>
      cases s'
      simp only [Ty.lays, Sig.lays, Sig.ccOf, Sig.rt, snoc_inj, Lay.mk.injEq, Stem.fn.injEq, Rt.fn.injEq] at hl
      simp only [Ty.plain, Sig.plain, Bool.and_eq_true] at ht hu
      simp only [Ty.bk, Sig.bk] at hb
      simp only [Ty.cvOf, Sig.cvOf] at hc
      rw [Ty.flat_inj ht.2.1.2 hu.2.1.2 hb hc hl.1, hl.2.1, hl.2.2.1, hl.2.2.2.1, hl.2.2.2.2.1, hl.2.2.2.2.2.1, hl.2.2.2.2.2.2.1, hl.2.2.2.2.2.2.2]
    | fptr k' s' =>
      simp only [Ty.lays, snoc_inj, Lay.mk.injEq] at hl
      simp only [Ty.plain, Bool.and_eq_true, Bool.not_eq_true'] at ht
      rw [hl.2.2.1] at ht
      simp [Path.isNil] at ht
    | prim | tag => simp [Ty.lays] at hl
    | ptr | aptr | mptr => simp [Ty.lays, snoc_inj] at hl

/-! ### Right parts -/

section
variable (E : Env) (key : Text)

/-- A parameter list is read back. -/
def ParamsRd (ps : Tys) : Prop := ∀ va ps' va', ps'.plain key = true → ∀ a b,
  paramsCpp (ps.list E) va ++ a = paramsCpp (ps'.list E) va' ++ b → ps = ps' ∧ va = va' ∧ a = b

def Rt.Rd : Rt → Prop
  | .fn ps _ _ _ => ParamsRd E key ps
  | _ => True

/-- All parts of a type are read back. -/
structure TyParts (t : Ty) : Prop where
  base : t.bk.Rd E key
  cls : ∀ l ∈ t.lays, NmsRd E key l.cls.nms
  rt : ∀ l ∈ t.lays, l.rt.Rd E key

end

/-- The stem tells what is on the right. -/
def Lay.Fits (l : Lay) : Prop :=
  match l.stem, l.rt with
  | .data _, .none => True
  | .fn _, .fn .. => True
  | .arr, .arr _ => True
  | _, _ => False

theorem Sig.rt_fn (s : Sig) (q : This) : ∃ ps va ne, s.rt q = .fn ps va ne q := by cases s; exact ⟨_, _, _, rfl⟩

theorem Ty.fits : ∀ t : Ty, ∀ l ∈ t.lays, l.Fits
  | .prim k c v => by simp [Ty.lays]
  | .tag k p c v => by simp [Ty.lays]
  | .ptr k u to => by
    intro l hl
    simp only [Ty.lays, List.mem_append, List.mem_singleton] at hl
    rcases hl with hl | rfl
    · exact Ty.fits to l hl
    · trivial
  | .fptr k (.mk cc ret ps va ne) => by
    intro l hl
    simp only [Ty.lays, Sig.lays, List.mem_append, List.mem_singleton] at hl
    rcases hl with hl | rfl
    · exact Ty.fits ret l hl
    · trivial
  | .aptr k c v dims el => by
    intro l hl
    simp only [Ty.lays, List.mem_append, List.mem_singleton] at hl
    rcases hl with hl | rfl
    · exact Ty.fits el l hl
    · trivial
  | .mptr k u cls to => by
    intro l hl
    simp only [Ty.lays, List.mem_append, List.mem_singleton] at hl
    rcases hl with hl | rfl
    · exact Ty.fits to l hl
    · trivial
  | .mfptr k cls q (.mk cc ret ps va ne) => by
    intro l hl
    simp only [Ty.lays, Sig.lays, List.mem_append, List.mem_singleton] at hl
    rcases hl with hl | rfl
    · exact Ty.fits ret l hl
    · trivial

theorem Rt.stop {E : Env} (r : Rt) {a : Text} (ha : Stop a) : Stop (r.text E ++ a) := by
  cases r with
  | none => exact ha
  | fn | arr => exact Stop.cons (by decide)

theorem rights_stop {E : Env} (L : List Lay) {a : Text} (ha : Stop a) : Stop (rights E L ++ a) := by
  induction L generalizing a with
  | nil => exact ha
  | cons l L ih => rw [rights, List.append_assoc]; exact ih (Rt.stop _ ha)

theorem rt_read {E : Env} (hE : E.flags = Flags.default) {key : Text} {l l' : Lay} (hs : SameLeft l l') (fl : l.Fits) (fl' : l'.Fits)
    (ok : l.rt.Ok key) (ok' : l'.rt.Ok key) (rd : l.rt.Rd E key) {a b : Text} (ha : Stop a) (hb : Stop b)
    (e : l.rt.text E ++ a = l'.rt.text E ++ b) : l = l' ∧ a = b := by
  obtain ⟨s, c, k, r⟩ := l
  obtain ⟨s', c', k', r'⟩ := l'
  obtain ⟨h1, h2, h3⟩ := hs
  simp only at h1 h2 h3 ok ok' rd e
  subst h1 h2 h3
  cases s with
  | data u =>
    cases r <;> simp only [Lay.Fits] at fl
    cases r' <;> simp only [Lay.Fits] at fl'
    exact ⟨rfl, e⟩
  | fn cc =>
    cases r with
    | fn ps va ne q =>
      cases r' with
      | fn ps' va' ne' q' =>
        simp only [Rt.text, List.append_assoc, List.append_cancel_left_eq] at e
        obtain ⟨h1, h2, e⟩ := rd va ps' va' ok' _ _ e
        obtain ⟨h3, h4, e⟩ := quals_read hE ha hb e
        rw [h1, h2, h3, h4]
        exact ⟨rfl, e⟩
      | none | arr => simp only [Lay.Fits] at fl'
    | none | arr => simp only [Lay.Fits] at fl
  | arr =>
    cases r with
    | arr dims =>
      cases r' with
      | arr dims' =>
        simp only [Rt.text, List.append_assoc, List.append_cancel_left_eq] at e
        obtain ⟨h, e⟩ := bounds_read ok ok' (ha.not (by decide)) (hb.not (by decide)) e
        rw [h]
        exact ⟨rfl, e⟩
      | none | fn => simp only [Lay.Fits] at fl'
    | none | fn => simp only [Lay.Fits] at fl

theorem rights_read {E : Env} (hE : E.flags = Flags.default) {key : Text} {L L' : List Lay} (hs : SameLefts L L') (fl : ∀ l ∈ L, l.Fits) (fl' : ∀ l ∈ L', l.Fits)
    (ok : ∀ l ∈ L, l.rt.Ok key) (ok' : ∀ l ∈ L', l.rt.Ok key) (rd : ∀ l ∈ L, l.rt.Rd E key) {a b : Text} (ha : Stop a) (hb : Stop b)
    (e : rights E L ++ a = rights E L' ++ b) : L = L' ∧ a = b := by
  induction hs generalizing a b with
  | nil => exact ⟨rfl, e⟩
  | @cons l l' ls ls' h hs ih =>
    rw [rights, rights, List.append_assoc, List.append_assoc] at e
    obtain ⟨h1, e⟩ := ih (fun m hm => fl m (by simp [hm])) (fun m hm => fl' m (by simp [hm])) (fun m hm => ok m (by simp [hm]))
      (fun m hm => ok' m (by simp [hm])) (fun m hm => rd m (by simp [hm])) (Rt.stop _ ha) (Rt.stop _ hb) e
    obtain ⟨h2, e⟩ := rt_read hE h (fl l (by simp)) (fl' l' (by simp)) (ok l (by simp)) (ok' l' (by simp)) (rd l (by simp)) ha hb e
    rw [h1, h2]
    exact ⟨rfl, e⟩

end Undname.Spec.Cxx
