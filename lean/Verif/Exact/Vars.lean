/-
  The number of nodes of a variable.
-/
import Verif.Exact.Top
import Verif.Spec.VarNodes
import Verif.Proof.Decl

namespace Undname.Ex
open Spec

/-- Memorizing names. -/
def notes (tb : Tbl) (l : List Text) : Tbl := l.foldl Tbl.note tb

theorem notes_cons (tb : Tbl) (s : Text) (l : List Text) : notes tb (s :: l) = notes (tb.note s) l := rfl
theorem notes_append (tb : Tbl) (l l' : List Text) : notes tb (l ++ l') = notes (notes tb l) l' := List.foldl_append ..

theorem note_length (tb : Tbl) (s : Text) : (tb.note s).names.length = tb.names.length + tb.noteCost s := by
  unfold Tbl.note Tbl.noteCost
  split <;> simp

theorem mem_eraseDups' : (n : Nat) → (l : List Text) → l.length ≤ n → (s : Text) → (s ∈ l.eraseDups ↔ s ∈ l)
  | _, [], _, _ => by simp
  | 0, _ :: _, h, _ => by simp at h
  | n + 1, a :: l, h, s => by
    have hl : (l.filter fun b => !b == a).length ≤ n :=
      Nat.le_trans (List.length_filter_le ..) (by simpa using h)
    rw [List.eraseDups_cons, List.mem_cons, mem_eraseDups' n _ hl s, List.mem_filter, List.mem_cons]
    by_cases e : s = a <;> simp [e]

theorem mem_eraseDups (l : List Text) (s : Text) : s ∈ l.eraseDups ↔ s ∈ l := mem_eraseDups' _ l (Nat.le_refl _) s

/-- The memorized names are the first ten different ones. -/
theorem notes_names (l : List Text) : (notes {} l).names = l.eraseDups.take 10 := by
  suffices h : ∀ l' l : List Text, l'.reverse = l → (notes {} l).names = l.eraseDups.take 10 from
    h l.reverse l (by simp)
  intro l'
  induction l' with
  | nil => rintro l rfl; simp [notes]
  | cons s l' ih =>
    rintro l rfl
    have ih := ih _ rfl
    rw [List.reverse_cons, notes_append, notes_cons, List.eraseDups_append]
    show (Tbl.note _ s).names = _
    unfold Tbl.note
    rw [ih]
    have hr : List.removeAll [s] l'.reverse = if s ∈ l'.reverse then [] else [s] := by
      simp [List.removeAll, List.filter]
      split <;> simp_all
    rw [hr]
    by_cases hs : s ∈ l'.reverse
    · rw [if_pos hs, if_neg]
      · rw [ih]; simp
      · rintro ⟨h1, h2⟩
        refine h2 ?_
        rw [List.take_of_length_le]
        · exact (mem_eraseDups _ _).2 hs
        · rw [List.length_take] at h1; omega
    · rw [if_neg hs]
      have hd : List.eraseDups [s] = [s] := by simp [List.eraseDups_cons]
      rw [hd]
      by_cases hl : l'.reverse.eraseDups.length < 10
      · rw [if_pos]
        · simp only
          rw [List.take_of_length_le (by omega), List.take_of_length_le (by simp; omega)]
        · refine ⟨by rw [List.length_take]; omega, fun h => hs ?_⟩
          exact (mem_eraseDups _ _).1 (List.mem_of_mem_take h)
      · rw [if_neg (by rw [List.length_take]; omega), ih, List.take_append_of_le_length (by omega)]

theorem notes_length (l : List Text) : (notes {} l).names.length = min 10 (distinct l) := by
  rw [notes_names, List.length_take]; rfl

/-! ### Paths and types -/

theorem scopes_count {E : Env} {p : List Text} (hp : ∀ s ∈ p, Name s) (tb : Tbl) :
    ∃ k, GramN E .scopes tb (pathT p) (manglePath p) (notes tb p) k ∧
      k + tb.names.length = p.length + 2 + (notes tb p).names.length := by
  induction p generalizing tb with
  | nil => exact ⟨2, .scNil, by simp [notes]⟩
  | cons s p ih =>
    obtain ⟨k, h, hk⟩ := ih (fun s hs => hp s (by simp [hs])) (tb.note s)
    refine ⟨tb.noteCost s + 1 + k, ?_, ?_⟩
    · rw [pathT_cons, manglePath_cons]
      exact .scCons (.scName (.uName (hp s (by simp)))) h
    · rw [note_length] at hk
      rw [notes_cons, List.length_cons]
      omega

theorem qtn_count {E : Env} {p : List Text} (hp : IsPath p) (tb : Tbl) :
    ∃ k, GramN E .qtn tb (.qname (pathT p)) (manglePath p) (notes tb p) k ∧
      k + tb.names.length = p.length + 2 + (notes tb p).names.length := by
  obtain ⟨hne, hp⟩ := hp
  cases p with
  | nil => exact absurd rfl hne
  | cons s p =>
    obtain ⟨k, h, hk⟩ := scopes_count (E := E) (p := p) (fun s hs => hp s (by simp [hs])) (tb.note s)
    refine ⟨tb.noteCost s + 1 + k, ?_, ?_⟩
    · rw [pathT_cons, manglePath_cons]
      exact .qtn (.uName (hp s (by simp))) h
    · rw [note_length] at hk
      rw [notes_cons, List.length_cons]
      omega

open Spec.Ty in
theorem core_count {E : Env} (w : Bool) : {t : Spec.Ty} → t.Ok → (tb : Tbl) →
    ∃ k, GramN E .ty tb t.core (t.mangle w) (notes tb t.names) k ∧
      k + tb.names.length = t.names.length + 2 * t.paths + t.layers + (notes tb t.names).names.length
  | .prim k _ _, _, tb => ⟨1, .prim k, by simp [Ty.names, Ty.paths, Ty.layers, notes, Nat.add_comm]⟩
  | .tag k p _ _, h, tb => by
    obtain ⟨n, g, hk⟩ := qtn_count (E := E) (p := p) h tb
    exact ⟨n + 1, .tag k g, by simp only [Ty.names, Ty.paths, Ty.layers]; omega⟩
  | .ptr c v to, h, tb => by
    obtain ⟨n, g, hk⟩ := core_count (E := E) w (t := to) h tb
    refine ⟨n + 1, ?_, by simp only [Ty.names, Ty.paths, Ty.layers]; omega⟩
    have hm : ([ptrLetter c v], ({ c, v } : CV), PointerAffinity.Pointer) ∈ refCodes := by
      cases c <;> cases v <;> decide
    have := GramN.ptr ⟨w, false, false⟩ hm to.letter_mem g
    rw [core_addQ, wide_code, wide_cv, or_nil] at this
    exact this
  | .ref to, h, tb => by
    obtain ⟨n, g, hk⟩ := core_count (E := E) w (t := to) h tb
    refine ⟨n + 1, ?_, by simp only [Ty.names, Ty.paths, Ty.layers]; omega⟩
    have hm : (c!"A", ({} : CV), PointerAffinity.Reference) ∈ refCodes := by decide
    have := GramN.ptr ⟨w, false, false⟩ hm to.letter_mem g
    rw [core_addQ, wide_code, wide_cv, or_nil] at this
    exact this
  | .rref to, h, tb => by
    obtain ⟨n, g, hk⟩ := core_count (E := E) w (t := to) h tb
    refine ⟨n + 1, ?_, by simp only [Ty.names, Ty.paths, Ty.layers]; omega⟩
    have hm : (c!"$$Q", ({} : CV), PointerAffinity.RValueReference) ∈ refCodes := by decide
    have := GramN.ptr ⟨w, false, false⟩ hm to.letter_mem g
    rw [core_addQ, wide_code, wide_cv, or_nil] at this
    exact this

theorem var_count {E : Env} (w : Bool) {name : List Text} (hn : IsPath name) {t : Spec.Ty} (ht : t.Ok) :
    ∃ tb', GramN E .sym {} (.var (some .Global) (.qname (pathT name)) t.tree.one) (mangleVar w name t) tb' (varNodes name t) := by
  obtain ⟨hne, hp⟩ := hn
  cases name with
  | nil => exact absurd rfl hne
  | cons s p =>
    obtain ⟨k1, h1, e1⟩ := scopes_count (E := E) (p := p) (fun s hs => hp s (by simp [hs])) (({} : Tbl).note s)
    obtain ⟨k2, h2, e2⟩ := core_count (E := E) w ht (notes (({} : Tbl).note s) p)
    refine ⟨notes {} (s :: p ++ t.names), ?_⟩
    have hs : GramN E .sname {} (leaf s) (s ++ c!"@") (({} : Tbl).note s) (({} : Tbl).noteCost s + 1) := .sFull (.fName (hp s (by simp)))
    have hst : ('3', StorageClass.Global) ∈ storageCodes := by decide
    have hl : ∀ t : Spec.Ty, (t.letter, t.ctxCV) ∈ cvCodes ++ memberCvCodes := fun t => List.mem_append_left _ t.letter_mem
    have hk : ({} : Tbl).noteCost s + 1 + k1 + (k2 + 1) = varNodes (s :: p) t := by
      unfold varNodes
      rw [← notes_length, notes_append, notes_cons, List.length_append, List.length_cons]
      rw [note_length] at e1
      have : ({} : Tbl).names.length = 0 := rfl
      omega
    rw [notes_append, notes_cons, ← hk]
    unfold mangleVar
    rw [pathT_cons, manglePath_cons]
    have hd : GramN E .decl {} (.var (some .Global) (.qname ((pathT p).snoc (leaf s))) t.tree.one)
        (s ++ c!"@" ++ manglePath p ++ '3' :: t.mangle w ++ t.suffix w) (notes (notes (({} : Tbl).note s) p) t.names)
        (({} : Tbl).noteCost s + 1 + k1 + (k2 + 1)) := by
      cases t with
      | prim k c v => exact cast (by rw [Ty.core_setQ _ rfl]; rfl) (GramN.var hs rfl h1 hst h2 rfl (hl _))
      | tag k q c v => exact cast (by rw [Ty.core_setQ _ rfl]; rfl) (GramN.var hs rfl h1 hst h2 rfl (hl _))
      | ptr c v to =>
        exact cast (by rw [Ty.tree_addQ, Ty.wide_code, Ty.wide_cv, Ty.or_nil]; simp [Ty.suffix, Ty.tree])
          (GramN.varPtr ⟨w, false, false⟩ hs rfl h1 hst h2 (hl to))
      | ref to =>
        exact cast (by rw [Ty.tree_addQ, Ty.wide_code, Ty.wide_cv, Ty.or_nil]; simp [Ty.suffix, Ty.tree])
          (GramN.varPtr ⟨w, false, false⟩ hs rfl h1 hst h2 (hl to))
      | rref to =>
        exact cast (by rw [Ty.tree_addQ, Ty.wide_code, Ty.wide_cv, Ty.or_nil]; simp [Ty.suffix, Ty.tree])
          (GramN.varPtr ⟨w, false, false⟩ hs rfl h1 hst h2 (hl to))
    have hf := sname_head hs.gram rfl
    refine cast ?_ (GramN.sym hd ?_)
    · simp
    · rw [show s ++ c!"@" ++ manglePath p ++ '3' :: t.mangle w ++ t.suffix w =
        (s ++ c!"@") ++ (manglePath p ++ '3' :: t.mangle w ++ t.suffix w) by simp]
      exact (hf.append _).free

end Undname.Ex
