/-
  Property theorems C56 (the limit on the number of nodes is exact) and C39.
-/
import Verif.Exact.Vars
import Verif.Exact.Bound
import Verif.Props.Decl
import Verif.Props.Accept

namespace Undname
namespace Props
open Spec

/-! ### The verdict -/

/-- **C56**: the verdict on every name of the grammar, of any length: a name that costs more than 2048 nodes is refused as
malicious; otherwise the result is the text of the declaration, or the I/O error if the text has 2^20 bytes or more. -/
theorem C56_verdict (E : Env) {m : Text} {t : T} {n : Nat} (h : DenotesN E m t n) :
    demangle E m = .ok (if 2048 < n then .error .MaliciousInput
      else if utf8Len (t.text E) < 2 ^ 20 then .ok (t.text E) else .error (.Io .OutOfMemory)) := by
  rcases Ex.denotes_outcome h with ⟨hn, _, e⟩ | ⟨hn, e⟩
  · rw [if_neg (by omega)]; exact e
  · rw [if_pos hn]; exact e

/-- **C56**: every declaration that a name denotes has a count, so that the previous theorem decides every name of the
grammar. -/
theorem C56_counted (E : Env) (m : Text) (t : T) : Denotes E m t ↔ ∃ n, DenotesN E m t n :=
  ⟨fun h => h.count, fun ⟨_, h⟩ => h.denotes⟩

/-- **C56**: for names of any length, the demangler is exactly what the grammar and the limits say. -/
theorem C56_exactly (E : Env) (m out : Text) :
    demangle E m = .ok (.ok out) ↔ ∃ t n, DenotesN E m t n ∧ n ≤ 2048 ∧ out = t.text E ∧ utf8Len out < 2 ^ 20 := by
  constructor
  · intro h
    obtain ⟨t, ht, rfl, hl⟩ := accepted_text h
    obtain ⟨n, hn⟩ := ht.count
    refine ⟨t, n, hn, ?_, rfl, hl⟩
    have := C56_verdict E hn
    rw [h] at this
    by_cases hk : 2048 < n
    · rw [if_pos hk] at this; cases this
    · omega
  · rintro ⟨t, n, h, hn, rfl, hl⟩
    rw [C56_verdict E h, if_neg (by omega), if_pos hl]

/-- **C56**: the count is the number of nodes that the parser makes. -/
theorem C56_nodes_made (E : Env) {m : Text} {t : T} {n : Nat} (h : DenotesN E m t n) (hn : n ≤ 2048) :
    ∃ hd s, parse (render E) m = .ok (hd, s) ∧ s.cache.length = n := by
  rcases Ex.denotes_outcome h with ⟨_, h, _⟩ | ⟨h, _⟩
  · exact h
  · omega

/-- **C56**: so it does not depend on the derivation. -/
theorem C56_count_unique (E : Env) {m : Text} {t t' : T} {n n' : Nat} (h : DenotesN E m t n) (h' : DenotesN E m t' n')
    (hn : n ≤ 2048) : n' = n := by
  obtain ⟨hd, s, e, hs⟩ := C56_nodes_made E h hn
  rcases Ex.denotes_outcome h' with ⟨_, ⟨hd', s', e', hs'⟩, _⟩ | ⟨_, e'⟩
  · rw [e] at e'
    cases e'
    omega
  · exfalso
    have := C56_verdict E h
    rw [if_neg (by omega), e'] at this
    split at this <;> cases this

/-- **C56**: neither does the text, for names of any length. -/
theorem C56_unambiguous (E : Env) {m : Text} {t t' : T} {n n' : Nat} (h : DenotesN E m t n) (h' : DenotesN E m t' n')
    (hn : n ≤ 2048) (hl : utf8Len (t.text E) < 2 ^ 20) : t'.text E = t.text E := by
  obtain rfl := C56_count_unique E h h' hn
  have e := C56_verdict E h
  have e' := C56_verdict E h'
  rw [if_neg (show ¬ 2048 < n' by omega)] at e e'
  rw [if_pos hl] at e
  rw [e] at e'
  by_cases hl' : utf8Len (t'.text E) < 2 ^ 20
  · rw [if_pos hl'] at e'
    exact (Except.ok.inj (Except.ok.inj e')).symm
  · rw [if_neg hl'] at e'; cases e'

/-- **C56**: a name costs at most two nodes per character. -/
theorem C56_two_per_character (E : Env) {m : Text} {t : T} {n : Nat} (h : DenotesN E m t n) : n ≤ 2 * m.length :=
  h.count_le

/-- A name that is counted: two nodes each for the names `x`, `N` and `S`, two for the qualified names `N::x` and `S`, one for the
class, one for the pointer and one for the variable. -/
example : ∃ t, DenotesN E0 c!"?x@N@@3PAUS@@A" t 13 := by
  obtain ⟨tb', h⟩ := Ex.var_count (E := E0) false (name := [c!"x", c!"N"]) (by decide)
    (t := .ptr false false (.tag .Struct [c!"S"] false false)) (by decide)
  exact ⟨_, .inl ⟨_, [], tb', by decide, h⟩⟩

/-! ### Variables -/

/-- **C56**: for variables of any type, the number of nodes in closed form (`Spec/VarNodes.lean`) decides. -/
theorem C56_variables {E : Env} (hE : E.flags = Flags.default) (w : Bool) {name : List Text} (hn : IsPath name) {t : Ty} (ht : t.Ok) (rest : Text) :
    demangle E (mangleVar w name t ++ rest) = .ok (if 2048 < varNodes name t then .error .MaliciousInput
      else if utf8Len (declareVar E name t) < 2 ^ 20 then .ok (declareVar E name t) else .error (.Io .OutOfMemory)) := by
  obtain ⟨tb', h⟩ := Ex.var_count (E := E) w hn ht
  rw [← var_text (plain_default hE)]
  exact C56_verdict E (.inl ⟨_, rest, tb', rfl, h⟩)

/-- A pointer to a pointer to ... an `int`. -/
def deepPtr : Nat → Ty
  | 0 => .prim .Int false false
  | k + 1 => .ptr false false (deepPtr k)

theorem deepPtr_facts (k : Nat) : (deepPtr k).Ok ∧ (deepPtr k).layers = k + 1 ∧ (deepPtr k).names = [] ∧ (deepPtr k).paths = 0 := by
  induction k with
  | zero => simp [deepPtr, Ty.Ok, Ty.layers, Ty.names, Ty.paths]
  | succ k ih => simpa [deepPtr, Ty.Ok, Ty.layers, Ty.names, Ty.paths] using ih

theorem deepPtr_letter (k : Nat) : (deepPtr k).letter = 'A' := by cases k <;> rfl

theorem deepPtr_mangle (k : Nat) : (deepPtr k).mangle false = (List.replicate k c!"PA").flatten ++ c!"H" := by
  induction k with
  | zero => rfl
  | succ k ih =>
    simp only [deepPtr, Ty.mangle, ih, deepPtr_letter, List.replicate_succ, List.flatten_cons]
    rfl

theorem sp_star (E : Env) (w : Text) : sp E (w ++ ['*']) = w ++ ['*'] := by
  have : isWordEnd E '*' = false := rfl
  unfold sp
  rw [List.getLast?_concat]
  simp [this]

theorem deepPtr_cpp (E : Env) (k : Nat) : (deepPtr (k + 1)).cpp E = c!"int " ++ List.replicate k '*' ++ ['*'] := by
  induction k with
  | zero => rfl
  | succ k ih =>
    rw [deepPtr, Ty.cpp, ih, sp_star, List.replicate_succ']
    simp [Ty.cvWords]

/-- **C56**: the boundary: a variable whose type has 2042 stars is accepted, one with 2043 is refused. -/
theorem C56_boundary {E : Env} (hE : E.flags = Flags.default) (k : Nat) :
    demangle E (c!"?x@@3" ++ (List.replicate (k + 1) c!"PA").flatten ++ c!"HA") =
      .ok (if k + 1 ≤ 2042 then .ok (c!"int " ++ List.replicate (k + 1) '*' ++ c!"x") else .error .MaliciousInput) := by
  obtain ⟨h1, h2, h3, h4⟩ := deepPtr_facts (k + 1)
  have h := C56_variables hE false (name := [c!"x"]) (by decide) h1 []
  have hm : mangleVar false [c!"x"] (deepPtr (k + 1)) ++ [] = c!"?x@@3" ++ (List.replicate (k + 1) c!"PA").flatten ++ c!"HA" := by
    unfold mangleVar
    rw [deepPtr_mangle]
    simp [deepPtr, Ty.suffix, deepPtr_letter, Ty.wide, manglePath]
  have hn : varNodes [c!"x"] (deepPtr (k + 1)) = k + 7 := by
    unfold varNodes
    rw [h2, h3, h4]
    have : min 10 (distinct ([c!"x"] ++ [])) = 1 := by decide +kernel
    rw [this]
    simp
    omega
  have hd : declareVar E [c!"x"] (deepPtr (k + 1)) = c!"int " ++ List.replicate (k + 1) '*' ++ c!"x" := by
    unfold declareVar
    rw [deepPtr_cpp, sp_star, List.replicate_succ']
    simp [showPath, join]
  have hu : ∀ j, utf8Len (List.replicate j '*') = j := by
    intro j
    induction j with
    | zero => rfl
    | succ j ih => rw [List.replicate_succ']; rw [Out.utf8Len_append, ih]; rfl
  have hlen : utf8Len (c!"int " ++ List.replicate (k + 1) '*' ++ c!"x") = k + 6 := by
    rw [Out.utf8Len_append, Out.utf8Len_append, hu]
    show 4 + (k + 1) + 1 = _
    omega
  rw [hm, hn, hd, hlen] at h
  rw [h]
  by_cases hk : 2048 < k + 7
  · rw [if_pos hk, if_neg (show ¬ k + 1 ≤ 2042 by omega)]
  · rw [if_neg hk, if_pos (show k + 1 ≤ 2042 by omega), if_pos (by omega)]

example : demangle E0 c!"?x@@3PAPAPAHA" = .ok (.ok c!"int ***x") := C56_boundary (E := E0) rfl 2

/-! ### Text after the name -/

/-- **C39**: whatever is appended to a complete symbol is ignored. -/
theorem C39_suffix_ignored (E : Env) {t : T} {x : Text} {tb' : Tbl} (h : Gram E .sym {} t x tb') (rest : Text) :
    demangle E (x ++ rest) = demangle E x := by
  obtain ⟨n, hn⟩ := h.count
  rw [C56_verdict E (.inl ⟨x, rest, tb', rfl, hn⟩), C56_verdict E (m := x) (.inl ⟨x, [], tb', (List.append_nil x).symm, hn⟩)]

/-- The symbols whose reading depends on where the input ends: type descriptors, guards of local statics and hashed names. -/
def endSensitive : List Text := [c!".", c!"??_R0", c!"??_B", c!"??__J", c!"??@"]

/-- **C39**: text appended to an accepted name is ignored, except for the symbols whose reading depends on where the input
ends. -/
theorem C39_appended_ignored (E : Env) {m out rest : Text} (h : demangle E m = .ok (.ok out))
    (hs : ∀ p ∈ endSensitive, ¬ p <+: m) : demangle E (m ++ rest) = .ok (.ok out) := by
  obtain ⟨t, n, ht, hn, rfl, ho⟩ := (C56_exactly E m out).1 h
  rcases ht with ⟨x, r, tb', rfl, hg⟩ | ⟨tb', hg⟩ | ⟨u, r, rfl, _⟩
  · exact (C56_exactly E _ _).2 ⟨t, n, .inl ⟨x, r ++ rest, tb', List.append_assoc .., hg⟩, hn, rfl, ho⟩
  · exfalso
    cases hg with
    | guardEnd th vis _ =>
      cases th with
      | true => exact hs c!"??__J" (by decide) (by simp [List.append_assoc])
      | false => exact hs c!"??_B" (by decide) (by simp [List.append_assoc])
    | typeinfo _ => exact hs c!"." (by decide) ⟨_, rfl⟩
    | rttiType _ => exact hs c!"??_R0" (by decide) (by simp [List.append_assoc])
  · exact absurd (by simp [hashed, List.append_assoc]) (hs c!"??@" (by decide))

example : demangle E0 (c!"?x@@3HA" ++ c!"!garbage") = .ok (.ok c!"int x") :=
  C39_appended_ignored E0 (by decide +kernel) (by decide)

/-- The exceptions are real. -/
example : demangle E0 c!".H" = .ok (.ok c!"int `RTTI Type Descriptor Name'") ∧
    demangle E0 (c!".H" ++ c!"!") = .ok (.error .InvalidTypeinfoName) := by
  constructor <;> decide +kernel

end Props
end Undname
