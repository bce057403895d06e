/-
  Renaming the characters beyond Latin-1, one to one and without changing how long they are in UTF-8: what it does
  to the operations on the input (src/mangled_string.rs).
-/
import Verif.Model.Api

namespace Undname.Ren

/-- A renaming of the characters beyond Latin-1. -/
structure Renaming where
  f : Char → Char
  inj : ∀ a b, f a = f b → a = b
  low : ∀ c, c.toNat < 256 → f c = c
  high : ∀ c, 256 ≤ c.toNat → 256 ≤ (f c).toNat
  size : ∀ c, (f c).utf8Size = c.utf8Size

variable {ρ : Renaming}

/-- The renamed text. -/
def ren (ρ : Renaming) (t : Text) : Text := t.map ρ.f

theorem ren_append (a b : Text) : ren ρ (a ++ b) = ren ρ a ++ ren ρ b := List.map_append
theorem ren_length (a : Text) : (ren ρ a).length = a.length := List.length_map _
theorem ren_nil : ren ρ [] = [] := rfl
theorem ren_cons (c : Char) (a : Text) : ren ρ (c :: a) = ρ.f c :: ren ρ a := rfl

theorem ren_inj {a b : Text} (h : ren ρ a = ren ρ b) : a = b := by
  induction a generalizing b with
  | nil => cases b with
    | nil => rfl
    | cons => cases h
  | cons x xs ih =>
    cases b with
    | nil => cases h
    | cons y ys =>
      simp only [ren_cons, List.cons.injEq] at h
      rw [ρ.inj _ _ h.1, ih h.2]

/-- Text of ASCII characters stays. -/
theorem ren_low {a : Text} (h : a.all (fun c => c.toNat < 256) = true) : ren ρ a = a := by
  induction a with
  | nil => rfl
  | cons x xs ih =>
    simp only [List.all_cons, Bool.and_eq_true, decide_eq_true_eq] at h
    rw [ren_cons, ρ.low _ h.1, ih h.2]

theorem utf8Len_ren (a : Text) : utf8Len (ren ρ a) = utf8Len a := by
  induction a with
  | nil => rfl
  | cons x xs ih => simp only [ren_cons, utf8Len, ρ.size, ih]

/-- A renamed character is the same, or both are beyond Latin-1. -/
theorem Renaming.cases (ρ : Renaming) (c : Char) : ρ.f c = c ∨ (256 ≤ c.toNat ∧ 256 ≤ (ρ.f c).toNat) := by
  by_cases h : c.toNat < 256
  · exact .inl (ρ.low c h)
  · exact .inr ⟨by omega, ρ.high c (by omega)⟩

theorem big_beq {c d : Char} (h : 256 ≤ c.toNat) (hd : d.toNat < 256) : (c == d) = false := by
  rw [beq_eq_false_iff_ne]
  intro e; subst e; omega

theorem f_beq {c d : Char} (hd : d.toNat < 256) : (ρ.f c == d) = (c == d) := by
  rcases ρ.cases c with h | ⟨h1, h2⟩
  · rw [h]
  · rw [big_beq h1 hd, big_beq h2 hd]

/-- A test that fails beyond Latin-1. -/
def Low (f : Char → Bool) : Prop := ∀ c, 256 ≤ c.toNat → f c = false

theorem Low.f {f : Char → Bool} (hf : Low f) (c : Char) : f (ρ.f c) = f c := by
  rcases ρ.cases c with h | ⟨h1, h2⟩
  · rw [h]
  · rw [hf _ h1, hf _ h2]

theorem Low.beq {d : Char} (hd : d.toNat < 256) : Low (fun c => c == d) := fun _ h => big_beq h hd
theorem Low.beq' (d : Char) (hd : d.toNat < 256 := by decide) : Low (fun c => c == d) := fun _ h => big_beq h hd

theorem Low.or {f g : Char → Bool} (hf : Low f) (hg : Low g) : Low (fun c => f c || g c) := fun c h => by
  show (f c || g c) = false
  rw [hf c h, hg c h]; rfl

theorem range_low {a b : Nat} (hb : b < 256) : Low (fun c => decide (a ≤ c.toNat) && decide (c.toNat ≤ b)) := fun c h => by
  have : ¬ c.toNat ≤ b := by omega
  simp [this]

theorem isDigit_low : Low isDigit := range_low (by decide)
theorem isUpper_low : Low isUpper := range_low (by decide)
theorem isLower_low : Low isLower := range_low (by decide)
theorem hexdigit_low : Low is_rebased_ascii_hexdigit := range_low (by decide)

/-- The renamed input. -/
def renM (ρ : Renaming) (m : MStr) : MStr := ⟨ren ρ m.string, m.chars⟩

/-- A renamed result. -/
def onRen {α α' : Type} (ρ : Renaming) (φ : α → α') : Except Fail (α × MStr) → Except Fail (α' × MStr)
  | .ok (a, m) => .ok (φ a, renM ρ m)
  | .error e => .error e

namespace MStr
open Undname.MStr

theorem new_ren (t : Text) : MStr.new (ren ρ t) = renM ρ (MStr.new t) := by
  simp [MStr.new, renM, ren_length]

theorem advance_ren {α α' : Type} (φ : α → α') (m : MStr) (rest : Text) (n : Nat) (a : α) :
    (do advance (ren ρ rest) n; pure (φ a) : SM MStr α') (renM ρ m) =
      onRen ρ φ ((do advance rest n; pure a : SM MStr α) m) := by
  show SM.bind _ _ _ = onRen ρ φ (SM.bind _ _ _)
  unfold SM.bind advance
  by_cases h : n ≤ m.chars
  · simp [renM, h, pure, SM.pure, onRen]
  · simp [renM, h, onRen]

theorem try_consume_char_if_ren' {f : Char → Bool} (hf : ∀ c, f (ρ.f c) = f c) (m : MStr) :
    try_consume_char_if f (renM ρ m) = onRen ρ (Option.map ρ.f) (try_consume_char_if f m) := by
  obtain ⟨t, n⟩ := m
  unfold try_consume_char_if
  show SM.bind SM.get _ _ = onRen ρ _ (SM.bind SM.get _ _)
  simp only [SM.bind, SM.get, renM]
  cases t with
  | nil => rfl
  | cons c cs =>
    rw [ren_cons]
    dsimp only
    rw [hf]
    by_cases h : f c = true
    · simp only [h, if_true]
      exact advance_ren (Option.map ρ.f) ⟨c :: cs, n⟩ cs 1 (some c)
    · simp only [Bool.not_eq_true] at h
      simp only [h]; rfl

theorem try_consume_ren (m : MStr) : try_consume (renM ρ m) = onRen ρ (Option.map ρ.f) (try_consume m) :=
  try_consume_char_if_ren' (fun _ => rfl) m

/-- A character found by a test that fails beyond Latin-1 is not renamed. -/
theorem try_consume_char_if_ren {f : Char → Bool} (hf : Low f) (m : MStr) :
    try_consume_char_if f (renM ρ m) = onRen ρ id (try_consume_char_if f m) := by
  rw [try_consume_char_if_ren' hf.f]
  obtain ⟨t, n⟩ := m
  unfold try_consume_char_if
  show onRen ρ _ (SM.bind SM.get _ _) = onRen ρ _ (SM.bind SM.get _ _)
  simp only [SM.bind, SM.get]
  cases t with
  | nil => rfl
  | cons c cs =>
    dsimp only
    by_cases h : f c = true
    · simp only [h, if_true]
      have : ρ.f c = c := by
        rcases ρ.cases c with h1 | ⟨h1, _⟩
        · exact h1
        · rw [hf c h1] at h; cases h
      show onRen ρ _ (SM.bind _ _ _) = onRen ρ _ (SM.bind _ _ _)
      unfold SM.bind advance
      by_cases h : 1 ≤ n
      · simp [h, pure, SM.pure, onRen, this]
      · simp [h, onRen]
    · simp only [Bool.not_eq_true] at h
      simp only [h]; rfl

theorem try_consume_char_ren (c : Char) (hc : c.toNat < 256) (m : MStr) :
    try_consume_char c (renM ρ m) = onRen ρ id (try_consume_char c m) := try_consume_char_if_ren (Low.beq hc) m

theorem split_ren (n : Nat) (t : Text) : splitAtBytes n (ren ρ t) = (splitAtBytes n t).map (Prod.map (ren ρ) (ren ρ)) := by
  induction t generalizing n with
  | nil => cases n <;> rfl
  | cons c cs ih =>
    cases n with
    | zero => rfl
    | succ n =>
      rw [ren_cons, splitAtBytes, splitAtBytes, ρ.size, ih]
      split
      · cases splitAtBytes (n + 1 - c.utf8Size) cs with
        | none => rfl
        | some p => rfl
      · rfl

theorem try_consume_n_bytes_ren (n : Nat) (m : MStr) :
    try_consume_n_bytes n (renM ρ m) = onRen ρ (Option.map (ren ρ)) (try_consume_n_bytes n m) := by
  obtain ⟨t, k⟩ := m
  unfold try_consume_n_bytes
  show SM.bind SM.get _ _ = onRen ρ _ (SM.bind SM.get _ _)
  simp only [SM.bind, SM.get, renM, split_ren]
  cases splitAtBytes n t with
  | none => rfl
  | some p =>
    dsimp only [Option.map, Prod.map]
    rw [ren_length]
    exact advance_ren (Option.map (ren ρ)) ⟨t, k⟩ p.2 p.1.length (some p.1)

theorem try_consume_2_chars_ren (m : MStr) :
    try_consume_2_chars (renM ρ m) = onRen ρ (Option.map (Prod.map ρ.f ρ.f)) (try_consume_2_chars m) := by
  obtain ⟨t, n⟩ := m
  unfold try_consume_2_chars
  show SM.bind SM.get _ _ = onRen ρ _ (SM.bind SM.get _ _)
  simp only [SM.bind, SM.get, renM]
  match t with
  | [] => rfl
  | [c] => rfl
  | c :: d :: cs =>
    exact advance_ren (Option.map (Prod.map ρ.f ρ.f)) ⟨c :: d :: cs, n⟩ cs 2 (some (c, d))

theorem prefix_ren {t : Text} (ht : t.all (fun c => c.toNat < 256) = true) (s : Text) : t.isPrefixOf (ren ρ s) = t.isPrefixOf s := by
  induction t generalizing s with
  | nil => cases s <;> rfl
  | cons x xs ih =>
    simp only [List.all_cons, Bool.and_eq_true, decide_eq_true_eq] at ht
    cases s with
    | nil => rfl
    | cons y ys =>
      rw [ren_cons]
      simp only [List.isPrefixOf, ih ht.2]
      congr 1
      rw [Bool.beq_comm, f_beq ht.1, Bool.beq_comm]

theorem starts_with_ren (m : MStr) {t : Text} (ht : t.all (fun c => c.toNat < 256) = true) :
    (renM ρ m).starts_with t = m.starts_with t := prefix_ren ht m.string

theorem try_consume_str_ren {s : Text} (hs : s.all (fun c => c.toNat < 256) = true) (m : MStr) :
    try_consume_str s (renM ρ m) = onRen ρ id (try_consume_str s m) := by
  unfold try_consume_str
  show SM.bind SM.get _ _ = onRen ρ id (SM.bind SM.get _ _)
  simp only [SM.bind, SM.get, starts_with_ren m hs]
  by_cases h : m.starts_with s = true
  · simp only [h, if_true]
    have : (renM ρ m).string.drop s.length = ren ρ (m.string.drop s.length) := by
      show (ren ρ m.string).drop s.length = _
      unfold ren; rw [List.map_drop]
    rw [this]
    exact advance_ren id m _ s.length (some s)
  · simp only [Bool.not_eq_true] at h
    simp only [h]; rfl

theorem findChar_ren {c : Char} (hc : c.toNat < 256) (t : Text) : findChar c (ren ρ t) = findChar c t := by
  induction t with
  | nil => rfl
  | cons x xs ih => rw [ren_cons, findChar, findChar, f_beq hc, ih, ρ.size]

theorem find_char_ren (c : Char) (hc : c.toNat < 256) (m : MStr) : (renM ρ m).find_char c = m.find_char c := findChar_ren hc _

theorem first_char_ren (m : MStr) : (renM ρ m).first_char = m.first_char.map ρ.f := by
  show (m.string.map ρ.f).head? = m.string.head?.map ρ.f
  rw [List.head?_map]

theorem is_empty_ren (m : MStr) : (renM ρ m).is_empty = m.is_empty := by
  show (m.string.map ρ.f).isEmpty = m.string.isEmpty
  cases m.string <;> rfl

theorem last_char_ren (m : MStr) : (renM ρ m).last_char = m.last_char.map ρ.f := by
  show (m.string.map ρ.f).getLast? = m.string.getLast?.map ρ.f
  rw [List.getLast?_map]

theorem len_bytes_ren (m : MStr) : (renM ρ m).len_bytes = m.len_bytes := utf8Len_ren _

theorem slice_to_ren (m : MStr) (n : Nat) : (renM ρ m).slice_to n = (m.slice_to n).map (renM ρ) := by
  unfold slice_to
  show (match splitAtBytes n (ren ρ m.string) with | some (a, _) => _ | none => _) = _
  rw [split_ren]
  cases splitAtBytes n m.string with
  | none => rfl
  | some p => simp only [Option.map, Prod.map, Except.map, renM, ren_length]

theorem all_ren {f : Char → Bool} (hf : Low f) (t : Text) : (ren ρ t).all f = t.all f := by
  induction t with
  | nil => rfl
  | cons x xs ih => rw [ren_cons, List.all_cons, List.all_cons, hf.f, ih]

theorem all_hexdigits_ren (m : MStr) : (renM ρ m).all_hexdigits = m.all_hexdigits := all_ren hexdigit_low _

theorem local_scope_ren (m : MStr) : (renM ρ m).starts_with_local_scope_pattern = m.starts_with_local_scope_pattern := by
  unfold starts_with_local_scope_pattern
  rw [try_consume_char_ren _ (by decide)]
  rcases try_consume_char '?' m with e | ⟨_ | c, m⟩
  · rfl
  · rfl
  · simp only [onRen, id]
    rw [find_char_ren _ (by decide)]
    cases m.find_char '?' with
    | none => rfl
    | some stop =>
      dsimp only
      rw [slice_to_ren]
      rcases m.slice_to stop with e | cand
      · rfl
      · simp only [Except.map]
        rw [is_empty_ren]
        split
        · rfl
        · show (if cand.len_chars == 1 then _ else _) = _
          split
          · rw [first_char_ren]
            cases cand.first_char with
            | none => rfl
            | some c => simp only [Option.map, f_beq (show ('@' : Char).toNat < 256 by decide), isDigit_low.f]
          · rw [last_char_ren, len_bytes_ren, slice_to_ren]
            cases hl : cand.last_char with
            | none => rfl
            | some c =>
              by_cases hc : c = '@'
              · subst hc
                rw [show Option.map ρ.f (some '@') = some '@' by rw [Option.map, ρ.low _ (by decide)]]
                rcases cand.slice_to (cand.len_bytes - 1) with e | cand
                · rfl
                · simp only [Except.map]
                  rw [try_consume_char_if_ren (range_low (by decide))]
                  rcases try_consume_char_if (fun x => 'B'.toNat ≤ x.toNat && x.toNat ≤ 'P'.toNat) cand with e | ⟨_ | c, m⟩
                  · rfl
                  · rfl
                  · simp only [onRen, id, all_hexdigits_ren]
              · have hc' : ρ.f c ≠ '@' := fun h => hc (ρ.inj _ _ (by rw [h, ρ.low _ (by decide)]))
                simp only [Option.map]
                split
                · rename_i h; exact absurd (Option.some.inj h) hc'
                · split
                  · rename_i h; exact absurd (Option.some.inj h) hc
                  · rfl

theorem first_eq_ren (m : MStr) {c : Char} (hc : c.toNat < 256) : ((renM ρ m).first_char == some c) = (m.first_char == some c) := by
  rw [first_char_ren]
  cases m.first_char with
  | none => rfl
  | some d => exact f_beq hc

theorem first_is_ren {f : Char → Bool} (hf : Low f) (m : MStr) :
    (match (renM ρ m).first_char with | some c => f c | none => false) = (match m.first_char with | some c => f c | none => false) := by
  rw [first_char_ren]
  cases m.first_char with
  | none => rfl
  | some d => exact hf.f d

theorem is_array_type_ren (m : MStr) : (renM ρ m).is_array_type = m.is_array_type := first_eq_ren m (by decide)
theorem is_custom_type_ren (m : MStr) : (renM ρ m).is_custom_type = m.is_custom_type := first_eq_ren m (by decide)
theorem is_function_type_ren (m : MStr) : (renM ρ m).is_function_type = m.is_function_type := by
  unfold is_function_type
  rw [starts_with_ren m (by decide), starts_with_ren m (by decide)]
theorem is_pointer_type_ren (m : MStr) : (renM ρ m).is_pointer_type = m.is_pointer_type := by
  unfold is_pointer_type
  rw [starts_with_ren m (by decide)]
  congr 1
  exact first_is_ren (((((Low.beq' 'A').or (Low.beq' 'P')).or (Low.beq' 'Q')).or (Low.beq' 'R')).or (Low.beq' 'S')) m
theorem is_tag_type_ren (m : MStr) : (renM ρ m).is_tag_type = m.is_tag_type :=
  first_is_ren ((((Low.beq' 'T').or (Low.beq' 'U')).or (Low.beq' 'V')).or (Low.beq' 'W')) m

theorem onRen_bind {α α' β β' : Type} {φ : α → α'} {ψ : β → β'} {m : MStr} {x : SM MStr α} {x' : SM MStr α'} {k : α → SM MStr β} {k' : α' → SM MStr β'}
    (hx : x' (renM ρ m) = onRen ρ φ (x m)) (hk : ∀ a m, k' (φ a) (renM ρ m) = onRen ρ ψ (k a m)) :
    (x' >>= k') (renM ρ m) = onRen ρ ψ ((x >>= k) m) := by
  show SM.bind _ _ _ = onRen ρ ψ (SM.bind _ _ _)
  unfold SM.bind
  rw [hx]
  cases x m with
  | error e => rfl
  | ok p => exact hk p.1 p.2

theorem probe_ren (m : MStr) : member_pointer_probe (renM ρ m) = onRen ρ id (member_pointer_probe m) := by
  unfold member_pointer_probe
  refine onRen_bind (try_consume_ren m) fun o m => ?_
  cases o with
  | none => rfl
  | some c =>
    simp (disch := decide) only [Option.map, f_beq]
    split
    · rfl
    · split
      · refine onRen_bind (try_consume_char_if_ren isDigit_low m) fun o m => ?_
        cases o with
        | some d => 
          simp only [id]
          split
          · rfl
          · split <;> rfl
        | none =>
          refine onRen_bind (try_consume_char_ren _ (by decide) m) fun o m => ?_
          refine onRen_bind (try_consume_char_ren _ (by decide) m) fun o m => ?_
          refine onRen_bind (try_consume_char_ren _ (by decide) m) fun o m => ?_
          refine onRen_bind (φ := renM ρ) (x := SM.get) (x' := SM.get) rfl fun o m => ?_
          rw [first_char_ren]
          cases o.first_char with
          | none => rfl
          | some c =>
            simp (disch := decide) only [Option.map, f_beq]
            split
            · rfl
            · split <;> rfl
      · rfl

theorem is_member_pointer_ren (m : MStr) : (renM ρ m).is_member_pointer = m.is_member_pointer := by
  unfold is_member_pointer
  rw [probe_ren]
  cases member_pointer_probe m <;> rfl

end MStr

end Undname.Ren
