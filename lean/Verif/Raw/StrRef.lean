/-
  The operations on the bytes of the input do what those on its characters do.
-/
import Verif.Raw.Str
import Verif.Raw.Utf8Pr

namespace Undname.Raw
open Undname (Fail Error Crash Text SM isDigit is_rebased_ascii_hexdigit splitAtBytes utf8Len)

/-- The bytes of the input. -/
def ofMStr (m : Undname.MStr) : MStr := ⟨enc m.string, m.chars⟩

/-- A result on characters, as a result on bytes. -/
def onBytes {α α' : Type} (φ : α → α') : Except Fail (α × Undname.MStr) → Except Fail (α' × MStr)
  | .ok (a, m) => .ok (φ a, ofMStr m)
  | .error e => .error e

namespace MStr

theorem new_enc (t : Text) : MStr.new (enc t) = ofMStr (Undname.MStr.new t) := by
  simp [MStr.new, ofMStr, Undname.MStr.new, count_enc]

theorem tail_at_enc (a b : Text) : tail_at (enc (a ++ b)) (enc b) = .ok (enc b) := by
  unfold tail_at
  rw [next_enc_text]
  cases b with
  | nil => rfl
  | cons c cs =>
    have : (enc (a ++ c :: cs)).length - (enc (c :: cs)).length = utf8Len a := by
      rw [enc_append, List.length_append, ← enc_length]; omega
    simp only [this]
    exact slice_from_append a (c :: cs)

theorem advance_enc {α α' : Type} (φ : α → α') (m : Undname.MStr) (rest : Text) (n : Nat) (a : α) :
    (do advance (enc rest) n; pure (φ a) : SM MStr α') (ofMStr m) =
      onBytes φ ((do Undname.MStr.advance rest n; pure a : SM Undname.MStr α) m) := by
  show SM.bind _ _ _ = onBytes φ (SM.bind _ _ _)
  unfold SM.bind advance Undname.MStr.advance
  by_cases h : n ≤ m.chars
  · simp [ofMStr, h, pure, SM.pure, onBytes]
  · simp [ofMStr, h, onBytes]

theorem try_consume_char_if_enc (f : Char → Bool) (m : Undname.MStr) :
    try_consume_char_if f (ofMStr m) = onBytes id (Undname.MStr.try_consume_char_if f m) := by
  obtain ⟨t, n⟩ := m
  unfold try_consume_char_if Undname.MStr.try_consume_char_if
  show SM.bind SM.get _ _ = onBytes id (SM.bind SM.get _ _)
  simp only [SM.bind, SM.get, Bind.bind, SM.lift, next_enc_text, ofMStr]
  cases t with
  | nil => rfl
  | cons c cs =>
    dsimp only
    by_cases hf : f c = true
    · simp only [hf, if_true]
      have ht : tail_at (enc (c :: cs)) (enc cs) = .ok (enc cs) := tail_at_enc [c] cs
      simp only [SM.bind, ht]
      exact advance_enc id ⟨c :: cs, n⟩ cs 1 (some c)
    · simp only [Bool.not_eq_true] at hf
      simp only [hf]; rfl

theorem try_consume_enc (m : Undname.MStr) : try_consume (ofMStr m) = onBytes id (Undname.MStr.try_consume m) :=
  try_consume_char_if_enc _ m

theorem try_consume_char_enc (c : Char) (m : Undname.MStr) :
    try_consume_char c (ofMStr m) = onBytes id (Undname.MStr.try_consume_char c m) := try_consume_char_if_enc _ m

theorem try_consume_n_bytes_enc (n : Nat) (m : Undname.MStr) :
    try_consume_n_bytes n (ofMStr m) = onBytes (Option.map enc) (Undname.MStr.try_consume_n_bytes n m) := by
  obtain ⟨t, k⟩ := m
  unfold try_consume_n_bytes Undname.MStr.try_consume_n_bytes
  show SM.bind SM.get _ _ = onBytes _ (SM.bind SM.get _ _)
  simp only [SM.bind, SM.get, ofMStr, split_enc]
  cases splitAtBytes n t with
  | none => rfl
  | some p =>
    dsimp only [Option.map]
    rw [count_enc]
    exact advance_enc (Option.map enc) ⟨t, k⟩ p.2 p.1.length (some p.1)

theorem try_consume_2_chars_enc (m : Undname.MStr) :
    try_consume_2_chars (ofMStr m) = onBytes id (Undname.MStr.try_consume_2_chars m) := by
  obtain ⟨t, n⟩ := m
  unfold try_consume_2_chars Undname.MStr.try_consume_2_chars
  show SM.bind SM.get _ _ = onBytes id (SM.bind SM.get _ _)
  simp only [SM.bind, SM.get, Bind.bind, SM.lift, next_enc_text, ofMStr]
  match t with
  | [] => rfl
  | [c] => rfl
  | c :: d :: cs =>
    have ht : tail_at (enc (c :: d :: cs)) (enc cs) = .ok (enc cs) := tail_at_enc [c, d] cs
    dsimp only
    simp only [next_enc_text, SM.bind, SM.lift, ht]
    exact advance_enc id ⟨c :: d :: cs, n⟩ cs 2 (some (c, d))

theorem starts_with_enc (m : Undname.MStr) (t : Text) : (ofMStr m).starts_with t = m.starts_with t := prefix_enc t m.string

theorem try_consume_str_enc (s : Text) (m : Undname.MStr) :
    try_consume_str s (ofMStr m) = onBytes id (Undname.MStr.try_consume_str s m) := by
  unfold try_consume_str Undname.MStr.try_consume_str
  show SM.bind SM.get _ _ = onBytes id (SM.bind SM.get _ _)
  simp only [SM.bind, SM.get, starts_with_enc]
  by_cases h : m.starts_with s = true
  · simp only [h, if_true]
    obtain ⟨r, hr⟩ := List.isPrefixOf_iff_prefix.1 h
    have h1 : slice_from (ofMStr m).string (enc s).length = .ok (enc r) := by
      show slice_from (enc m.string) _ = _
      rw [← hr, enc_length]; exact slice_from_append s r
    have h2 : m.string.drop s.length = r := by rw [← hr]; simp
    simp only [Bind.bind, SM.bind, SM.lift, h1, count_enc, h2]
    exact advance_enc id m r s.length (some s)
  · simp only [Bool.not_eq_true] at h
    simp only [h]; rfl

theorem find_from_enc (needle : Char) (t : Text) (k n : Nat) (hn : t.length < n) :
    find_from needle (k + utf8Len t) n (enc t) = .ok ((Undname.MStr.findChar needle t).map (k + ·)) := by
  induction t generalizing k n with
  | nil =>
    cases n with
    | zero => simp at hn
    | succ n => rfl
  | cons c cs ih =>
    cases n with
    | zero => simp at hn
    | succ n =>
      rw [find_from, next_enc_text]
      dsimp only
      unfold Undname.MStr.findChar
      split
      · rw [enc_length]; simp
      · have := ih (k + c.utf8Size) n (by simp at hn; omega)
        simp only [utf8Len]
        rw [show k + (c.utf8Size + utf8Len cs) = k + c.utf8Size + utf8Len cs by omega, this]
        cases Undname.MStr.findChar needle cs <;> simp [Nat.add_assoc]

theorem text_le_enc (t : Text) : t.length ≤ (enc t).length := by
  induction t with
  | nil => simp
  | cons c cs ih =>
    obtain ⟨x, l, e, -⟩ := enc_shape c
    simp only [enc, e, List.length_append, List.length_cons]; omega

theorem find_char_enc (needle : Char) (m : Undname.MStr) : (ofMStr m).find_char needle = .ok (m.find_char needle) := by
  unfold find_char
  have h := find_from_enc needle m.string 0 ((enc m.string).length + 1) (by have := text_le_enc m.string; omega)
  simp only [ofMStr]
  rw [Nat.zero_add, ← enc_length] at h
  rw [h]
  unfold Undname.MStr.find_char
  cases Undname.MStr.findChar needle m.string <;> simp

theorem first_char_enc (m : Undname.MStr) : (ofMStr m).first_char = .ok m.first_char := by
  unfold first_char Undname.MStr.first_char
  simp only [ofMStr, next_enc_text]
  cases m.string <;> rfl

theorem is_empty_enc (m : Undname.MStr) : (ofMStr m).is_empty = m.is_empty := by
  unfold is_empty Undname.MStr.is_empty
  rw [Bool.eq_iff_iff, List.isEmpty_iff, List.isEmpty_iff]
  exact enc_nil_iff _

theorem last_char_enc (m : Undname.MStr) : (ofMStr m).last_char = .ok m.last_char := next_back_enc _

theorem len_bytes_enc (m : Undname.MStr) : (ofMStr m).len_bytes = m.len_bytes := enc_length _

theorem slice_to_enc (m : Undname.MStr) (n : Nat) : (ofMStr m).slice_to n = (m.slice_to n).map ofMStr := by
  unfold slice_to Undname.MStr.slice_to
  simp only [ofMStr, slice_upto_enc]
  cases splitAtBytes n m.string with
  | none => rfl
  | some p => simp [Except.map, count_enc, ofMStr]

theorem try_if_cons (f : Char → Bool) (d : Char) (ds : Text) (n : Nat) :
    Undname.MStr.try_consume_char_if f ⟨d :: ds, n + 1⟩ =
      if f d then .ok (some d, ⟨ds, n⟩) else .ok (none, ⟨d :: ds, n + 1⟩) := by
  unfold Undname.MStr.try_consume_char_if
  show SM.bind SM.get _ _ = _
  simp only [SM.bind, SM.get]
  by_cases h : f d = true
  · simp only [h, if_true, Bind.bind, SM.bind, Undname.MStr.advance]
    simp [pure, SM.pure]
  · simp only [Bool.not_eq_true] at h
    simp only [h]; rfl

theorem all_hexdigits_enc (t : Text) (n : Nat) (hn : t.length < n) :
    all_hexdigits n (ofMStr ⟨t, t.length⟩) = .ok (t.all is_rebased_ascii_hexdigit) := by
  induction t generalizing n with
  | nil =>
    cases n with
    | zero => simp at hn
    | succ n => rw [all_hexdigits, try_consume_enc]; rfl
  | cons c cs ih =>
    cases n with
    | zero => simp at hn
    | succ n =>
      rw [all_hexdigits, try_consume_enc]
      have : Undname.MStr.try_consume ⟨c :: cs, (c :: cs).length⟩ = .ok (some c, ⟨cs, cs.length⟩) := by
        unfold Undname.MStr.try_consume Undname.MStr.try_consume_char_if
        show SM.bind SM.get _ _ = _
        simp only [SM.bind, SM.get, if_true, Bind.bind, Undname.MStr.advance]
        simp [pure, SM.pure]
      rw [this]
      simp only [onBytes, id]
      split
      · rename_i h
        rw [ih n (by simp at hn; omega)]; simp [h]
      · rename_i h; simp [h]

theorem local_scope_enc (m : Undname.MStr) :
    (ofMStr m).starts_with_local_scope_pattern = m.starts_with_local_scope_pattern := by
  unfold starts_with_local_scope_pattern Undname.MStr.starts_with_local_scope_pattern
  rw [try_consume_char_enc]
  cases Undname.MStr.try_consume_char '?' m with
  | error e => rfl
  | ok p =>
    obtain ⟨o, m⟩ := p
    cases o with
    | none => rfl
    | some q =>
      simp only [onBytes, id, find_char_enc]
      cases m.find_char '?' with
      | none => rfl
      | some stop =>
        simp only [slice_to_enc]
        cases hs : m.slice_to stop with
        | error e => rfl
        | ok cand =>
          simp only [Except.map, is_empty_enc]
          have hl : (ofMStr cand).len_chars = cand.len_chars := rfl
          rw [hl]
          split
          · rfl
          · split
            · rw [first_char_enc]; cases cand.first_char <;> rfl
            · rw [last_char_enc]
              cases hc : cand.last_char with
              | none => rfl
              | some c =>
                by_cases hat : c = '@'
                · subst hat
                  simp only [len_bytes_enc]
                  rw [slice_to_enc]
                  cases hs2 : cand.slice_to (cand.len_bytes - 1) with
                  | error e => rfl
                  | ok c2 =>
                    have hc2 : c2.chars = c2.string.length := by
                      unfold Undname.MStr.slice_to at hs2
                      split at hs2
                      · injection hs2 with hs2; subst hs2; rfl
                      · cases hs2
                    simp only [Except.map, try_consume_char_if_enc]
                    obtain ⟨t, n⟩ := c2
                    dsimp only at hc2
                    subst hc2
                    cases t with
                    | nil => rfl
                    | cons d ds =>
                      simp only [List.length_cons, try_if_cons]
                      by_cases hb : (decide ('B'.toNat ≤ d.toNat) && decide (d.toNat ≤ 'P'.toNat)) = true
                      · simp only [hb, if_true]
                        exact all_hexdigits_enc ds ((enc ds).length + 1) (by have := text_le_enc ds; omega)
                      · simp only [Bool.not_eq_true] at hb
                        simp only [hb]; rfl
                · split
                  · rename_i h; cases h
                  · rename_i h; injection h with h; injection h with h; exact absurd h hat
                  · split
                    · rename_i h; injection h with h; exact absurd h hat
                    · rfl

theorem first_is_enc (f : Char → Bool) (m : Undname.MStr) :
    (ofMStr m).first_is f = .ok (match m.first_char with | some c => f c | none => false) := by
  unfold first_is
  rw [first_char_enc]
  cases m.first_char <;> rfl

theorem is_array_type_enc (m : Undname.MStr) : (ofMStr m).is_array_type = .ok m.is_array_type := by
  unfold is_array_type Undname.MStr.is_array_type
  rw [first_is_enc]
  cases m.first_char with
  | none => rfl
  | some c => simp

theorem is_custom_type_enc (m : Undname.MStr) : (ofMStr m).is_custom_type = .ok m.is_custom_type := by
  unfold is_custom_type Undname.MStr.is_custom_type
  rw [first_is_enc]
  cases m.first_char with
  | none => rfl
  | some c => simp

theorem is_function_type_enc (m : Undname.MStr) : (ofMStr m).is_function_type = m.is_function_type := by
  unfold is_function_type Undname.MStr.is_function_type
  rw [starts_with_enc, starts_with_enc]

theorem is_pointer_type_enc (m : Undname.MStr) : (ofMStr m).is_pointer_type = .ok m.is_pointer_type := by
  unfold is_pointer_type Undname.MStr.is_pointer_type
  rw [starts_with_enc, first_is_enc]
  cases m.starts_with c!"$$Q" <;> rfl

theorem is_tag_type_enc (m : Undname.MStr) : (ofMStr m).is_tag_type = .ok m.is_tag_type := by
  unfold is_tag_type Undname.MStr.is_tag_type
  rw [first_is_enc]
  rfl

end MStr

theorem onBytes_bind {α β : Type} {m' : SM MStr α} {m : SM Undname.MStr α} {f' : α → SM MStr β} {f : α → SM Undname.MStr β}
    (h : ∀ s, m' (ofMStr s) = onBytes id (m s)) (hf : ∀ a s, f' a (ofMStr s) = onBytes id (f a s)) (s : Undname.MStr) :
    (m' >>= f') (ofMStr s) = onBytes id ((m >>= f) s) := by
  show SM.bind _ _ _ = onBytes id (SM.bind _ _ _)
  unfold SM.bind
  rw [h]
  cases m s with
  | error e => rfl
  | ok p => exact hf p.1 p.2

namespace MStr

theorem probe_enc (m : Undname.MStr) : member_pointer_probe (ofMStr m) = onBytes id (Undname.MStr.member_pointer_probe m) := by
  unfold member_pointer_probe Undname.MStr.member_pointer_probe
  refine onBytes_bind try_consume_enc (fun o m => ?_) m
  cases o with
  | none => rfl
  | some c =>
    dsimp only
    split
    · rfl
    · split
      · refine onBytes_bind (try_consume_char_if_enc _) (fun o m => ?_) m
        cases o with
        | some d =>
          dsimp only
          split
          · rfl
          · split <;> rfl
        | none =>
          refine onBytes_bind (try_consume_char_enc _) (fun o m => ?_) m
          refine onBytes_bind (try_consume_char_enc _) (fun o m => ?_) m
          refine onBytes_bind (try_consume_char_enc _) (fun o m => ?_) m
          show SM.bind SM.get _ _ = onBytes id (SM.bind SM.get _ _)
          simp only [SM.bind, SM.get, is_empty_enc, first_char_enc, SM.lift, Bind.bind]
          cases hc : m.first_char with
          | none =>
            have : m.is_empty = true := by
              unfold Undname.MStr.first_char at hc; unfold Undname.MStr.is_empty
              cases hs : m.string with
              | nil => rfl
              | cons a b => simp [hs] at hc
            rw [this]; rfl
          | some c =>
            have : m.is_empty = false := by
              unfold Undname.MStr.first_char at hc; unfold Undname.MStr.is_empty
              cases hs : m.string with
              | nil => simp [hs] at hc
              | cons a b => rfl
            rw [this]
            simp only [Bool.false_eq_true, if_false, SM.bind, SM.lift]
            split
            · rfl
            · split <;> rfl
      · rfl

theorem is_member_pointer_enc (m : Undname.MStr) : (ofMStr m).is_member_pointer = m.is_member_pointer := by
  unfold is_member_pointer Undname.MStr.is_member_pointer
  rw [probe_enc]
  cases Undname.MStr.member_pointer_probe m <;> rfl

end MStr
end Undname.Raw
