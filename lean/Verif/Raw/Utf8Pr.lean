/-
  UTF-8: decoding inverts encoding, boundaries, counting.
-/
import Verif.Raw.Utf8

namespace Undname.Raw
open Undname (Fail Error Crash Text)

theorem char_valid (c : Char) : c.toNat < 0xD800 ∨ (0xDFFF < c.toNat ∧ c.toNat < 0x110000) := c.valid

theorem isValid_iff (n : Nat) : Nat.isValidChar n ↔ n < 0xD800 ∨ (0xDFFF < n ∧ n < 0x110000) := Iff.rfl

theorem ofNat_toNat (c : Char) : Char.ofNat c.toNat = c := Char.ofNat_toNat c

theorem fromU32_ok {n : Nat} {c : Char} {s : Bytes} (h : n = c.toNat) : fromU32 n s = .ok (some (c, s)) := by
  subst h
  unfold fromU32
  rw [if_pos (char_valid c), ofNat_toNat]

theorem u8 (n : Nat) (h : n < 256) : (UInt8.ofNat n).toNat = n := by
  simp only [UInt8.toNat_ofNat']; omega

/-- The four shapes of an encoded character. -/
theorem enc_char (c : Char) :
    (c.toNat < 0x80 ∧ ∃ x : UInt8, String.utf8EncodeChar c = [x] ∧ x.toNat = c.toNat) ∨
    (0x80 ≤ c.toNat ∧ c.toNat < 0x800 ∧ ∃ x y : UInt8, String.utf8EncodeChar c = [x, y] ∧
      x.toNat = 0xC0 + c.toNat / 64 ∧ y.toNat = 0x80 + c.toNat % 64) ∨
    (0x800 ≤ c.toNat ∧ c.toNat < 0x10000 ∧ ∃ x y z : UInt8, String.utf8EncodeChar c = [x, y, z] ∧
      x.toNat = 0xE0 + c.toNat / 4096 ∧ y.toNat = 0x80 + c.toNat / 64 % 64 ∧ z.toNat = 0x80 + c.toNat % 64) ∨
    (0x10000 ≤ c.toNat ∧ c.toNat < 0x110000 ∧ ∃ x y z w : UInt8, String.utf8EncodeChar c = [x, y, z, w] ∧
      x.toNat = 0xF0 + c.toNat / 262144 ∧ y.toNat = 0x80 + c.toNat / 4096 % 64 ∧
      z.toNat = 0x80 + c.toNat / 64 % 64 ∧ w.toNat = 0x80 + c.toNat % 64) := by
  have hv := char_valid c
  have e : c.val.toNat = c.toNat := rfl
  unfold String.utf8EncodeChar
  simp only [e]
  by_cases h1 : c.toNat ≤ 0x7f
  · exact .inl ⟨by omega, _, if_pos h1, u8 _ (by omega)⟩
  · refine .inr ?_
    rw [if_neg h1]
    by_cases h2 : c.toNat ≤ 0x7ff
    · exact .inl ⟨by omega, by omega, _, _, if_pos h2, by rw [u8 _ (by omega)]; omega, by rw [u8 _ (by omega)]; omega⟩
    · refine .inr ?_
      rw [if_neg h2]
      by_cases h3 : c.toNat ≤ 0xffff
      · exact .inl ⟨by omega, by omega, _, _, _, if_pos h3, by rw [u8 _ (by omega)]; omega, by rw [u8 _ (by omega)]; omega,
          by rw [u8 _ (by omega)]; omega⟩
      · exact .inr ⟨by omega, by omega, _, _, _, _, if_neg h3, by rw [u8 _ (by omega)]; omega, by rw [u8 _ (by omega)]; omega,
          by rw [u8 _ (by omega)]; omega, by rw [u8 _ (by omega)]; omega⟩

theorem next_enc (c : Char) (s : Bytes) : next_code_point (String.utf8EncodeChar c ++ s) = .ok (some (c, s)) := by
  rcases enc_char c with ⟨h, x, e, hx⟩ | ⟨h, h', x, y, e, hx, hy⟩ | ⟨h, h', x, y, z, e, hx, hy, hz⟩ | ⟨h, h', x, y, z, w, e, hx, hy, hz, hw⟩ <;>
    simp only [e, List.cons_append, List.nil_append, next_code_point]
  · rw [if_pos (by omega)]; exact fromU32_ok hx
  · rw [if_neg (by omega), if_pos (by omega)]; exact fromU32_ok (by omega)
  · rw [if_neg (by omega), if_neg (by omega), if_pos (by omega)]; exact fromU32_ok (by omega)
  · rw [if_neg (by omega), if_neg (by omega), if_neg (by omega)]; exact fromU32_ok (by omega)

theorem cont_iff (b : UInt8) : isCont b = true ↔ 0x80 ≤ b.toNat ∧ b.toNat < 0xC0 := by simp [isCont]
theorem not_cont_iff (b : UInt8) : isCont b = false ↔ ¬(0x80 ≤ b.toNat ∧ b.toNat < 0xC0) := by
  rw [← cont_iff]; simp

theorem last_enc (c : Char) (s : Bytes) : last_code_point_rev ((String.utf8EncodeChar c).reverse ++ s) = .ok (some (c, s)) := by
  rcases enc_char c with ⟨h, x, e, hx⟩ | ⟨h, h', x, y, e, hx, hy⟩ | ⟨h, h', x, y, z, e, hx, hy, hz⟩ | ⟨h, h', x, y, z, w, e, hx, hy, hz, hw⟩ <;>
    simp only [e, List.reverse_cons, List.reverse_nil, List.cons_append, List.nil_append, last_code_point_rev]
  · rw [if_pos (by omega)]; exact fromU32_ok hx
  · have : isCont x = false := (not_cont_iff _).2 (by omega)
    rw [if_neg (by omega), this]; exact fromU32_ok (by omega)
  · have h1 : isCont y = true := (cont_iff _).2 (by omega)
    have h2 : isCont x = false := (not_cont_iff _).2 (by omega)
    rw [if_neg (by omega), h1, h2]; exact fromU32_ok (by omega)
  · have h1 : isCont z = true := (cont_iff _).2 (by omega)
    have h2 : isCont y = true := (cont_iff _).2 (by omega)
    rw [if_neg (by omega), h1, h2]; exact fromU32_ok (by omega)

/-- An encoded character is a byte that starts a character, followed by bytes that continue it. -/
theorem enc_shape (c : Char) : ∃ x l, String.utf8EncodeChar c = x :: l ∧ isCont x = false ∧ (∀ b ∈ l, isCont b = true) ∧
    l.length + 1 = c.utf8Size := by
  have e : c.val.toNat = c.toNat := rfl
  have hsz : c.utf8Size = (String.utf8EncodeChar c).length := (String.length_utf8EncodeChar c).symm
  rw [hsz]
  rcases enc_char c with ⟨h, x, e, hx⟩ | ⟨h, h', x, y, e, hx, hy⟩ | ⟨h, h', x, y, z, e, hx, hy, hz⟩ | ⟨h, h', x, y, z, w, e, hx, hy, hz, hw⟩ <;>
    refine ⟨x, _, e, (not_cont_iff _).2 (by omega), ?_, by rw [e]; rfl⟩ <;>
    intro b hb <;> simp only [List.mem_cons, List.not_mem_nil, or_false] at hb <;>
    first
      | exact hb.elim
      | (subst hb; exact (cont_iff _).2 (by omega))
      | (rcases hb with rfl | rfl <;> exact (cont_iff _).2 (by omega))
      | (rcases hb with rfl | rfl | rfl <;> exact (cont_iff _).2 (by omega))

theorem enc_append (a b : Text) : enc (a ++ b) = enc a ++ enc b := by
  induction a with
  | nil => rfl
  | cons c cs ih => simp only [enc, List.cons_append, ih, List.append_assoc]

theorem enc_length (t : Text) : (enc t).length = utf8Len t := by
  induction t with
  | nil => rfl
  | cons c cs ih => simp only [enc, utf8Len, List.length_append, ih, String.length_utf8EncodeChar]

theorem enc_snoc (t : Text) (c : Char) : enc (t ++ [c]) = enc t ++ String.utf8EncodeChar c := by
  rw [enc_append]; simp [enc]

theorem enc_nil_iff (t : Text) : enc t = [] ↔ t = [] := by
  cases t with
  | nil => simp [enc]
  | cons c cs =>
    obtain ⟨x, l, e, -⟩ := enc_shape c
    simp [enc, e]

theorem next_enc_text (t : Text) : next_code_point (enc t) = .ok (match t with | [] => none | c :: cs => some (c, enc cs)) := by
  cases t with
  | nil => rfl
  | cons c cs => exact next_enc c _

/-- A text is determined by its bytes. -/
theorem enc_inj {a b : Text} (h : enc a = enc b) : a = b := by
  induction a generalizing b with
  | nil => exact ((enc_nil_iff b).1 h.symm).symm
  | cons c cs ih =>
    cases b with
    | nil => exact (enc_nil_iff _).1 h
    | cons d ds =>
      have h1 := next_enc c (enc cs)
      have h2 := next_enc d (enc ds)
      rw [show String.utf8EncodeChar c ++ enc cs = String.utf8EncodeChar d ++ enc ds from h, h2] at h1
      injection h1 with h1
      injection h1 with h1
      injection h1 with h1 h3
      rw [h1, ih h3.symm]

theorem next_back_enc (t : Text) : next_back (enc t) = .ok t.getLast? := by
  rcases List.eq_nil_or_concat t with rfl | ⟨l, c, rfl⟩
  · rfl
  · rw [List.concat_eq_append, enc_snoc]
    unfold next_back
    rw [List.reverse_append, last_enc]
    simp

theorem count_enc (t : Text) : count_chars (enc t) = t.length := by
  induction t with
  | nil => rfl
  | cons c cs ih =>
    obtain ⟨x, l, e, hx, hl, -⟩ := enc_shape c
    have : l.countP (fun b => !isCont b) = 0 := by
      rw [List.countP_eq_zero]
      intro b hb; simp [hl b hb]
    unfold count_chars at ih ⊢
    simp only [enc, e, List.cons_append, List.countP_cons, List.countP_append, this, hx, ih, List.length_cons]
    simp

theorem from_utf8_char (c : Char) (s : Bytes) : from_utf8 (String.utf8EncodeChar c ++ s) = from_utf8 s := by
  have hv := char_valid c
  rcases enc_char c with ⟨h, x, e, hx⟩ | ⟨h, h', x, y, e, hx, hy⟩ | ⟨h, h', x, y, z, e, hx, hy, hz⟩ | ⟨h, h', x, y, z, w, e, hx, hy, hz, hw⟩ <;>
    rw [e] <;> simp only [List.cons_append, List.nil_append] <;> rw [from_utf8.eq_def] <;> dsimp only
  · rw [if_pos (by omega)]
  · have h1 : isCont y = true := (cont_iff _).2 (by omega)
    rw [if_neg (by omega), if_pos (by simp; omega), h1, Bool.true_and]
  · have h1 : isCont y = true := (cont_iff _).2 (by omega)
    have h2 : isCont z = true := (cont_iff _).2 (by omega)
    rw [if_neg (by omega), if_neg (by simp; omega), if_pos (by simp; omega), h1, h2, Bool.true_and, Bool.true_and]
    have : (if x.toNat == 0xE0 then decide (0xA0 ≤ y.toNat) else if x.toNat == 0xED then decide (y.toNat ≤ 0x9F) else true) = true := by
      split
      · rename_i h; simp only [beq_iff_eq] at h; exact decide_eq_true (by omega)
      · split
        · rename_i h; simp only [beq_iff_eq] at h; exact decide_eq_true (by omega)
        · rfl
    rw [this, Bool.and_true]
  · have h1 : isCont y = true := (cont_iff _).2 (by omega)
    have h2 : isCont z = true := (cont_iff _).2 (by omega)
    have h3 : isCont w = true := (cont_iff _).2 (by omega)
    rw [if_neg (by omega), if_neg (by simp; omega), if_neg (by simp; omega), if_pos (by simp; omega), h1, h2, h3,
      Bool.true_and, Bool.true_and, Bool.true_and]
    have : (if x.toNat == 0xF0 then decide (0x90 ≤ y.toNat) else if x.toNat == 0xF4 then decide (y.toNat ≤ 0x8F) else true) = true := by
      split
      · rename_i h; simp only [beq_iff_eq] at h; exact decide_eq_true (by omega)
      · split
        · rename_i h; simp only [beq_iff_eq] at h; exact decide_eq_true (by omega)
        · rfl
    rw [this, Bool.and_true]

/-- What is stored for a text is well-formed. -/
theorem from_utf8_enc (t : Text) : from_utf8 (enc t) = true := by
  induction t with
  | nil => simp [enc, from_utf8]
  | cons c cs ih => rw [enc, from_utf8_char, ih]

/-- The bytes of a character, from its number. -/
theorem enc_of_bytes {c : Char} {l : Bytes} {c' : Char} {r : Bytes} (h : next_code_point l = .ok (some (c, r)))
    (h' : l = String.utf8EncodeChar c' ++ r) : c' = c := by
  subst h'
  rw [next_enc] at h
  injection h with h; injection h with h; injection h

theorem u8_ext {a b : UInt8} (h : a.toNat = b.toNat) : a = b := UInt8.toNat_inj.1 h

theorem ofNat_toNat' {n : Nat} (h : Nat.isValidChar n) : (Char.ofNat n).toNat = n := by
  unfold Char.ofNat
  rw [dif_pos h]
  rfl

/-- Every well-formed sequence of bytes stores a text. -/
theorem enc_of_from_utf8 : ∀ (s : Bytes), from_utf8 s = true → ∃ t, s = enc t := by
  intro s
  induction hn : s.length using Nat.strongRecOn generalizing s with
  | ind n ih =>
  intro h
  have step : ∀ (k : Nat) (l r : Bytes), s = l ++ r → l ≠ [] → from_utf8 r = true → Nat.isValidChar k →
      String.utf8EncodeChar (Char.ofNat k) = l → ∃ t, s = enc t := by
    intro k l r e hl hr hk he
    obtain ⟨t, ht⟩ := ih r.length (by
      have : l.length ≠ 0 := fun h => hl (List.length_eq_zero_iff.1 h)
      subst hn; rw [e, List.length_append]; omega) r rfl hr
    exact ⟨Char.ofNat k :: t, by rw [enc, he, ← ht, e]⟩
  cases s with
  | nil => exact ⟨[], rfl⟩
  | cons x s =>
    have hx := x.toNat_lt
    rw [from_utf8.eq_def] at h
    dsimp only at h
    split at h
    · rename_i h1
      refine step x.toNat [x] s rfl (by simp) h (by rw [isValid_iff]; omega) ?_
      rcases enc_char (Char.ofNat x.toNat) with ⟨_, x', e, hx'⟩ | ⟨hh, _⟩ | ⟨hh, _⟩ | ⟨hh, _⟩ <;>
        rw [ofNat_toNat' (by rw [isValid_iff]; omega)] at *
      · rw [e, u8_ext hx']
      all_goals omega
    · rename_i h1
      split at h
      · rename_i h2
        simp only [Bool.and_eq_true, decide_eq_true_eq] at h2
        cases s with
        | nil => simp at h
        | cons y s =>
          simp only [Bool.and_eq_true, cont_iff] at h
          have hk : Nat.isValidChar ((x.toNat - 0xC0) * 64 + (y.toNat - 0x80)) := by rw [isValid_iff]; omega
          refine step _ [x, y] s rfl (by simp) h.2 hk ?_
          rcases enc_char (Char.ofNat ((x.toNat - 0xC0) * 64 + (y.toNat - 0x80))) with ⟨hh, _⟩ | ⟨_, _, x', y', e, hx', hy'⟩ | ⟨hh, _⟩ | ⟨hh, _⟩ <;>
            rw [ofNat_toNat' hk] at *
          · omega
          · rw [e, u8_ext (a := x') (b := x) (by omega), u8_ext (a := y') (b := y) (by omega)]
          all_goals omega
      · rename_i h2
        simp only [Bool.and_eq_true, decide_eq_true_eq, not_and] at h2
        split at h
        · rename_i h3
          simp only [Bool.and_eq_true, decide_eq_true_eq] at h3
          match s, h with
          | [], h => simp at h
          | [_], h => simp at h
          | y :: z :: s, h =>
            simp only [Bool.and_eq_true, cont_iff] at h
            have hb := h.2
            have hk : Nat.isValidChar ((x.toNat - 0xE0) * 4096 + (y.toNat - 0x80) * 64 + (z.toNat - 0x80)) ∧
                0x800 ≤ (x.toNat - 0xE0) * 4096 + (y.toNat - 0x80) * 64 + (z.toNat - 0x80) := by
              rw [isValid_iff]
              split at hb
              · rename_i q; simp only [beq_iff_eq] at q; simp only [decide_eq_true_eq] at hb; omega
              · rename_i q; simp only [beq_iff_eq] at q
                split at hb
                · rename_i q'; simp only [beq_iff_eq] at q'; simp only [decide_eq_true_eq] at hb; omega
                · rename_i q'; simp only [beq_iff_eq] at q'; omega
            refine step _ [x, y, z] s rfl (by simp) h.1.2 hk.1 ?_
            rcases enc_char (Char.ofNat ((x.toNat - 0xE0) * 4096 + (y.toNat - 0x80) * 64 + (z.toNat - 0x80))) with
                ⟨hh, _⟩ | ⟨_, hh, _⟩ | ⟨_, _, x', y', z', e, hx', hy', hz'⟩ | ⟨hh, _⟩ <;>
              rw [ofNat_toNat' hk.1] at *
            · omega
            · omega
            · rw [e, u8_ext (a := x') (b := x) (by omega), u8_ext (a := y') (b := y) (by omega), u8_ext (a := z') (b := z) (by omega)]
            · omega
        · rename_i h3
          simp only [Bool.and_eq_true, decide_eq_true_eq, not_and] at h3
          split at h
          · rename_i h4
            simp only [Bool.and_eq_true, decide_eq_true_eq] at h4
            match s, h with
            | [], h => simp at h
            | [_], h => simp at h
            | [_, _], h => simp at h
            | y :: z :: w :: s, h =>
              simp only [Bool.and_eq_true, cont_iff] at h
              have hb := h.2
              have hk : Nat.isValidChar ((x.toNat - 0xF0) * 262144 + (y.toNat - 0x80) * 4096 + (z.toNat - 0x80) * 64 + (w.toNat - 0x80)) ∧
                  0x10000 ≤ (x.toNat - 0xF0) * 262144 + (y.toNat - 0x80) * 4096 + (z.toNat - 0x80) * 64 + (w.toNat - 0x80) := by
                rw [isValid_iff]
                split at hb
                · rename_i q; simp only [beq_iff_eq] at q; simp only [decide_eq_true_eq] at hb; omega
                · rename_i q; simp only [beq_iff_eq] at q
                  split at hb
                  · rename_i q'; simp only [beq_iff_eq] at q'; simp only [decide_eq_true_eq] at hb; omega
                  · rename_i q'; simp only [beq_iff_eq] at q'; omega
              refine step _ [x, y, z, w] s rfl (by simp) h.1.2 hk.1 ?_
              rcases enc_char (Char.ofNat ((x.toNat - 0xF0) * 262144 + (y.toNat - 0x80) * 4096 + (z.toNat - 0x80) * 64 + (w.toNat - 0x80))) with
                  ⟨hh, _⟩ | ⟨_, hh, _⟩ | ⟨_, hh, _⟩ | ⟨_, _, x', y', z', w', e, hx', hy', hz', hw'⟩ <;>
                rw [ofNat_toNat' hk.1] at *
              · omega
              · omega
              · omega
              · rw [e, u8_ext (a := x') (b := x) (by omega), u8_ext (a := y') (b := y) (by omega),
                  u8_ext (a := z') (b := z) (by omega), u8_ext (a := w') (b := w) (by omega)]
          · simp at h

theorem boundary_zero (s : Bytes) : is_char_boundary s 0 = true := by simp [is_char_boundary]

theorem boundary_cons {c : Char} {s : Bytes} {n : Nat} (hs : s = [] ∨ is_char_boundary s 0 ∧ ∃ x l, s = x :: l ∧ isCont x = false) (hn : 0 < n) :
    is_char_boundary (String.utf8EncodeChar c ++ s) n =
      if c.utf8Size ≤ n then is_char_boundary s (n - c.utf8Size) else false := by
  obtain ⟨x, l, e, hx, hl, hlen⟩ := enc_shape c
  have hsz : (String.utf8EncodeChar c).length = c.utf8Size := String.length_utf8EncodeChar c
  have n0 : (n == 0) = false := by simp; omega
  unfold is_char_boundary
  rw [n0, Bool.false_or]
  by_cases h : c.utf8Size ≤ n
  · rw [if_pos h]
    rw [List.getElem?_append_right (by omega), hsz]
    by_cases h0 : n - c.utf8Size = 0
    · have hnn : n = c.utf8Size := by omega
      rw [h0]
      rcases hs with rfl | ⟨-, y, r, rfl, hy⟩
      · simp [hsz, hnn]
      · simp [hy]
    · have : (n - c.utf8Size == 0) = false := by simpa using h0
      rw [this, Bool.false_or]
      cases hq : s[n - c.utf8Size]? with
      | some b => rfl
      | none =>
        simp only [List.length_append, hsz]
        rw [Bool.eq_iff_iff]; simp only [beq_iff_eq]; omega
  · rw [if_neg h, List.getElem?_append_left (by omega), e]
    obtain ⟨m, rfl⟩ : ∃ m, n = m + 1 := ⟨n - 1, by omega⟩
    rw [List.getElem?_cons_succ]
    have : m < l.length := by omega
    rw [List.getElem?_eq_getElem this]
    simp [hl _ (List.getElem_mem this)]

theorem enc_start (t : Text) : enc t = [] ∨ is_char_boundary (enc t) 0 ∧ ∃ x l, enc t = x :: l ∧ isCont x = false := by
  cases t with
  | nil => exact .inl rfl
  | cons c cs =>
    obtain ⟨x, l, e, hx, -⟩ := enc_shape c
    exact .inr ⟨boundary_zero _, x, l ++ enc cs, by rw [enc, e, List.cons_append], hx⟩

theorem utf8Size_pos (c : Char) : 0 < c.utf8Size := Char.utf8Size_pos c

/-- Splitting the bytes at an offset is splitting the text. -/
theorem split_enc (t : Text) (n : Nat) :
    split_at_checked (enc t) n = (splitAtBytes n t).map fun x => (enc x.1, enc x.2) := by
  induction t generalizing n with
  | nil =>
    cases n with
    | zero => simp [split_at_checked, splitAtBytes, enc, is_char_boundary]
    | succ n => simp [split_at_checked, splitAtBytes, enc, is_char_boundary]
  | cons c cs ih =>
    cases n with
    | zero => simp [split_at_checked, splitAtBytes, enc, is_char_boundary]
    | succ n =>
      have hsz : (String.utf8EncodeChar c).length = c.utf8Size := String.length_utf8EncodeChar c
      unfold split_at_checked
      rw [enc, boundary_cons (enc_start cs) (by omega)]
      rw [splitAtBytes]
      split
      · rename_i h
        have := ih (n + 1 - c.utf8Size)
        unfold split_at_checked at this
        rw [List.take_append, List.drop_append, hsz]
        rw [List.take_of_length_le (by omega), List.drop_of_length_le (by omega)]
        cases hq : splitAtBytes (n + 1 - c.utf8Size) cs with
        | none =>
          rw [hq] at this
          split at this
          · cases this
          · rename_i h'; simp [h']
        | some p =>
          rw [hq] at this
          split at this
          · rename_i h'
            simp only [Option.map_some, Option.some.injEq, Prod.mk.injEq] at this
            simp [h', this.1, this.2, enc]
          · cases this
      · rfl

theorem slice_upto_enc (t : Text) (n : Nat) :
    slice_upto (enc t) n = match splitAtBytes n t with | some (a, _) => .ok (enc a) | none => .error (.crash .panic) := by
  have := split_enc t n
  unfold split_at_checked at this
  unfold slice_upto
  cases hq : splitAtBytes n t with
  | none =>
    rw [hq] at this
    split at this
    · cases this
    · rename_i h; simp [h]
  | some p =>
    rw [hq] at this
    split at this
    · rename_i h
      simp only [Option.map_some, Option.some.injEq, Prod.mk.injEq] at this
      simp [h, this.1]
    · cases this

theorem splitAtBytes_append (a b : Text) : splitAtBytes (utf8Len a) (a ++ b) = some (a, b) := by
  induction a with
  | nil => cases b <;> rfl
  | cons c cs ih =>
    have := utf8Size_pos c
    obtain ⟨m, hm⟩ : ∃ m, utf8Len (c :: cs) = m + 1 := ⟨utf8Len (c :: cs) - 1, by simp only [utf8Len]; omega⟩
    rw [hm, List.cons_append, splitAtBytes, ← hm, if_pos (by simp only [utf8Len]; omega)]
    have : utf8Len (c :: cs) - c.utf8Size = utf8Len cs := by simp only [utf8Len]; omega
    rw [this, ih]

theorem slice_from_append (a b : Text) : slice_from (enc (a ++ b)) (utf8Len a) = .ok (enc b) := by
  have := split_enc (a ++ b) (utf8Len a)
  rw [splitAtBytes_append] at this
  unfold split_at_checked at this
  unfold slice_from
  split at this
  · rename_i h
    simp only [Option.map_some, Option.some.injEq, Prod.mk.injEq] at this
    simp [h, this.2]
  · cases this

/-- A text starts with another if its bytes do. -/
theorem prefix_enc (a t : Text) : (enc a).isPrefixOf (enc t) = a.isPrefixOf t := by
  rw [Bool.eq_iff_iff, List.isPrefixOf_iff_prefix, List.isPrefixOf_iff_prefix]
  constructor
  · induction a generalizing t with
    | nil => intro _; exact List.nil_prefix
    | cons c cs ih =>
      intro h
      cases t with
      | nil =>
        have := List.prefix_nil.1 h
        rw [enc_nil_iff] at this; cases this
      | cons d ds =>
        obtain ⟨r, hr⟩ := h
        have h1 : next_code_point (enc (c :: cs) ++ r) = .ok (some (c, enc cs ++ r)) := by
          rw [enc, List.append_assoc, next_enc]
        rw [hr, enc, next_enc] at h1
        injection h1 with h1; injection h1 with h1; injection h1 with h1 h3
        subst h1
        exact List.cons_prefix_cons.2 ⟨rfl, ih ds ⟨r, h3.symm⟩⟩
  · rintro ⟨r, rfl⟩
    exact ⟨enc r, (enc_append a r).symm⟩

end Undname.Raw
