/-
  String literal symbols: the parser decodes and shows the encoded bytes.
-/
import Verif.Proof.StringRun
import Verif.Proof.Head
import Verif.Spec.Grammar

namespace Undname
open Spec

variable {c : Cache} {ns ps : List Handle} {rest : Text}

/-! ### Widths and characters -/

theorem suffix_zeros (bytes : List Nat) (k : Nat) :
    List.replicate k 0 <:+ bytes ↔ k ≤ (bytes.reverse.takeWhile (· == 0)).length := by
  rw [← List.reverse_prefix, List.reverse_replicate]
  generalize bytes.reverse = l
  induction k generalizing l with
  | zero => simp
  | succ k ih =>
    cases l with
    | nil => simp
    | cons a l =>
      rw [List.replicate_succ, List.cons_prefix_cons, ih, List.takeWhile_cons]
      by_cases h : a = 0
      · subst h; simp
      · simp [h, Ne.symm h]

theorem guess_eq {n : Nat} (hn : n ≠ 0) (bytes : List Nat) :
    guess_char_byte_size bytes n = some (charWidth n bytes) := by
  have h4 := suffix_zeros bytes 4
  have h2 := suffix_zeros bytes 2
  have e4 : List.replicate 4 (0 : Nat) = [0, 0, 0, 0] := rfl
  have e2 : List.replicate 2 (0 : Nat) = [0, 0] := rfl
  rw [e4] at h4; rw [e2] at h2
  unfold guess_char_byte_size charWidth
  rw [if_neg (by simpa using hn)]
  by_cases ho : n % 2 = 1
  · rw [if_pos (by simpa using ho), if_pos ho]
  · rw [if_neg (by simpa using ho), if_neg ho]
    by_cases hs : n < 32
    · rw [if_pos hs, if_pos hs]
      simp only [h4, h2, Bool.and_eq_true, decide_eq_true_eq, beq_iff_eq, ge_iff_le]
      split
      · rfl
      · split <;> rfl
    · rw [if_neg hs, if_neg hs]
      have hcnt : bytes.countP (· == 0) = bytes.count 0 := rfl
      simp only [hcnt, Bool.and_eq_true, decide_eq_true_eq, beq_iff_eq, ge_iff_le]
      split
      · rfl
      · split <;> rfl

theorem charWidth_cases (n : Nat) (bytes : List Nat) :
    charWidth n bytes = 1 ∨ charWidth n bytes = 2 ∨ charWidth n bytes = 4 := by
  unfold charWidth
  repeat' split
  all_goals simp

theorem littleEndian_lt {bs : List Nat} (h : ∀ b ∈ bs, b < 256) : littleEndian bs < 256 ^ bs.length := by
  induction bs with
  | nil => simp [littleEndian]
  | cons b bs ih =>
    have h1 := ih fun x hx => h x (by simp [hx])
    have h2 := h b (by simp)
    simp only [littleEndian, List.length_cons, Nat.pow_succ]
    omega

theorem combineBytes_eq {bs : List Nat} (h : ∀ b ∈ bs, b < 256) (i : Nat) :
    combineBytes i bs = littleEndian bs <<< (8 * i) := by
  induction bs generalizing i with
  | nil => simp [combineBytes, littleEndian]
  | cons b bs ih =>
    rw [combineBytes, ih (fun x hx => h x (by simp [hx])), littleEndian]
    have hb : b < 2 ^ 8 := h b (by simp)
    have e : littleEndian bs <<< (8 * (i + 1)) = (littleEndian bs <<< 8) <<< (8 * i) := by
      rw [← Nat.shiftLeft_add]; congr 1; omega
    rw [e, ← Nat.shiftLeft_or_distrib, Nat.or_comm, ← Nat.shiftLeft_add_eq_or_of_lt hb]
    congr 1
    rw [Nat.shiftLeft_eq]; omega

theorem decode_eq {bytes : List Nat} {w i : Nat} (h : ∀ b ∈ bytes, b < 256) (hw : w = 1 ∨ w = 2 ∨ w = 4)
    (hi : i < bytes.length / w) :
    decode_multi_byte_char bytes i w = some (littleEndian ((bytes.drop (i * w)).take w)) := by
  have hw0 : 0 < w := by omega
  have hlen : (i + 1) * w ≤ bytes.length := by
    have := Nat.mul_le_of_le_div _ _ _ (show i + 1 ≤ bytes.length / w from hi)
    exact this
  have e : (i + 1) * w = i * w + w := Nat.succ_mul i w
  unfold decode_multi_byte_char
  rw [if_pos (by rcases hw with rfl | rfl | rfl <;> rfl)]
  simp only
  rw [if_neg (by omega), if_neg (by rw [List.length_drop]; omega)]
  rw [combineBytes_eq]
  · simp
  · intro b hb; exact h b (List.mem_of_mem_drop (List.mem_of_mem_take hb))

theorem encByte_lt {t : Text} {b : Nat} (h : EncByte t b) : b < 256 := by
  cases h with
  | plain x h h1 h2 => exact h
  | hex x y hx hy =>
    have e1 : hexDigit x < 16 := hexdigit_lt ((isHex_iff x).2 hx)
    have e2 : hexDigit y < 16 := hexdigit_lt ((isHex_iff y).2 hy)
    omega
  | punct i x hx =>
    have : ∀ x ∈ punctuation, x.toNat < 256 := by decide
    exact this x (List.mem_of_getElem? hx)
  | lower i hi => omega
  | upper i hi => omega

theorem encBytes_lt {t : Text} {bs : List Nat} (h : EncBytes t bs) : ∀ b ∈ bs, b < 256 := by
  induction h with
  | nil => simp
  | cons h hs ih =>
    intro b hb
    rcases List.mem_cons.1 hb with rfl | hb
    · exact encByte_lt h
    · exact ih b hb

/-! ### The size of an escaped character -/

theorem upperHexNum_length (k n : Nat) (h : n < 16 ^ (k + 1)) : (upperHexNum n).length ≤ k + 1 := by
  induction k generalizing n with
  | zero => unfold upperHexNum; rw [dif_pos (by simpa using h)]; simp
  | succ k ih =>
    unfold upperHexNum
    split
    · simp
    · have := ih (n / 16) (by rw [Nat.pow_succ] at h; omega)
      simp; omega

theorem utf8Len_le (t : Text) : utf8Len t ≤ 4 * t.length := by
  induction t with
  | nil => simp [utf8Len]
  | cons x t ih =>
    have := Char.utf8Size_le_four x
    simp only [utf8Len, List.length_cons]
    omega

theorem escape_length {x : Nat} (h : x < 2 ^ 32) : (escape x).length ≤ 10 := by
  unfold escape
  split
  · next t ht =>
    unfold namedEscape at ht
    have : ∀ p ∈ [(0x00, ['\\', '0']), (0x07, ['\\', 'a']), (0x08, ['\\', 'b']), (0x09, ['\\', 't']),
      (0x0A, ['\\', 'n']), (0x0B, ['\\', 'v']), (0x0C, ['\\', 'f']), (0x0D, ['\\', 'r']),
      (0x22, ['\\', '"']), (0x27, ['\\', '\'']), ((0x5C : Nat), ['\\', '\\'])], p.2.length ≤ 10 := by decide
    revert ht
    generalize hl : [(0x00, ['\\', '0']), (0x07, ['\\', 'a']), (0x08, ['\\', 'b']), (0x09, ['\\', 't']),
      (0x0A, ['\\', 'n']), (0x0B, ['\\', 'v']), (0x0C, ['\\', 'f']), (0x0D, ['\\', 'r']),
      (0x22, ['\\', '"']), (0x27, ['\\', '\'']), ((0x5C : Nat), ['\\', '\\'])] = l
    rw [hl] at this
    clear hl
    intro ht
    induction l with
    | nil => simp at ht
    | cons p l ih =>
      rw [List.lookup_cons] at ht
      split at ht
      · cases ht; exact this p (by simp)
      · exact ih (fun q hq => this q (by simp [hq])) ht
  · split
    · simp
    · have : (hex2 x).length ≤ 8 := by
        unfold hex2
        split
        · simp
        · exact upperHexNum_length 7 x (by simpa using h)
      simp; omega

/-! ### The narrow loops -/

theorem narrow_loop {t : Text} {bs : List Nat} (h : EncBytes t bs) : ∀ (acc : List Nat) (n : Nat),
    acc.length + bs.length ≤ 128 → bs.length < n →
    exec (SM.iterate n narrowBody acc) (mk (t ++ '@' :: rest) c ns ps) = .ok (acc ++ bs, mk rest c ns ps) := by
  induction h with
  | nil =>
    intro acc n _ hn
    obtain ⟨n, rfl⟩ : ∃ k, n = k + 1 := ⟨n - 1, by simp at hn; omega⟩
    rw [run_iterate_succ]
    simp [narrowBody, run]
  | @cons t u b bs h hs ih =>
    intro acc n hl hn
    obtain ⟨n, rfl⟩ : ∃ k, n = k + 1 := ⟨n - 1, by simp at hn; omega⟩
    obtain ⟨x, v, rfl, hx⟩ := encByte_head h
    have hb := encByte_run (rest := u ++ '@' :: rest) (c := c) (ns := ns) (ps := ps) h
    rw [run_iterate_succ]
    simp only [List.length_cons] at hl hn
    have hb' : exec demangle_char_literal (mk (x :: (v ++ (u ++ '@' :: rest))) c ns ps) =
        .ok (b, mk (u ++ '@' :: rest) c ns ps) := hb
    simp only [narrowBody, List.cons_append, List.append_assoc, run, hx, Bool.false_eq_true, if_false, hb',
      if_pos (show acc.length < 128 by omega)]
    rw [ih (acc ++ [b]) n (by simp; omega) (by omega)]
    simp

theorem decode_loop {bytes : List Nat} (hb : ∀ b ∈ bytes, b < 256) {w : Nat} (hw : w = 1 ∨ w = 2 ∨ w = 4)
    (hlen : bytes.length ≤ 128) (trunc : Bool) (s : St) : ∀ (k i : Nat) (acc : Text),
    i + k = bytes.length / w → acc.length ≤ 10 * i →
    ∃ j, exec (SM.forN k (decodeBody bytes w (bytes.length / w) trunc) (i, acc)) s =
      .ok ((j, acc ++ ((if trunc then (chars w bytes).drop i else ((chars w bytes).drop i).dropLast).flatMap escape)), s) := by
  have hN : bytes.length / w ≤ 128 := Nat.le_trans (Nat.div_le_self _ _) hlen
  intro k
  induction k with
  | zero =>
    intro i acc hi ha
    refine ⟨i, ?_⟩
    have : (chars w bytes).drop i = [] := by
      apply List.drop_eq_nil_of_le; simp [chars]; omega
    rw [run_forN_zero, this]
    simp
  | succ k ih =>
    intro i acc hi ha
    have hi' : i < bytes.length / w := by omega
    have hget : (chars w bytes)[i]'(by simp [chars]; omega) = littleEndian ((bytes.drop (i * w)).take w) := by
      simp [chars]
    have hdrop : (chars w bytes).drop i = littleEndian ((bytes.drop (i * w)).take w) :: (chars w bytes).drop (i + 1) := by
      rw [← hget]; exact (List.getElem_cons_drop (by simp [chars]; omega)).symm
    have hx : littleEndian ((bytes.drop (i * w)).take w) < 2 ^ 32 := by
      have h1 := littleEndian_lt (bs := (bytes.drop (i * w)).take w)
        fun b hb' => hb b (List.mem_of_mem_drop (List.mem_of_mem_take hb'))
      refine Nat.lt_of_lt_of_le h1 ?_
      have : ((bytes.drop (i * w)).take w).length ≤ 4 := by rw [List.length_take]; omega
      exact Nat.le_trans (Nat.pow_le_pow_right (by decide) this) (by decide)
    generalize hX : littleEndian ((bytes.drop (i * w)).take w) = x at *
    have hel := escape_length hx
    have hlast : (chars w bytes).drop (i + 1) = [] ↔ ¬ i + 1 < bytes.length / w := by
      rw [List.drop_eq_nil_iff]; simp [chars]
    have haL : utf8Len acc < OUTPUT_LIMIT := by
      have := utf8Len_le acc
      show _ < 2 ^ 20
      omega
    rw [run_forN_succ]
    unfold decodeBody
    rw [run_bind_eq, decode_eq hb hw hi', hX, run_okOr_some, andThen_ok]
    simp only
    by_cases hc : i + 1 < bytes.length / w ∨ trunc = true
    · have hgrow : exec (runW (output_escaped_char x) acc) s = .ok (acc ++ escape x, s) := by
        rw [escape_run haL]
        unfold grow
        rw [if_pos]
        have := utf8Len_le (acc ++ escape x)
        simp only [List.length_append] at this
        show _ < 2 ^ 20
        omega
      obtain ⟨j, hj⟩ := ih (i + 1) (acc ++ escape x) (by omega) (by simp; omega)
      refine ⟨j, ?_⟩
      rw [if_pos (by simpa using hc), run_bind_eq, hgrow]
      simp only [run]
      unfold decodeBody at hj
      rw [hj, hdrop]
      cases trunc with
      | true => simp
      | false =>
        have hne : (chars w bytes).drop (i + 1) ≠ [] := fun h => hlast.1 h (by simpa using hc)
        simp [List.dropLast_cons_of_ne_nil hne]
    · obtain ⟨j, hj⟩ := ih (i + 1) acc (by omega) (by omega)
      refine ⟨j, ?_⟩
      rw [if_neg (by simpa using hc)]
      simp only [run]
      unfold decodeBody at hj
      rw [hj, hdrop]
      rw [not_or] at hc
      have hne := hlast.2 hc.1
      simp [hne, hc.2]

/-- The parser on a narrow literal. -/
theorem narrow_eq {tn crc t : Text} {n : Nat} {bytes : List Nat} (hn : EncNat tn n) (h0 : n ≠ 0)
    (hcrc : '@' ∉ crc) (ht : EncBytes t bytes) (hb : bytes.length ≤ 128) :
    ∃ k, charKindOf (charWidth n bytes) = some k ∧
    exec demangle_string_literal (mk (c!"@_0" ++ tn ++ crc ++ c!"@" ++ t ++ c!"@" ++ rest) c ns ps) =
      exec (intern (.EncodedStringLiteral none
        ((if bytes.length < n then chars (charWidth n bytes) bytes
          else (chars (charWidth n bytes) bytes).dropLast).flatMap escape) (decide (bytes.length < n)) k)) (mk rest c ns ps) := by
  have hw := charWidth_cases n bytes
  obtain ⟨k, hk⟩ : ∃ k, charKindOf (charWidth n bytes) = some k := by
    rcases hw with h | h | h <;> rw [h] <;> exact ⟨_, rfl⟩
  refine ⟨k, hk, ?_⟩
  have hnum := encNat_run (rest := crc ++ '@' :: (t ++ '@' :: rest)) (c := c) (ns := ns) (ps := ps) hn
  have hsplit : splitAtBytes (utf8Len crc + 1) (crc ++ '@' :: (t ++ '@' :: rest)) =
      some (crc ++ ['@'], t ++ '@' :: rest) := by
    have := splitAtBytes_len (crc ++ ['@']) (t ++ '@' :: rest)
    rw [Emit.utf8Len_append, show utf8Len ['@'] = 1 from rfl] at this
    simpa using this
  have hbytes := tryBytes_hit (c := c) (ns := ns) (ps := ps) _ hsplit (by simp)
  have hne : (MStr.new (t ++ '@' :: rest)).is_empty = false := by cases t <;> rfl
  have hlen : bytes.length < (t ++ '@' :: rest).length + 1 := by
    have : bytes.length ≤ t.length := by
      clear hnum hsplit hbytes hne hb hw hk
      induction ht with
      | nil => simp
      | cons h hs ih =>
        obtain ⟨x, u, rfl, _⟩ := encByte_head h
        simp; omega
    simp; omega
  have hloop := narrow_loop (rest := rest) (c := c) (ns := ns) (ps := ps) ht [] _ (by simpa using hb) hlen
  obtain ⟨j, hj⟩ := decode_loop (encBytes_lt ht) hw hb (decide (bytes.length < n)) (mk rest c ns ps) (bytes.length / charWidth n bytes) 0 []
    (by simp) (by simp)
  have hn1 : ¬ (n < 1) := by omega
  unfold demangle_string_literal
  simp only [List.cons_append, List.append_assoc, List.nil_append]
  simp only [run, List.drop, List.length_cons, List.length_nil, beq_self_eq_true, if_true, List.isPrefixOf,
    Bool.and_self, Nat.reduceAdd, Char.reduceBEq, Bool.false_eq_true, if_false, hnum,
    Bool.or_eq_true, decide_eq_true_eq, false_or, hn1, MStr.find_char,
    findChar_at _ hcrc, hbytes, hne, List.drop_succ_cons]
  rw [hloop]
  simp only [run, List.nil_append, guess_eq h0, hk, gt_iff_lt, hj, List.drop_zero, decide_eq_true_eq]

/-- The same while there is room for nodes. -/
theorem narrow_run {tn crc t : Text} {n : Nat} {bytes : List Nat} (hn : EncNat tn n) (h0 : n ≠ 0)
    (hcrc : '@' ∉ crc) (ht : EncBytes t bytes) (hb : bytes.length ≤ 128) (hc : c.length < 2048) :
    ∃ k, charKindOf (charWidth n bytes) = some k ∧
    exec demangle_string_literal (mk (c!"@_0" ++ tn ++ crc ++ c!"@" ++ t ++ c!"@" ++ rest) c ns ps) =
      .ok (c.length, mk rest (c ++ [.EncodedStringLiteral none
        ((if bytes.length < n then chars (charWidth n bytes) bytes
          else (chars (charWidth n bytes) bytes).dropLast).flatMap escape) (decide (bytes.length < n)) k]) ns ps) := by
  obtain ⟨k, hk, h⟩ := narrow_eq (rest := rest) (c := c) (ns := ns) (ps := ps) hn h0 hcrc ht hb
  refine ⟨k, hk, h.trans ?_⟩
  rw [intern_mk, if_pos hc]

/-- The parser on a narrow literal that is followed by nothing else. -/
theorem literal_parse (rend : Renderer) (rest : Text) : parse rend (c!"??_C" ++ rest) =
    exec demangle_string_literal (mk rest [] [] []) := by
  rw [parse_def]
  exact do_parse_special (t := '?' :: '_' :: 'C' :: rest) (t' := rest) (k := .StringLiteralSymbol) rfl

/-! ### The wide loop -/

/-- The characters that are shown, as the loop decides it: the count of bytes left is compared with 2. -/
def wideKept (trunc : Bool) : Nat → List Nat → List Nat
  | _, [] => []
  | n, v :: vs => if n ≠ 2 ∨ trunc then v :: wideKept trunc (n - 2) vs else wideKept trunc (n - 2) vs

theorem wideKept_trunc (n : Nat) (vs : List Nat) : wideKept true n vs = vs := by
  induction vs generalizing n with
  | nil => rfl
  | cons v vs ih => simp [wideKept, ih]

theorem wideKept_exact (vs : List Nat) : wideKept false (2 * vs.length) vs = vs.dropLast := by
  induction vs with
  | nil => rfl
  | cons v vs ih =>
    unfold wideKept
    rw [show 2 * (v :: vs).length - 2 = 2 * vs.length by simp; omega, ih]
    cases vs with
    | nil => rfl
    | cons w ws => rw [if_pos (by left; simp; omega)]; rfl

theorem wide_or {a b : Nat} (ha : a < 256) (hb : b < 256) : (a <<< 8) % 65536 ||| b = 256 * a + b := by
  have h1 : a <<< 8 = 256 * a := by rw [Nat.shiftLeft_eq]; omega
  rw [Nat.mod_eq_of_lt (by omega), ← Nat.shiftLeft_add_eq_or_of_lt (show b < 2 ^ 8 from hb), h1]

theorem wide_cons {x y : Char} {v v' u : Text} {b1 b2 : Nat} {vs : List Nat} {trunc : Bool} {n m : Nat} {acc : Text}
    (hx : x ≠ '@') (h1 : b1 < 256) (h2 : b2 < 256)
    (e1 : ∀ r : Text, exec demangle_char_literal (mk ((x :: v) ++ r) c ns ps) = .ok (b1, mk r c ns ps))
    (e2 : ∀ r : Text, exec demangle_char_literal (mk ((y :: v') ++ r) c ns ps) = .ok (b2, mk r c ns ps))
    (ih : ∀ (n : Nat) (acc : Text), utf8Len acc < OUTPUT_LIMIT →
      exec (SM.iterate m (wideBody trunc) (n, acc)) (mk (u ++ '@' :: rest) c ns ps) =
        grow acc ((wideKept trunc n vs).flatMap escape) (mk rest c ns ps))
    (ha : utf8Len acc < OUTPUT_LIMIT) :
    exec (SM.iterate (m + 1) (wideBody trunc) (n, acc)) (mk ((x :: v) ++ ((y :: v') ++ (u ++ '@' :: rest))) c ns ps) =
      grow acc ((wideKept trunc n ((256 * b1 + b2) :: vs)).flatMap escape) (mk rest c ns ps) := by
  have hx' : (x == '@') = false := by simpa using hx
  have hw : exec demangle_wchar_literal (mk (x :: (v ++ (y :: (v' ++ (u ++ '@' :: rest))))) c ns ps) =
      .ok (256 * b1 + b2, mk (u ++ '@' :: rest) c ns ps) := by
    unfold demangle_wchar_literal
    rw [run_bind_eq, show x :: (v ++ (y :: (v' ++ (u ++ '@' :: rest)))) = (x :: v) ++ ((y :: v') ++ (u ++ '@' :: rest)) by simp,
      e1, andThen_ok]
    rw [run_bind_eq, e2]
    simp only [run, wide_or h1 h2]
  have hlen : ¬ ((MStr.new (x :: (v ++ (y :: (v' ++ (u ++ '@' :: rest)))))).len_bytes < 2) := by
    show ¬ (utf8Len (x :: (v ++ (y :: (v' ++ (u ++ '@' :: rest))))) < 2)
    simp only [utf8Len, Emit.utf8Len_append]
    have := Char.utf8Size_pos x
    have := Char.utf8Size_pos y
    omega
  rw [run_iterate_succ]
  simp only [wideBody, List.cons_append, run, hx', Bool.false_eq_true, if_false, hlen, hw]
  unfold wideKept
  by_cases hs : n ≠ 2 ∨ trunc = true
  · rw [if_pos (by simpa using hs), if_pos hs, escape_run ha]
    rw [List.flatMap_cons]
    have hL := Emit.utf8Len_append (acc ++ escape (256 * b1 + b2)) ((wideKept trunc (n - 2) vs).flatMap escape)
    rw [List.append_assoc] at hL
    unfold grow
    by_cases hg : utf8Len (acc ++ escape (256 * b1 + b2)) < OUTPUT_LIMIT
    · rw [if_pos hg]
      simp only [run]
      rw [ih _ _ hg]
      unfold grow
      rw [List.append_assoc]
    · rw [if_neg hg]
      simp only [run]
      rw [if_neg (by omega)]
  · rw [if_neg (by simpa using hs), if_neg hs]
    exact ih _ _ ha

theorem char_at (r : Text) : exec demangle_char_literal (mk ('@' :: r) c ns ps) = .ok (64, mk r c ns ps) := by
  simp [demangle_char_literal, run]

theorem wide_loop {t : Text} {vs : List Nat} (h : EncWide t vs) (trunc : Bool) : ∀ (n m : Nat) (acc : Text),
    vs.length < m → utf8Len acc < OUTPUT_LIMIT →
    exec (SM.iterate m (wideBody trunc) (n, acc)) (mk (t ++ '@' :: rest) c ns ps) =
      grow acc ((wideKept trunc n vs).flatMap escape) (mk rest c ns ps) := by
  induction h with
  | nil =>
    intro n m acc hm ha
    obtain ⟨m, rfl⟩ : ∃ k, m = k + 1 := ⟨m - 1, by simp at hm; omega⟩
    rw [run_iterate_succ]
    simp [wideBody, run, grow, wideKept, ha]
  | @cons t1 t2 u b1 b2 vs h1 h2 hs ih =>
    intro n m acc hm ha
    obtain ⟨m, rfl⟩ : ∃ k, m = k + 1 := ⟨m - 1, by simp at hm; omega⟩
    obtain ⟨x, v, rfl, hx⟩ := encByte_head h1
    obtain ⟨y, v', rfl, hy⟩ := encByte_head h2
    simp only [List.length_cons] at hm
    rw [List.append_assoc, List.append_assoc]
    exact wide_cons (by simpa using hx) (encByte_lt h1) (encByte_lt h2) (fun r => encByte_run h1) (fun r => encByte_run h2)
      (fun n acc ha => ih n m acc (by omega) ha) ha
  | @consAt t1 u b1 vs h1 hs ih =>
    intro n m acc hm ha
    obtain ⟨m, rfl⟩ : ∃ k, m = k + 1 := ⟨m - 1, by simp at hm; omega⟩
    obtain ⟨x, v, rfl, hx⟩ := encByte_head h1
    simp only [List.length_cons] at hm
    rw [List.append_assoc]
    exact wide_cons (y := '@') (v' := []) (by simpa using hx) (encByte_lt h1) (by decide) (fun r => encByte_run h1) (fun r => char_at r)
      (fun n acc ha => ih n m acc (by omega) ha) ha

theorem wide_run {tn crc t : Text} {n : Nat} {vs : List Nat} (hn : EncNat tn n) (h0 : 2 ≤ n)
    (hcrc : '@' ∉ crc) (ht : EncWide t vs) :
    exec demangle_string_literal (mk (c!"@_1" ++ tn ++ crc ++ c!"@" ++ t ++ c!"@" ++ rest) c ns ps) =
      andThen (grow [] ((wideKept (decide (64 < n)) n vs).flatMap escape) (mk rest c ns ps)) fun x =>
        exec (intern (.EncodedStringLiteral none x.1 (decide (64 < n)) .Wchar)) x.2 := by
  have hnum := encNat_run (rest := crc ++ '@' :: (t ++ '@' :: rest)) (c := c) (ns := ns) (ps := ps) hn
  have hsplit : splitAtBytes (utf8Len crc + 1) (crc ++ '@' :: (t ++ '@' :: rest)) =
      some (crc ++ ['@'], t ++ '@' :: rest) := by
    have := splitAtBytes_len (crc ++ ['@']) (t ++ '@' :: rest)
    rw [Emit.utf8Len_append, show utf8Len ['@'] = 1 from rfl] at this
    simpa using this
  have hbytes := tryBytes_hit (c := c) (ns := ns) (ps := ps) _ hsplit (by simp)
  have hne : (MStr.new (t ++ '@' :: rest)).is_empty = false := by cases t <;> rfl
  have hlen : vs.length < (t ++ '@' :: rest).length + 1 := by
    have : vs.length ≤ t.length := by
      clear hnum hsplit hbytes hne
      induction ht with
      | nil => simp
      | cons h h2 hs ih =>
        obtain ⟨x, u, rfl, _⟩ := encByte_head h
        simp; omega
      | consAt h hs ih => simp; omega
    simp; omega
  have hloop := wide_loop (rest := rest) (c := c) (ns := ns) (ps := ps) ht (decide (64 < n)) n _ [] hlen (by decide)
  have hn1 : ¬ (n < 2) := by omega
  unfold demangle_string_literal
  simp only [List.cons_append, List.append_assoc, List.nil_append]
  simp only [run, List.drop, List.length_cons, List.length_nil, beq_self_eq_true, if_true, List.isPrefixOf,
    Bool.and_self, Nat.reduceAdd, Char.reduceBEq, Bool.false_eq_true, if_false, hnum,
    Bool.or_eq_true, decide_eq_true_eq, false_or, hn1, MStr.find_char,
    findChar_at _ hcrc, hbytes, hne, List.drop_succ_cons, gt_iff_lt]
  rw [hloop]

theorem wideKept_shown (n : Nat) (h : 2 ≤ n) (vs : List Nat) : wideKept (decide (64 < n)) n vs = wideShown n vs := by
  unfold wideShown
  by_cases hn : 64 < n
  · rw [if_neg (by omega), decide_eq_true hn, wideKept_trunc]
  · rw [decide_eq_false hn]
    have key : ∀ (vs : List Nat) (m : Nat), wideKept false m vs = if m % 2 = 0 ∧ 2 ≤ m then vs.eraseIdx (m / 2 - 1) else vs := by
      intro vs
      induction vs with
      | nil => intro m; simp [wideKept]
      | cons v vs ih =>
        intro m
        unfold wideKept
        rw [ih]
        by_cases h2 : m = 2
        · subst h2; simp
        · rw [if_pos (.inl h2)]
          by_cases he : m % 2 = 0 ∧ 2 ≤ m
          · rw [if_pos he, if_pos (by omega)]
            obtain ⟨k, hk⟩ : ∃ k, m / 2 - 1 = k + 1 := ⟨m / 2 - 2, by omega⟩
            rw [hk, List.eraseIdx_cons_succ]
            congr 2
            omega
          · rw [if_neg he, if_neg (by omega)]
    rw [key]
    by_cases he : n % 2 = 0
    · rw [if_pos ⟨he, h⟩, if_pos (by omega)]
    · rw [if_neg (by omega), if_neg (by omega)]

end Undname
