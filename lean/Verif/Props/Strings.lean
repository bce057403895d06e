/-
  Property theorems C26-C28: string literals.
-/
import Verif.Proof.Literals
import Verif.Proof.Eval
import Verif.Proof.Top

namespace Undname
namespace Props

open Spec

/-- The mangled name of a narrow literal of `n` bytes, of which some are given. -/
def NarrowLiteral (m : Text) (n : Nat) (bytes : List Nat) : Prop :=
  ∃ tn crc t rest, EncNat tn n ∧ '@' ∉ crc ∧ EncBytes t bytes ∧
    m = c!"??_C@_0" ++ tn ++ crc ++ c!"@" ++ t ++ c!"@" ++ rest

/-- The mangled name of a wide literal of `n` bytes, of which some characters are given. -/
def WideLiteral (m : Text) (n : Nat) (vs : List Nat) : Prop :=
  ∃ tn crc t rest, EncNat tn n ∧ '@' ∉ crc ∧ EncWide t vs ∧
    m = c!"??_C@_1" ++ tn ++ crc ++ c!"@" ++ t ++ c!"@" ++ rest

/-- **C26**, narrow literals: the name of a literal of up to 128 given bytes demangles to the text of those
bytes, whatever the encodings chosen for them, the checksum and what follows. -/
theorem C26_narrow (E : Env) {m : Text} {n : Nat} {bytes : List Nat} (h : NarrowLiteral m n bytes)
    (hn : n ≠ 0) (hb : bytes.length ≤ 128) : demangle E m = .ok (.ok (narrowText n bytes)) := by
  obtain ⟨tn, crc, t, rest, hnum, hcrc, ht, rfl⟩ := h
  obtain ⟨k, hk, hrun⟩ := narrow_run (rest := rest) (c := []) (ns := []) (ps := []) hnum hn hcrc ht hb (by decide)
  have hp : parse (render E) (c!"??_C@_0" ++ tn ++ crc ++ c!"@" ++ t ++ c!"@" ++ rest) = _ :=
    (literal_parse (render E) _).trans hrun
  have hw := charWidth_cases n bytes
  have htext : narrowText n bytes = k.prefixText ++ (if bytes.length < n then chars (charWidth n bytes) bytes
          else (chars (charWidth n bytes) bytes).dropLast).flatMap escape ++ c!"\"" ++
        (if decide (bytes.length < n) then c!"..." else []) := by
    have hpre : k.prefixText = literalPrefix (charWidth n bytes) := by
      rcases hw with h | h | h <;> rw [h] at hk ⊢ <;> cases hk <;> rfl
    unfold narrowText
    simp only [hpre, decide_eq_true_eq]
    by_cases h : bytes.length < n
    · simp [h]
    · simp [h]
  have hem : Emit (render E (mk rest [.EncodedStringLiteral none
        ((if bytes.length < n then chars (charWidth n bytes) bytes
          else (chars (charWidth n bytes) bytes).dropLast).flatMap escape) (decide (bytes.length < n)) k] [] []).cache
        .ISymbolNode 0) [] (narrowText n bytes) := by
    rw [htext]
    exact Emit.lift (resolve_get rfl rfl) Emit.write
  rw [demangle_emit hp hem]
  have hlen : (narrowText n bytes).length ≤ 10 * 128 + 6 := by
    have hN : bytes.length / charWidth n bytes ≤ 128 := Nat.le_trans (Nat.div_le_self _ _) hb
    have hch : ∀ x ∈ chars (charWidth n bytes) bytes, (escape x).length ≤ 10 := by
      intro x hx
      simp only [chars, List.mem_map, List.mem_range] at hx
      obtain ⟨i, hi, rfl⟩ := hx
      apply escape_length
      refine Nat.lt_of_lt_of_le (littleEndian_lt fun b hb' =>
        encBytes_lt ht b (List.mem_of_mem_drop (List.mem_of_mem_take hb'))) ?_
      exact Nat.le_trans (Nat.pow_le_pow_right (by decide) (show _ ≤ 4 by rw [List.length_take]; omega)) (by decide)
    have hfm : ∀ l : List Nat, (∀ x ∈ l, (escape x).length ≤ 10) → (l.flatMap escape).length ≤ 10 * l.length := by
      intro l
      induction l with
      | nil => simp
      | cons a l ih =>
        intro h
        have := ih fun x hx => h x (by simp [hx])
        have := h a (by simp)
        rw [List.flatMap_cons, List.length_append, List.length_cons]; omega
    have hl : (chars (charWidth n bytes) bytes).length = bytes.length / charWidth n bytes := by simp [chars]
    have h1 := hfm _ hch
    have h2 := hfm (chars (charWidth n bytes) bytes).dropLast fun x hx => hch x (List.dropLast_subset _ hx)
    have hd : (chars (charWidth n bytes) bytes).dropLast.length ≤ 128 := by rw [List.length_dropLast]; omega
    have hpl : (literalPrefix (charWidth n bytes)).length ≤ 2 := by
      rcases hw with h | h | h <;> rw [h] <;> decide
    unfold narrowText
    simp only [List.length_append]
    split <;> simp only [List.length_append, List.length_cons, List.length_nil] <;> omega
  have := utf8Len_le (narrowText n bytes)
  unfold bounded
  rw [if_pos (by omega)]

theorem chars_one (bytes : List Nat) : chars 1 bytes = bytes := by
  apply List.ext_getElem
  · simp [chars]
  · intro i h1 h2
    simp only [chars, List.getElem_map, List.getElem_range, Nat.mul_one]
    rw [List.drop_eq_getElem_cons h2, List.take_succ_cons, List.take_zero]
    simp [littleEndian]

/-- **C26**, complete text: a literal of `s` and a terminator, without further zero bytes, demangles to `s`
between quotes, each byte escaped as needed. -/
theorem C26_text (E : Env) {m : Text} {s : List Nat} (hs : 0 ∉ s) (hl : s.length < 128)
    (h : NarrowLiteral m (s.length + 1) (s ++ [0])) :
    demangle E m = .ok (.ok (c!"\"" ++ s.flatMap escape ++ c!"\"")) := by
  rw [C26_narrow E h (by omega) (by simp; omega)]
  have h2 : ∀ l : List Nat, ¬ (l ++ [0, 0] <:+ s ++ [0]) := by
    rintro l ⟨u, hu⟩
    have : u ++ (l ++ [0]) ++ [0] = s ++ [0] := by simpa using hu
    have := List.append_cancel_right this
    exact hs (this ▸ by simp)
  have hz : s.count 0 = 0 := List.count_eq_zero.2 hs
  have hw : charWidth (s.length + 1) (s ++ [0]) = 1 := by
    unfold charWidth
    rw [if_neg (c := [0, 0, 0, 0] <:+ s ++ [0] ∧ _) (fun h => h2 [0, 0] h.1), if_neg (c := [0, 0] <:+ s ++ [0]) (h2 [])]
    have hc : (s ++ [0]).count 0 = 1 := by simp [hz]
    rw [hc, List.length_append, List.length_singleton]
    repeat' split
    all_goals first | rfl | omega
  unfold narrowText
  simp [hw, chars_one, literalPrefix]

/-- **C26**, cut-off text: only the first bytes of a longer literal are given; all of them are shown, followed
by dots. -/
theorem C26_cut (E : Env) {m : Text} {s : List Nat} {n : Nat} (hs : 0 ∉ s) (hl : s.length ≤ 128)
    (h3 : 3 ≤ s.length) (hn : s.length < n) (h : NarrowLiteral m n s) :
    demangle E m = .ok (.ok (c!"\"" ++ s.flatMap escape ++ c!"\"...")) := by
  rw [C26_narrow E h (by omega) hl]
  have h2 : ∀ l : List Nat, ¬ (l ++ [0, 0] <:+ s) := by
    rintro l ⟨u, rfl⟩
    exact hs (by simp)
  have hw : charWidth n s = 1 := by
    unfold charWidth
    rw [if_neg (c := [0, 0, 0, 0] <:+ s ∧ _) (fun h => h2 [0, 0] h.1), if_neg (c := [0, 0] <:+ s) (h2 [])]
    rw [List.count_eq_zero.2 hs]
    repeat' split
    all_goals first | rfl | omega
  unfold narrowText
  simp [hw, chars_one, literalPrefix, hn]

theorem wide_demangle (E : Env) {m : Text} {n : Nat} {vs : List Nat} (h : WideLiteral m n vs) (hn : 2 ≤ n) :
    demangle E m = .ok (bounded (c!"L\"" ++ (wideKept (decide (64 < n)) n vs).flatMap escape ++ c!"\"" ++
      (if decide (64 < n) then c!"..." else []))) := by
  obtain ⟨tn, crc, t, rest, hnum, hcrc, ht, rfl⟩ := h
  have hrun := wide_run (rest := rest) (c := []) (ns := []) (ps := []) hnum hn hcrc ht
  have hp : parse (render E) (c!"??_C@_1" ++ tn ++ crc ++ c!"@" ++ t ++ c!"@" ++ rest) = _ :=
    (literal_parse (render E) _).trans hrun
  generalize (wideKept (decide (64 < n)) n vs).flatMap escape = u at hp ⊢
  unfold grow at hp
  rw [List.nil_append] at hp
  by_cases hu : utf8Len u < OUTPUT_LIMIT
  · rw [if_pos hu] at hp
    simp only [run, List.length_nil] at hp
    rw [if_pos (by decide)] at hp
    refine demangle_emit hp ?_
    exact Emit.lift (resolve_get rfl rfl) Emit.write
  · rw [if_neg hu] at hp
    rw [demangle_error hp]
    unfold bounded
    rw [if_neg]
    simp only [Emit.utf8Len_append]
    have : OUTPUT_LIMIT = 2 ^ 20 := rfl
    omega

/-- **C26**, wide literals: a complete literal of up to 32 characters demangles to its text without the last
character (the terminator). -/
theorem C26_wide (E : Env) {m : Text} {vs : List Nat} (h0 : vs ≠ []) (hl : vs.length ≤ 32)
    (h : WideLiteral m (2 * vs.length) vs) :
    demangle E m = .ok (bounded (c!"L\"" ++ vs.dropLast.flatMap escape ++ c!"\"")) := by
  have hpos : 0 < vs.length := List.length_pos_iff.2 h0
  rw [wide_demangle E h (by omega)]
  have : decide (64 < 2 * vs.length) = false := decide_eq_false (by omega)
  rw [this, wideKept_exact]
  simp

/-- **C26**, wide literals longer than 64 bytes: all the given characters are shown, followed by dots. -/
theorem C26_wide_cut (E : Env) {m : Text} {n : Nat} {vs : List Nat} (hn : 64 < n) (h : WideLiteral m n vs) :
    demangle E m = .ok (bounded (c!"L\"" ++ vs.flatMap escape ++ c!"\"...")) := by
  rw [wide_demangle E h (by omega), decide_eq_true hn, wideKept_trunc]
  simp

/-- Every byte can be encoded, so every byte string has a mangled name. -/
theorem C26_every_byte (b : Nat) (hb : b < 256) : ∃ t, EncByte t b := by
  have hx := (isHex_ofNat (k := b / 16) (by omega))
  have hy := (isHex_ofNat (k := b % 16) (by omega))
  refine ⟨_, (?_ : EncByte ['?', '$', Char.ofNat ('A'.toNat + b / 16), Char.ofNat ('A'.toNat + b % 16)] b)⟩
  have := EncByte.hex _ _ hx.1 hy.1
  rwa [hx.2, hy.2, show 16 * (b / 16) + b % 16 = b by omega] at this

/-- A literal that meets the hypotheses: "hi", a line break, and the terminator. -/
example : NarrowLiteral c!"??_C@_03KKJ@hi?6?$AA@" 4 ([0x68, 0x69, 0x0A] ++ [0]) := by
  refine ⟨c!"3", c!"KKJ", c!"hi?6?$AA", [], EncNat.digit 3 (by decide), by decide, ?_, rfl⟩
  exact .cons (.plain 'h' (by decide) (by decide) (by decide)) (.cons (.plain 'i' (by decide) (by decide) (by decide))
    (.cons (.punct 6 '\n' rfl) (.cons (.hex 'A' 'A' (by decide) (by decide)) .nil)))

/-- A wide literal that meets the hypotheses. -/
example : WideLiteral c!"??_C@_13KK@?$AAh?$AA?$AA@" (2 * [0x68, 0].length) [0x68, 0] := by
  refine ⟨c!"3", c!"KK", c!"?$AAh?$AA?$AA", [], EncNat.digit 3 (by decide), by decide, ?_, rfl⟩
  exact .cons (t1 := c!"?$AA") (.hex 'A' 'A' (by decide) (by decide)) (.plain 'h' (by decide) (by decide) (by decide))
    (.cons (t1 := c!"?$AA") (t2 := c!"?$AA") (.hex 'A' 'A' (by decide) (by decide)) (.hex 'A' 'A' (by decide) (by decide)) .nil)

/-- **C28**, width: for a non-zero length the guess is the specified width, and it is 1, 2 or 4. -/
theorem C28_width (bytes : List Nat) {n : Nat} (hn : n ≠ 0) :
    ∃ w, guess_char_byte_size bytes n = some w ∧ (w = 1 ∨ w = 2 ∨ w = 4) ∧ w = charWidth n bytes :=
  ⟨_, guess_eq hn bytes, charWidth_cases n bytes, rfl⟩

/-- **C28**, decoding: every character that lies within the bytes is decoded, to the little-endian value of
its bytes. -/
theorem C28_decode {bytes : List Nat} {w i : Nat} (h : ∀ b ∈ bytes, b < 256) (hw : w = 1 ∨ w = 2 ∨ w = 4)
    (hi : i < bytes.length / w) :
    decode_multi_byte_char bytes i w = some (littleEndian ((bytes.drop (i * w)).take w)) := decode_eq h hw hi

/-- **C28**, bounds: a character that does not lie within the bytes is rejected, not read. -/
theorem C28_bounds {bytes : List Nat} {w i : Nat} (hi : bytes.length < (i + 1) * w) :
    decode_multi_byte_char bytes i w = none := by
  have e : (i + 1) * w = i * w + w := Nat.succ_mul i w
  unfold decode_multi_byte_char
  split
  · simp only
    split
    · rfl
    · rw [if_pos (by rw [List.length_drop]; omega)]
  · rfl

example : guess_char_byte_size [0x61, 0, 0x62, 0, 0, 0] 6 = some 2 ∧
    decode_multi_byte_char [0x61, 0, 0x34, 0x12, 0, 0] 1 2 = some 0x1234 := by decide

/-- **C27**: the text of a string literal symbol is printable ASCII, whatever follows `??_C`. -/
theorem C27_literal_printable (E : Env) (rest : Text) {t : Text}
    (h : demangle E (c!"??_C" ++ rest) = .ok (.ok t)) : ∀ x ∈ t, 0x20 ≤ x.toNat ∧ x.toNat ≤ 0x7E := by
  have hi : Inv (charSpec (c!"??_C" ++ rest)) (fun _ => True) (mk rest [] [] []) := by
    refine ⟨rfl, ?_, Nat.zero_le _, Nat.zero_le _, Nat.zero_le _, ?_, ?_, fun _ _ => trivial⟩
    · intro c hc; exact List.mem_append_right _ hc
    · intro h hh; cases hh
    · intro h hh; cases hh
  have hC : (charSpec (c!"??_C" ++ rest)).inp c!"?_C" := by
    intro c hc; simp at hc ⊢; rcases hc with rfl | rfl | rfl <;> simp
  have htr : wp demangle_string_literal _ (mk rest [] [] []) := tr_string_literal hi hC
  have hd : demangle E (c!"??_C" ++ rest) = .ok (.ok t) := h
  unfold demangle demangle_into parse_into clear at h
  rw [literal_parse] at h
  unfold wp at htr
  unfold exec at h
  cases hp : demangle_string_literal (mk rest [] [] []) with
  | error f => rw [hp] at h; cases f <;> simp at h
  | ok p =>
    obtain ⟨hd', s⟩ := p
    rw [hp] at htr
    obtain ⟨_, _, _, u, b, ck, hn, hpr⟩ := htr
    have hem : Emit (render E s.cache .ISymbolNode hd') [] (ck.prefixText ++ u ++ c!"\"" ++ (if b then c!"..." else [])) := by
      refine Emit.lift (resolve_get hn rfl) ?_
      exact Emit.write
    have hdm := demangle_emit (E := E) (m := c!"??_C" ++ rest) (by rw [literal_parse]; exact hp) hem
    rw [hd] at hdm
    unfold bounded at hdm
    by_cases hlt : utf8Len (ck.prefixText ++ u ++ c!"\"" ++ (if b then c!"..." else [])) < 2 ^ 20
    · rw [if_pos hlt] at hdm
      injection hdm with hdm
      injection hdm with hdm
      subst hdm
      have : ∀ x ∈ ck.prefixText ++ u ++ c!"\"" ++ (if b then c!"..." else []), isPrintable x = true := by
        intro x hx
        simp only [List.mem_append] at hx
        rcases hx with ((hx | hx) | hx) | hx
        · revert x; cases ck <;> decide
        · exact hpr x hx
        · revert x; decide
        · revert x; cases b <;> decide
      intro x hx
      simpa [isPrintable] using this x hx
    · rw [if_neg hlt] at hdm
      injection hdm with hdm
      cases hdm

/-- The hypothesis is met by a literal with characters that need escapes. -/
example : demangle E0 c!"??_C@_05OMLEGLOC@h?$AAl?$NDo?6?$AA@" = .ok (.ok c!"\"h\\0l\\xD3o\\n\"") := by decide +kernel

end Props
end Undname
