/-
  String literals.
-/
import Verif.Proof.Leaf

namespace Undname
variable {T : TSpec} {A B : Handle → Prop} {s s' : St}

/-- All characters are printable ASCII. -/
def Printable (t : Text) : Prop := ∀ c ∈ t, isPrintable c = true

theorem Printable.append {a b : Text} (ha : Printable a) (hb : Printable b) : Printable (a ++ b) := by
  intro c hc
  rcases List.mem_append.1 hc with h | h
  · exact ha c h
  · exact hb c h

theorem unchecked_ok (hi : Inv T A s) {o : Option Nat} (ho : ∃ b, o = some b) {Q : Nat → St → Prop}
    (hq : ∀ b, o = some b → Q b s) : Tr T A (demangle_char_literal.unchecked o) Q s := by
  obtain ⟨b, rfl⟩ := ho
  exact Tr.pure hi (hq b rfl)

theorem getElem?_some_of_lt {l : List Nat} {i : Nat} (h : i < l.length) : ∃ b, l[i]? = some b :=
  ⟨l[i], List.getElem?_eq_getElem h⟩

theorem charDigitTable_lt {b : Nat} (h : b ∈ charDigitTable) : b < 256 := by
  revert b; decide

theorem charLetterTable_lt {base b : Nat} (h : b ∈ charLetterTable base) (hb : base + 25 < 256) :
    b < 256 := by
  simp only [charLetterTable, List.mem_map, List.mem_range] at h
  obtain ⟨a, ha, rfl⟩ := h
  omega

theorem tr_char_literal (hi : Inv T A s) :
    Tr T A demangle_char_literal (fun b s' => Same s s' ∧ s'.len < s.len ∧ b < 256) s := by
  unfold demangle_char_literal
  refine Tr.bind (tr_expectAny hi _) ?_
  intro c s1 hi1 hs1 h1
  refine Tr.ite (fun _ => ?_) fun _ => ?_
  · refine Tr.bind (tr_expectAny hi1 _) ?_
    intro c s2 hi2 hs2 h2
    have hl : s2.len < s.len := by have := h1.2.1; have := hs2.len; omega
    have hsame := h1.1.trans h2.1
    refine Tr.ite (fun _ => ?_) fun _ => ?_
    · refine Tr.bind (tr_2chars hi2) ?_
      intro o s3 hi3 hs3 h3
      refine Tr.okOrB fun p _ => ?_
      refine Tr.okOrB fun c1 h1 => ?_
      refine Tr.okOrB fun c2 h2 => ?_
      refine Tr.pure hi3 ⟨hsame.trans h3, by have := hs3.len; omega, ?_⟩
      have hc2 : c2 < 16 := by
        unfold try_convert_rebased_ascii_hexdigit_to_number at h2
        split at h2
        · next hx =>
          have := hexdigit_lt hx
          have hb : p.2.toNat ≤ 80 := by
            simp only [is_rebased_ascii_hexdigit, Bool.and_eq_true, decide_eq_true_eq] at hx
            exact hx.2
          split at h2
          · simp only [Option.some.injEq] at h2
            omega
          · simp only [Option.some.injEq] at h2
            rw [← h2]
            show 10 + p.2.toNat - 75 < 16
            omega
        · cases h2
      exact Nat.or_lt_two_pow (n := 8) (Nat.mod_lt _ (by decide)) (by omega)
    refine Tr.ite (fun hd => ?_) fun _ => ?_
    · simp only [isDigit, Bool.and_eq_true, decide_eq_true_eq] at hd
      have h3 : c.toNat ≤ 57 := hd.2
      refine unchecked_ok hi2 (getElem?_some_of_lt ?_) fun b hb =>
        ⟨hsame, hl, charDigitTable_lt (List.mem_of_getElem? hb)⟩
      show c.toNat - 48 < 10
      omega
    refine Tr.ite (fun hd => ?_) fun _ => ?_
    · simp only [isLower, Bool.and_eq_true, decide_eq_true_eq] at hd
      have h3 : c.toNat ≤ 122 := hd.2
      refine unchecked_ok hi2 (getElem?_some_of_lt ?_) fun b hb =>
        ⟨hsame, hl, charLetterTable_lt (List.mem_of_getElem? hb) (by decide)⟩
      simp only [charLetterTable, List.length_map, List.length_range]
      show c.toNat - 97 < 26
      omega
    refine Tr.ite (fun hd => ?_) fun _ => Tr.err
    · simp only [isUpper, Bool.and_eq_true, decide_eq_true_eq] at hd
      have h3 : c.toNat ≤ 90 := hd.2
      refine unchecked_ok hi2 (getElem?_some_of_lt ?_) fun b hb =>
        ⟨hsame, hl, charLetterTable_lt (List.mem_of_getElem? hb) (by decide)⟩
      simp only [charLetterTable, List.length_map, List.length_range]
      show c.toNat - 65 < 26
      omega
  · exact Tr.ite (fun hc => Tr.pure hi1 ⟨h1.1, h1.2.1, hc⟩) fun _ => Tr.err

theorem tr_wchar_literal (hi : Inv T A s) :
    Tr T A demangle_wchar_literal (fun _ s' => Same s s' ∧ s'.len < s.len) s := by
  unfold demangle_wchar_literal
  refine Tr.bind (tr_char_literal hi) ?_
  intro c1 s1 hi1 hs1 h1
  refine Tr.bind (tr_char_literal hi1) ?_
  intro c2 s2 hi2 hs2 h2
  exact Tr.pure hi2 ⟨h1.1.trans h2.1, by have := h1.2.1; have := hs2.len; omega⟩

theorem digitChar16 : ∀ n < 16, isPlain (Nat.digitChar n).toUpper = true := by decide

theorem mem_toDigitsCore16 (fuel n : Nat) (l : List Char) (c : Char)
    (hl : ∀ d ∈ l, ∃ k < 16, d = Nat.digitChar k) (h : c ∈ Nat.toDigitsCore 16 fuel n l) :
    ∃ k < 16, c = Nat.digitChar k := by
  induction fuel generalizing n l with
  | zero => exact hl c (by simpa [Nat.toDigitsCore] using h)
  | succ f ih =>
    have hl' : ∀ d ∈ Nat.digitChar (n % 16) :: l, ∃ k < 16, d = Nat.digitChar k := by
      intro d hd
      rcases List.mem_cons.1 hd with rfl | hd
      · exact ⟨n % 16, Nat.mod_lt _ (by decide), rfl⟩
      · exact hl d hd
    unfold Nat.toDigitsCore at h
    simp only at h
    split at h
    · exact hl' c h
    · exact ih _ _ hl' h

theorem hex02_plain (n : Nat) : ∀ c ∈ hex02 n, isPlain c = true := by
  have key : ∀ c ∈ (Nat.toDigits 16 n).map Char.toUpper, isPlain c = true := by
    intro c hc
    obtain ⟨d, hd, rfl⟩ := List.mem_map.1 hc
    obtain ⟨k, hk, rfl⟩ := mem_toDigitsCore16 _ _ _ _ (by simp) hd
    exact digitChar16 k hk
  intro c hc
  unfold hex02 at hc
  simp only at hc
  split at hc
  · rcases List.mem_cons.1 hc with rfl | hc
    · decide
    · exact key c hc
  · exact key c hc

theorem isPlain_printable {c : Char} (h : isPlain c = true) : isPrintable c = true := by
  simp only [isPlain, Bool.and_eq_true] at h
  exact h.1

theorem toNat_ofNat {c : Nat} (h : c.isValidChar) : (Char.ofNat c).toNat = c := by
  rw [Char.ofNat, dif_pos h]; rfl

theorem ite_ex {b : Prop} [Decidable b] {x y : Option Text} (h1 : b → ∃ t, x = some t ∧ Printable t)
    (h0 : ¬ b → ∃ t, y = some t ∧ Printable t) : ∃ t, (if b then x else y) = some t ∧ Printable t := by
  by_cases h : b
  · rw [if_pos h]; exact h1 h
  · rw [if_neg h]; exact h0 h

/-- The escaping function is total and yields printable text (C27). -/
theorem escapedChar_ok (c : Nat) : ∃ t, escapedChar c = some t ∧ Printable t := by
  unfold escapedChar
  iterate 11
    refine ite_ex (fun _ => ⟨_, rfl, by intro c hc; revert c; decide⟩) fun _ => ?_
  refine ite_ex (fun h => ?_) fun _ => ?_
  · simp only [Bool.and_eq_true, decide_eq_true_eq] at h
    have hv : c.isValidChar := Or.inl (by omega)
    rw [if_pos hv]
    refine ⟨_, rfl, ?_⟩
    intro d hd
    simp only [List.mem_singleton] at hd
    subst hd
    simp only [isPrintable, toNat_ofNat hv, Bool.and_eq_true, decide_eq_true_eq]
    exact h
  · refine ⟨_, rfl, Printable.append (by intro c hc; revert c; decide) ?_⟩
    intro d hd
    exact isPlain_printable (hex02_plain c d hd)

theorem wp_escaped (c : Nat) {t : Text} (ht : Printable t) :
    wp (output_escaped_char c) (fun _ t' => Printable t') t := by
  obtain ⟨u, hu, hp⟩ := escapedChar_ok c
  unfold output_escaped_char
  rw [hu]
  simp only
  unfold wp write
  split
  · next heq =>
    split at heq
    · simp only [Except.ok.injEq, Prod.mk.injEq] at heq
      obtain ⟨_, rfl⟩ := heq
      exact ht.append hp
    · simp at heq
  · next heq =>
    split at heq
    · simp at heq
    · simp only [Except.error.injEq, Fail.err.injEq] at heq; subst heq; trivial
  · next heq => split at heq <;> simp at heq

theorem tr_runW (hi : Inv T A s) {m : W Unit} {t : Text} {Q : Text → Prop}
    (h : wp m (fun _ t' => Q t') t) : Tr T A (runW m t) (fun t' s' => Q t' ∧ s' = s) s := by
  unfold Tr wp runW
  unfold wp at h
  cases hm : m t with
  | error e => rw [hm] at h; cases e <;> simp_all
  | ok p =>
    rw [hm] at h
    exact ⟨hi, Step.refl s, h, rfl⟩

theorem tr_wide (hi : Inv T A s) (b : Bool) (x : Nat × Text) (hx : Printable x.2) :
    Tr T A (wideBody b x) (fun y s' => match y with
      | .inl x' => Printable x'.2 ∧ s'.len < s.len
      | .inr t => Printable t) s := by
  unfold wideBody
  refine Tr.bind (tr_tryChar hi '@') ?_
  intro e s1 hi1 hs1 h1
  refine Tr.ite (fun _ => Tr.pure hi1 hx) fun _ => ?_
  refine Tr.query ?_
  refine Tr.ite (fun _ => Tr.err) fun _ => ?_
  refine Tr.bind (tr_wchar_literal hi1) ?_
  intro w s2 hi2 hs2 h2
  have hl : s2.len < s.len := by have := h2.2; have := hs1.len; omega
  have hend : ∀ t s3, Inv T A s3 → Step T s2 s3 → Printable t →
      Tr T A (pure (.inl (x.1 - 2, t)) : P ((Nat × Text) ⊕ Text)) (fun y s' => match y with
      | .inl x' => Printable x'.2 ∧ s'.len < s.len
      | .inr t => Printable t) s3 := by
    intro t s3 hi3 hs3 ht
    exact Tr.pure hi3 ⟨ht, by have := hs3.len; omega⟩
  simp only
  split
  · refine Tr.bind (tr_runW hi2 (wp_escaped w hx)) ?_
    rintro t s3 hi3 hs3 ⟨ht, _⟩
    exact hend t s3 hi3 hs3 ht
  · exact hend _ _ hi2 (Step.refl _) hx

theorem tr_narrow (hi : Inv T A s) (l : List Nat) (hb : ∀ b ∈ l, b < 256) :
    Tr T A (narrowBody l) (fun y s' => match y with
      | .inl l => (∀ b ∈ l, b < 256) ∧ s'.len < s.len
      | .inr l => ∀ b ∈ l, b < 256) s := by
  unfold narrowBody
  refine Tr.bind (tr_tryChar hi '@') ?_
  intro e s1 hi1 hs1 h1
  refine Tr.ite (fun _ => Tr.pure hi1 hb) fun _ => ?_
  refine Tr.query ?_
  refine Tr.ite (fun _ => Tr.err) fun _ => ?_
  refine Tr.bind (tr_char_literal hi1) ?_
  intro w s2 hi2 hs2 h2
  refine Tr.ite (fun _ => Tr.pure hi2 ⟨?_, by have := h2.2.1; have := hs1.len; omega⟩) fun _ => Tr.err
  intro b hb'
  rcases List.mem_append.1 hb' with h | h
  · exact hb b h
  · simp only [List.mem_singleton] at h; subst h; exact h2.2.2

theorem tr_decode (hi : Inv T A s) (bytes : List Nat) (cb n : Nat) (b : Bool) (x : Nat × Text)
    (hx : Printable x.2) :
    Tr T A (decodeBody bytes cb n b x) (fun y s' => Printable y.2 ∧ s'.len = s.len) s := by
  unfold decodeBody
  refine Tr.okOrB fun next _ => ?_
  simp only
  split
  · refine Tr.bind (tr_runW hi (wp_escaped next hx)) ?_
    rintro t s1 hi1 hs1 ⟨ht, rfl⟩
    exact Tr.pure hi1 ⟨ht, rfl⟩
  · exact Tr.pure hi ⟨hx, rfl⟩

/-- The result is a string literal node holding printable text. -/
def LitQ (T : TSpec) (A : Handle → Prop) (s : St) (h : Handle) (s' : St) : Prop :=
  (Good T s'.cache A .sym h ∧ s'.len < s.len) ∧
    ∃ t b ck, s'.cache[h]? = some (.EncodedStringLiteral none t b ck) ∧ Printable t

theorem tr_string_literal (hi : Inv T A s) (hC : T.inp c!"?_C") :
    Tr T A demangle_string_literal (LitQ T A s) s := by
  unfold demangle_string_literal
  refine Tr.bind (tr_expectStr hi c!"@_" _) ?_
  intro _ s1 hi1 hs1 h1
  refine Tr.bind (tr_expectAny hi1 _) ?_
  intro f s2 hi2 hs2 h2
  have hend : ∀ wide : Bool, Tr T A (do
      let (string_byte_len, is_negative) ← demangle_number
      if is_negative || string_byte_len < (if wide then 2 else 1) then SM.err .InvalidStringLiteral
      else do
        let crc_end_pos ← query fun m => m.find_char '@'
        let crc_end_pos ← SM.okOr .InvalidStringLiteral crc_end_pos
        let crc ← tryBytes (crc_end_pos + 1)
        let _ ← SM.okOr .InvalidStringLiteral crc
        let e ← query MStr.is_empty
        if e then SM.err .InvalidStringLiteral
        else if wide then do
          let is_truncated := decide (string_byte_len > 64)
          let t ← loopInput (wideBody is_truncated) (string_byte_len, [])
          intern (.EncodedStringLiteral none t is_truncated .Wchar)
        else do
          let bytes ← loopInput narrowBody []
          let is_truncated := decide (string_byte_len > bytes.length)
          let char_bytes ← SM.okOr .InvalidStringLiteral (guess_char_byte_size bytes string_byte_len)
          let char ← SM.okOr .InvalidStringLiteral (charKindOf char_bytes)
          let num_chars := bytes.length / char_bytes
          let (_, t) ← SM.forN num_chars (decodeBody bytes char_bytes num_chars is_truncated) (0, [])
          intern (.EncodedStringLiteral none t is_truncated char))
      (LitQ T A s) s2 := by
    intro wide
    refine Tr.bind (tr_number hi2) ?_
    rintro ⟨n, neg⟩ s3 hi3 hs3 h3
    refine Tr.ite (fun _ => Tr.err) fun _ => ?_
    refine Tr.query ?_
    refine Tr.okOrB fun pos _ => ?_
    refine Tr.bind (tr_tryBytes hi3 _) ?_
    intro o s4 hi4 hs4 h4
    refine Tr.okOrB fun _ _ => ?_
    refine Tr.query ?_
    refine Tr.ite (fun _ => Tr.err) fun _ => ?_
    have hl : s4.len < s.len := by
      have := hs4.len; have := hs3.len; have := hs2.len; have := h1.2; omega
    have fin : ∀ t b ck, Printable t → ∀ s5, Inv T A s5 → Step T s4 s5 →
        Tr T A (intern (.EncodedStringLiteral none t b ck))
        (LitQ T A s) s5 := by
      intro t b ck ht s5 hi5 hs5
      refine (tr_intern_good (nd := .EncodedStringLiteral none t b ck) hi5 .sym rfl (T.lit_ok hC ht)
        (by simp [kids, kidsOf, optKid])).mono ?_
      rintro h s6 hi6 hs6 ⟨h6, rfl, h8, _⟩
      exact ⟨⟨h6, by have := hs6.len; have := hs5.len; omega⟩, t, b, ck, by rw [h8]; simp, ht⟩
    refine Tr.ite (fun _ => ?_) fun _ => ?_
    · refine Tr.bind (Q := fun t _ => Printable t) (Tr.loop (fun (x : Nat × Text) _ => Printable x.2) hi4
        (by simp [Printable]) ?_) ?_
      · intro x s5 hi5 hs5 hx
        exact (tr_wide hi5 _ x hx).mono fun y _ _ _ h => by cases y <;> exact h
      · intro t s5 hi5 hs5 ht
        exact fin t _ _ ht s5 hi5 hs5
    · refine Tr.bind (Q := fun l _ => ∀ b ∈ l, b < 256) (Tr.loop (fun (l : List Nat) _ => ∀ b ∈ l, b < 256) hi4
        (by simp) ?_) ?_
      · intro x s5 hi5 hs5 hx
        exact (tr_narrow hi5 x hx).mono fun y _ _ _ h => by cases y <;> exact h
      · intro bytes s5 hi5 hs5 hb
        refine Tr.okOrB fun cb _ => ?_
        refine Tr.okOrB fun ck _ => ?_
        refine Tr.bind (Q := fun (x : Nat × Text) s' => Printable x.2) (Tr.forN (fun (x : Nat × Text) _ => Printable x.2) hi5
          (by simp [Printable]) ?_) ?_
        · intro x s6 hi6 hs6 hx
          exact (tr_decode hi6 bytes cb _ _ x hx).mono fun _ _ _ _ h => h.1
        · rintro ⟨_, t⟩ s6 hi6 hs6 ht
          exact fin t _ _ ht s6 hi6 (hs5.trans hs6)
  simp only
  split
  · exact hend true
  · split
    · exact hend false
    · exact Tr.err

end Undname
