/-
  What the text must have been when a string literal is read.
-/
import Verif.Proof.AccDecl

namespace Undname
open Spec (T Tbl Fits Cat Gram EncByte EncBytes EncWide EncNat EncInt)

section
variable {E : Env} {tb : Tbl} {s : Text} {c : Cache} {ns ps : List Handle}

theorem hexdigit_inv {x : Char} {d : Nat} (h : try_convert_rebased_ascii_hexdigit_to_number x = some d) : Spec.IsHex x := by
  unfold try_convert_rebased_ascii_hexdigit_to_number at h
  split at h
  · next hx => exact (isHex_iff x).1 hx
  · cases h

theorem two_inv {β : Type} {e : Error} {k : Char × Char → P β} {R : β → St → Prop}
    (h : ∀ x y u, s = x :: y :: u → After (k (x, y)) (mk u c ns ps) R) :
    After (onStr MStr.try_consume_2_chars >>= fun o => SM.okOr e o >>= k) (mk s c ns ps) R := by
  match s with
  | [] => exact After.step (a := none) (s' := mk [] c ns ps) rfl (After.bind_error rfl)
  | [x] => exact After.step (a := none) (s' := mk [x] c ns ps) rfl (After.bind_error rfl)
  | x :: y :: u => exact After.step (two_chars x y) (After.step rfl (h x y u rfl))

/-- A byte, or an `@`. -/
theorem charlit_inv : Wh demangle_char_literal (mk s c ns ps) (∃ t b u, s = t ++ u ∧ (EncByte t b ∨ t = c!"@" ∧ b = 64)) := by
  unfold demangle_char_literal
  refine After.expectAny fun y u e => ?_
  subst e
  refine After.iteB (fun hy => ?_) fun hy => ?_
  · obtain rfl : y = '?' := by simpa using hy
    refine After.expectAny fun z v e => ?_
    subst e
    refine After.iteB (fun hz => ?_) fun hz => After.iteB (fun hd => ?_) fun hd => After.iteB (fun hl => ?_) fun hl => After.iteB (fun hu => ?_) fun hu => After.err
    · obtain rfl : z = '$' := by simpa using hz
      refine two_inv fun a b w e => ?_
      subst e
      refine After.okOr fun d1 h1 => After.okOr fun d2 h2 => After.now ?_
      exact ⟨['?', '$', a, b], _, w, rfl, .inl (.hex a b (hexdigit_inv h1) (hexdigit_inv h2))⟩
    · obtain ⟨d, hd', rfl⟩ := isDigit_of hd
      have : ∃ x, Spec.punctuation[d]? = some x :=
        (by decide : ∀ d, d < 10 → (Spec.punctuation[d]?).isSome = true) d hd' |> Option.isSome_iff_exists.1
      obtain ⟨x, hx⟩ := this
      exact After.now ⟨['?', Char.ofNat ('0'.toNat + d)], _, v, rfl, .inl (.punct d x hx)⟩
    · have : ∃ i, i < 26 ∧ z = Char.ofNat ('a'.toNat + i) := by
        have h' : 97 ≤ z.toNat ∧ z.toNat ≤ 122 := by simpa [isLower, Char.le_def, UInt32.le_iff_toNat_le] using hl
        refine ⟨z.toNat - 97, by omega, ?_⟩
        have : 'a'.toNat + (z.toNat - 97) = z.toNat := by have : 'a'.toNat = 97 := rfl; omega
        rw [this, Char.ofNat_toNat]
      obtain ⟨i, hi, rfl⟩ := this
      exact After.now ⟨['?', Char.ofNat ('a'.toNat + i)], _, v, rfl, .inl (.lower i hi)⟩
    · have : ∃ i, i < 26 ∧ z = Char.ofNat ('A'.toNat + i) := by
        have h' : 65 ≤ z.toNat ∧ z.toNat ≤ 90 := by simpa [isUpper, Char.le_def, UInt32.le_iff_toNat_le] using hu
        refine ⟨z.toNat - 65, by omega, ?_⟩
        have : 'A'.toNat + (z.toNat - 65) = z.toNat := by have : 'A'.toNat = 65 := rfl; omega
        rw [this, Char.ofNat_toNat]
      obtain ⟨i, hi, rfl⟩ := this
      exact After.now ⟨['?', Char.ofNat ('A'.toNat + i)], _, v, rfl, .inl (.upper i hi)⟩
  · refine After.ite (fun hb => ?_) fun _ => After.err
    by_cases ha : y = '@'
    · subst ha
      exact After.now ⟨c!"@", 64, u, rfl, .inr ⟨rfl, rfl⟩⟩
    · exact After.now ⟨[y], y.toNat, u, rfl, .inl (.plain y hb (by simpa using hy) ha)⟩

theorem charlit_run {t u : Text} {b : Nat} (h : EncByte t b ∨ t = c!"@" ∧ b = 64) :
    exec demangle_char_literal (mk (t ++ u) c ns ps) = .ok (b, mk u c ns ps) := by
  rcases h with h | ⟨rfl, rfl⟩
  · exact encByte_run h
  · exact char_at u

/-- A byte where there is no `@`. -/
theorem charlit_first {t u : Text} {b : Nat} (h : EncByte t b ∨ t = c!"@" ∧ b = 64) (ha : (t ++ u).head? ≠ some '@') : EncByte t b := by
  rcases h with h | ⟨rfl, _⟩
  · exact h
  · exact (ha rfl).elim

theorem narrow_inv (k : Nat) : ∀ (acc : List Nat) (s : Text), acc.length ≤ 128 →
    Wh (SM.iterate k narrowBody acc) (mk s c ns ps) (∃ u bs R, s = u ++ '@' :: R ∧ EncBytes u bs ∧ acc.length + bs.length ≤ 128) := by
  induction k with
  | zero => intros; exact After.iter_zero
  | succ k ih =>
    intro acc s ha
    refine After.round ?_
    unfold narrowBody
    refine After.tryChar (fun u e => ?_) fun hA => ?_
    · exact After.pure ⟨[], [], u, e, .nil, by simpa using ha⟩
    · refine After.query (After.iteB (fun _ => After.err) fun _ => ?_)
      refine After.know charlit_inv ?_
      rintro ⟨t, b, u, rfl, ht⟩
      refine After.step (charlit_run ht) ?_
      refine After.ite (fun hl => ?_) fun _ => After.err
      refine After.pure (After.mono (ih _ _ (by simp; omega)) ?_)
      rintro _ _ ⟨v, bs, R, rfl, hv, hlen⟩
      refine ⟨t ++ v, b :: bs, R, by simp, .cons (charlit_first ht hA) hv, ?_⟩
      simp at hlen ⊢; omega

theorem runW_same {m : W Unit} {t : Text} {s : St} : After (runW m t) s fun _ s' => s' = s := by
  intro a s' e
  have : exec (runW m t) s = match exec m t with | .ok (_, t') => .ok (t', s) | .error e => .error e := rfl
  rw [this] at e
  cases h : exec m t with
  | error f => rw [h] at e; cases e
  | ok p => rw [h] at e; cases e; rfl

theorem wide_inv (tr : Bool) (k : Nat) : ∀ (acc : Nat × Text) (s : Text),
    Wh (SM.iterate k (wideBody tr) acc) (mk s c ns ps) (∃ u vs R, s = u ++ '@' :: R ∧ EncWide u vs) := by
  induction k with
  | zero => intros; exact After.iter_zero
  | succ k ih =>
    intro acc s
    refine After.round ?_
    unfold wideBody
    refine After.tryChar (fun u e => ?_) fun hA => ?_
    · exact After.pure ⟨[], [], u, e, .nil⟩
    · refine After.query (After.ite (fun _ => After.err) fun _ => ?_)
      refine After.bind (Q := fun _ s' => ∃ t1 b1 t2 b2 u, s = t1 ++ (t2 ++ u) ∧ EncByte t1 b1 ∧ (EncByte t2 b2 ∨ t2 = c!"@" ∧ b2 = 64) ∧ s' = mk u c ns ps) ?_ ?_
      · unfold demangle_wchar_literal
        refine After.know charlit_inv ?_
        rintro ⟨t1, b1, u, rfl, ht⟩
        refine After.step (charlit_run ht) ?_
        refine After.know charlit_inv ?_
        rintro ⟨t2, b2, u, rfl, ht2⟩
        refine After.step (charlit_run ht2) (After.pure ?_)
        exact ⟨t1, b1, t2, b2, u, rfl, charlit_first ht hA, ht2, rfl⟩
      · rintro x _ ⟨t1, b1, t2, b2, u, rfl, h1, h2, rfl⟩
        have key : ∀ b', Wh (SM.iterate k (wideBody tr) b') (mk u c ns ps) (∃ u_1 vs R, t1 ++ (t2 ++ u) = u_1 ++ '@' :: R ∧ EncWide u_1 vs) := by
          intro t
          refine After.mono (ih _ _) ?_
          rintro _ _ ⟨v, vs, R, rfl, hv⟩
          rcases h2 with h2 | ⟨rfl, rfl⟩
          · exact ⟨t1 ++ t2 ++ v, _, R, by simp, .cons h1 h2 hv⟩
          · exact ⟨t1 ++ '@' :: v, _, R, by simp, .consAt h1 hv⟩
        refine After.ite (fun _ => ?_) fun _ => ?_
        · refine After.bind runW_same ?_
          rintro t _ rfl
          exact After.pure (key _)
        · exact After.step rfl (After.pure (key _))

/-- A string literal. -/
theorem literal_inv {w : World} : Wh demangle_string_literal (mk s w.c ns ps) (Took E .sym tb (c!"??_C" ++ s)) := by
  refine After.know' (X := ∃ d x n crc v, s = c!"@_" ++ d :: (x ++ (crc ++ '@' :: v)) ∧ (d = '0' ∨ d = '1') ∧ EncNat x n ∧ '@' ∉ crc ∧
      ((d = '0' ∧ n ≠ 0 ∧ ∃ u bs R, v = u ++ '@' :: R ∧ EncBytes u bs ∧ bs.length ≤ 128) ∨
       (d = '1' ∧ 2 ≤ n ∧ ∃ u vs R, v = u ++ '@' :: R ∧ EncWide u vs))) ?_ ?_
  · unfold demangle_string_literal
    refine After.expectStr fun u e => After.expectAny fun d v e' => ?_
    subst e'; subst e
    have rest : ∀ wc : Bool, (wc = true → d = '1') → (wc = false → d = '0') → Wh (do
        let (string_byte_len, is_negative) ← demangle_number
        if is_negative || string_byte_len < (if wc then 2 else 1) then SM.err .InvalidStringLiteral
        else do
          let crc_end_pos ← query fun m => m.find_char '@'
          let crc_end_pos ← SM.okOr .InvalidStringLiteral crc_end_pos
          let crc ← tryBytes (crc_end_pos + 1)
          let _ ← SM.okOr .InvalidStringLiteral crc
          let e ← query MStr.is_empty
          if e then SM.err .InvalidStringLiteral
          else if wc then do
            let is_truncated := decide (string_byte_len > 64)
            let t ← loopInput (wideBody is_truncated) (string_byte_len, [])
            intern (.EncodedStringLiteral none t is_truncated .Wchar)
          else do
            let bytes ← loopInput narrowBody []
            let is_truncated := decide (string_byte_len > bytes.length)
            let char_bytes ← SM.okOr .InvalidStringLiteral (guess_char_byte_size bytes string_byte_len)
            let char ← SM.okOr .InvalidStringLiteral (charKindOf char_bytes)
            let num_chars := bytes.length / char_bytes
            let (_, t) ← SM.forN num_chars (decodeBody bytes char_bytes num_chars is_truncated) (0, [])
            intern (.EncodedStringLiteral none t is_truncated char)) (mk v w.c ns ps)
        (∃ x n crc y, v = x ++ (crc ++ '@' :: y) ∧ EncNat x n ∧ '@' ∉ crc ∧
          ((wc = false ∧ n ≠ 0 ∧ ∃ u bs R, y = u ++ '@' :: R ∧ EncBytes u bs ∧ bs.length ≤ 128) ∨
           (wc = true ∧ 2 ≤ n ∧ ∃ u vs R, y = u ++ '@' :: R ∧ EncWide u vs))) := by
      intro wc _ _
      refine After.know number_inv ?_
      rintro ⟨x, n, neg, u, rfl, hx⟩
      refine After.step (encInt_run hx) ?_
      refine After.iteB (fun _ => After.err) fun hb => ?_
      rw [Bool.or_eq_false_iff] at hb
      obtain ⟨rfl, hb⟩ := hb
      have hx' : EncNat x n := by cases hx; assumption
      have hb : ¬ (n < if wc = true then 2 else 1) := by simpa using hb
      refine After.query (After.okOr fun i hi => ?_)
      obtain ⟨crc, y, rfl, hcrc, rfl⟩ := find_inv hi
      have hsplit : splitAtBytes (utf8Len crc + 1) (crc ++ '@' :: y) = some (crc ++ ['@'], y) := by
        have := splitAtBytes_len (crc ++ ['@']) y
        rw [Emit.utf8Len_append, show utf8Len ['@'] = 1 from rfl] at this
        simpa using this
      have hbytes := tryBytes_hit (c := w.c) (ns := ns) (ps := ps) _ hsplit (by simp)
      refine After.step hbytes (After.step rfl ?_)
      refine After.query (After.iteB (fun _ => After.err) fun _ => ?_)
      cases wc with
      | true =>
        refine After.know (X := ∃ u vs R, y = u ++ '@' :: R ∧ EncWide u vs) (After.loop fun k => wide_inv _ k _ _) ?_
        exact fun h => After.now ⟨x, n, crc, y, rfl, hx', hcrc, .inr ⟨rfl, by simpa using hb, h⟩⟩
      | false =>
        refine After.know (X := ∃ u bs R, y = u ++ '@' :: R ∧ EncBytes u bs ∧ ([] : List Nat).length + bs.length ≤ 128) (After.loop fun k => narrow_inv k _ _ (by simp)) ?_
        rintro ⟨u, bs, R, e, h1, h2⟩
        exact After.now ⟨x, n, crc, y, rfl, hx', hcrc, .inl ⟨rfl, by simp at hb; omega, u, bs, R, e, h1, by simpa using h2⟩⟩
    refine After.iteB (fun h1 => ?_) fun h1 => After.iteB (fun h0 => ?_) fun h0 => After.errB
    · obtain rfl : d = '1' := by simpa using h1
      refine After.step rfl (After.mono (rest true (fun _ => rfl) (fun h => by cases h)) ?_)
      rintro _ _ ⟨x, n, crc, y, rfl, hx, hc, h | h⟩
      · cases h.1
      · exact ⟨_, x, n, crc, y, rfl, .inr rfl, hx, hc, .inr ⟨rfl, h.2⟩⟩
    · obtain rfl : d = '0' := by simpa using h0
      refine After.step rfl (After.mono (rest false (fun h => by cases h) (fun _ => rfl)) ?_)
      rintro _ _ ⟨x, n, crc, y, rfl, hx, hc, h | h⟩
      · exact ⟨_, x, n, crc, y, rfl, .inl rfl, hx, hc, .inl ⟨rfl, h.2⟩⟩
      · cases h.1
  · rintro ⟨d, x, n, crc, v, rfl, _, hx, hc, ⟨rfl, h0, u, bs, R, rfl, hu, hl⟩ | ⟨rfl, h2, u, vs, R, rfl, hu⟩⟩
    · exact After.now ⟨c!"??_C@_0" ++ x ++ crc ++ c!"@" ++ u ++ c!"@", R, _, _, by simp, .narrow hx h0 hc hu hl⟩
    · intro a s' e
      have e2 := wide_run (rest := R) (c := w.c) (ns := ns) (ps := ps) hx h2 hc hu
      rw [show c!"@_" ++ '1' :: (x ++ (crc ++ '@' :: (u ++ '@' :: R))) = c!"@_1" ++ x ++ crc ++ c!"@" ++ u ++ c!"@" ++ R by simp] at e
      rw [e, wideKept_shown n h2] at e2
      unfold grow at e2
      rw [List.nil_append] at e2
      by_cases hf : utf8Len ((Spec.wideShown n vs).flatMap Spec.escape) < OUTPUT_LIMIT
      · exact ⟨c!"??_C@_1" ++ x ++ crc ++ c!"@" ++ u ++ c!"@", R, _, _, by simp, .wide hx h2 hc hu hf⟩
      · rw [if_neg hf] at e2; cases e2

end

end Undname
