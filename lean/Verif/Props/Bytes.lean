/-
  Property theorem C54: on every `&str`, that is on every well-formed sequence of bytes, the code, which slices,
  decodes and validates bytes, does what the model on characters says: it never slices off a character boundary,
  never decodes ill-formed bytes, never reports `Utf8Error`, and leaves well-formed bytes in the caller's `String`.

  `Raw.demangle` and `Raw.demangle_into` (Raw/Api.lean) are the two API functions on bytes.
-/
import Verif.Raw.RefParse
import Verif.Props.Safety

namespace Undname
namespace Props
open Raw (Bytes enc from_utf8 enc_of_from_utf8)

/-- A byte-level outcome for a character-level one: the same `Result`, the text stored as UTF-8. -/
def stored : Outcome Unit → Raw.Outcome Unit
  | .error c => .error c
  | .ok (r, t) => .ok (r, enc t)

theorem raw_initSt (m : Text) : Raw.initSt (enc m) = Raw.ofSt (initSt m) := by
  unfold Raw.initSt initSt Raw.ofSt
  rw [Raw.MStr.new_enc]
  rfl

/-- The parser on bytes against the parser on characters. -/
theorem raw_parse (E : Env) (m : Text) :
    Raw.Image Raw.ofSt id (parse (render E) m) (Raw.parse (Raw.render E) (enc m)) := by
  unfold parse Raw.parse
  rw [raw_initSt]
  exact (Raw.com_fns (fun c k h => Raw.com_render E c k h)
    (Nat.succ_le_succ (Raw.MStr.text_le_enc m))).parse (initSt m)

/-- On the bytes of a text both API functions do what they do on its characters. -/
theorem raw_into (E : Env) (m buf : Text) (old : Bytes) :
    Raw.demangle_into E (enc m) old = stored (demangle_into E m buf) := by
  have hp := raw_parse E m
  have hc : ∀ c, parse_into E m (clear buf) ≠ .error c := fun c => (no_crash E m buf c).1
  show Raw.parse_into E (enc m) [] = stored (parse_into E m [])
  have hc : ∀ c, parse_into E m [] ≠ .error c := hc
  unfold parse_into at hc ⊢
  unfold Raw.parse_into
  cases hr : parse (render E) m with
  | error f =>
    rw [hr] at hp hc
    cases f with
    | crash c => exact absurd rfl (hc c)
    | err e =>
      have hp : Raw.parse (Raw.render E) (enc m) = _ := hp
      rw [hp]; rfl
  | ok x =>
    obtain ⟨h, s⟩ := x
    rw [hr] at hp hc
    have hp : Raw.parse (Raw.render E) (enc m) = .ok (h, Raw.ofSt s) := hp
    rw [hp]
    have ho := Raw.com_render E s.cache .ISymbolNode h []
    dsimp only at hc ⊢
    cases hw : render E s.cache .ISymbolNode h [] with
    | error f =>
      rw [hw] at ho hc
      cases f with
      | crash c => exact absurd rfl (hc c)
      | err e =>
        have ho : Raw.render E (Raw.nodes s.cache) .ISymbolNode h [] = .error (.err e) := ho
        show (match Raw.render E (Raw.nodes s.cache) .ISymbolNode h [] with
          | .error (.crash c) => _ | .error (.err e) => _ | .ok (_, bytes) => _) = _
        rw [ho]; rfl
    | ok y =>
      obtain ⟨u, t⟩ := y
      rw [hw] at ho
      have ho : Raw.render E (Raw.nodes s.cache) .ISymbolNode h [] = .ok (u, enc t) := ho
      show (match Raw.render E (Raw.nodes s.cache) .ISymbolNode h [] with
        | .error (.crash c) => _ | .error (.err e) => _ | .ok (_, bytes) => _) = _
      rw [ho]
      dsimp only
      rw [if_pos (Raw.from_utf8_enc t)]
      rfl

theorem raw_demangle (E : Env) (m : Text) :
    Raw.demangle E (enc m) = (demangle E m).map fun r => r.map enc := by
  unfold Raw.demangle
  rw [raw_into E m [] [], demangle_of_into]
  rcases call_outcome E m [] with ⟨e, h, _⟩ | ⟨t, h, _⟩ <;> rw [h] <;> rfl

/-- **C54.** Every `&str` is the UTF-8 of exactly one text, and `demangle` on its bytes returns what the model returns
on that text, stored as UTF-8. So every theorem about `demangle` on texts is one about the code on bytes. -/
theorem C54_bytes (E : Env) (name : Bytes) (hn : from_utf8 name = true) :
    ∃ m, name = enc m ∧ (∀ m', name = enc m' → m' = m) ∧
      Raw.demangle E name = (demangle E m).map fun r => r.map enc := by
  obtain ⟨m, rfl⟩ := enc_of_from_utf8 name hn
  exact ⟨m, rfl, fun m' h => (Raw.enc_inj h).symm, raw_demangle E m⟩

/-- The same for `demangle_into`, whatever the `String` held before. -/
theorem C54_bytes_into (E : Env) (name old : Bytes) (hn : from_utf8 name = true) :
    ∃ m, name = enc m ∧ (∀ m', name = enc m' → m' = m) ∧
      Raw.demangle_into E name old = stored (demangle_into E m []) := by
  obtain ⟨m, rfl⟩ := enc_of_from_utf8 name hn
  exact ⟨m, rfl, fun m' h => (Raw.enc_inj h).symm, raw_into E m [] old⟩

/-- **C54.** In particular on every `&str`: no panic (no slice off a character boundary), no undefined behaviour (no
unchecked decoding of ill-formed bytes), the `String` holds well-formed UTF-8 afterwards, and the error is never
`Utf8Error`. -/
theorem C54_well_formed (E : Env) (name old : Bytes) (hn : from_utf8 name = true) :
    ∃ r out, Raw.demangle_into E name old = .ok (r, out) ∧ from_utf8 out = true ∧ out.length < 2 ^ 20 ∧
      r ≠ .error .Utf8Error ∧ (r ≠ .ok () → out = []) := by
  obtain ⟨m, rfl⟩ := enc_of_from_utf8 name hn
  rw [raw_into E m [] old]
  rcases call_outcome E m [] with ⟨e, h, ha⟩ | ⟨t, h, hl, _⟩
  · rw [h]
    refine ⟨.error e, [], rfl, rfl, by decide, ?_, fun _ => rfl⟩
    intro he
    injection he with he
    subst he
    exact absurd ha (by simp [Error.allowed])
  · rw [h]
    exact ⟨.ok (), enc t, rfl, Raw.from_utf8_enc t, by rw [Raw.enc_length]; exact hl, by simp, fun hx => absurd rfl hx⟩

/-- Beside the theorems: `?é4@@3HA` written as bytes (`é` takes two) is well-formed, and the code on bytes prints
`int é4` for it. -/
example : from_utf8 [63, 195, 169, 52, 64, 64, 51, 72, 65] = true := by decide

example : Raw.demangle E0 [63, 195, 169, 52, 64, 64, 51, 72, 65] =
    .ok (.ok [105, 110, 116, 32, 195, 169, 52]) := by decide +kernel

/-- Bytes that are no `str`: a lone continuation byte. -/
example : from_utf8 [63, 169, 64, 64, 51, 72, 65] = false := by decide

/-- Outside the hypothesis the code may do anything: cut inside a character, the input is undefined behaviour. -/
example : Raw.demangle E0 [63, 195] = .error .ub := by decide +kernel

/-- An MD5 name around a character of three bytes: the slice of src/demangler.rs:406 falls on boundaries. -/
example : Raw.demangle E0 [63, 63, 64, 226, 130, 172, 64] = .ok (.ok [63, 63, 64, 226, 130, 172, 64]) := by decide +kernel

end Props
end Undname
