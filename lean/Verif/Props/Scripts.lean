/-
  Property theorem C62: the characters beyond Latin-1 are opaque. The decoder never looks at which one it has read:
  renaming them, one to one, in the mangled name renames them in the text and changes nothing else — not the
  verdict, not the error, not what a back-reference names. So names are treated alike in every script.
-/
import Verif.Ren.Parse
import Verif.Props.Safety

namespace Undname
namespace Props
open Ren (Renaming ren renS renC renM Keeps Image)

theorem ren_initSt (ρ : Renaming) (m : Text) : initSt (ren ρ m) = renS ρ (initSt m) := by
  unfold initSt renS
  rw [Ren.MStr.new_ren]
  rfl

theorem ren_parse (ρ : Renaming) (E : Env) [Keeps ρ E] (m : Text) :
    Image (renS ρ) id (parse (render E) m) (parse (render E) (ren ρ m)) := by
  unfold parse
  rw [ren_initSt, Ren.ren_length]
  exact (Ren.com_fns (fun c k h => Ren.com_render E c k h) (Nat.le_refl _)).parse (initSt m)

/-- The outcome of a call, renamed. -/
def renamed (f : Char → Char) : Outcome Unit → Outcome Unit
  | .error c => .error c
  | .ok (r, t) => .ok (r, t.map f)

theorem ren_into (ρ : Renaming) (E : Env) [Keeps ρ E] (m buf buf' : Text) :
    demangle_into E (ren ρ m) buf' = renamed ρ.f (demangle_into E m buf) := by
  have hp := ren_parse ρ E m
  have hc : ∀ c, parse_into E m (clear buf) ≠ .error c := fun c => (no_crash E m buf c).1
  show parse_into E (ren ρ m) [] = renamed ρ.f (parse_into E m [])
  have hc : ∀ c, parse_into E m [] ≠ .error c := hc
  unfold parse_into at hc ⊢
  cases hr : parse (render E) m with
  | error f =>
    rw [hr] at hp hc
    cases f with
    | crash c => exact absurd rfl (hc c)
    | err e =>
      have hp : parse (render E) (ren ρ m) = _ := hp
      rw [hp]; rfl
  | ok x =>
    obtain ⟨h, s⟩ := x
    rw [hr] at hp hc
    have hp : parse (render E) (ren ρ m) = .ok (h, renS ρ s) := hp
    rw [hp]
    have ho := Ren.com_render (ρ := ρ) E s.cache .ISymbolNode h []
    dsimp only at hc ⊢
    cases hw : render E s.cache .ISymbolNode h [] with
    | error f =>
      rw [hw] at ho hc
      cases f with
      | crash c => exact absurd rfl (hc c)
      | err e =>
        have ho : render E (renS ρ s).cache .ISymbolNode h [] = .error (.err e) := ho
        rw [ho]; rfl
    | ok y =>
      obtain ⟨u, t⟩ := y
      rw [hw] at ho
      have ho : render E (renS ρ s).cache .ISymbolNode h [] = .ok (u, ren ρ t) := ho
      rw [ho]; rfl

/-- A renaming of characters: one to one; it keeps Latin-1 (which has the codes of the mangling scheme and the
characters of string literals); no other character becomes one of Latin-1; characters keep their length in UTF-8 (the
limit on the output counts bytes) and what `char::is_alphanumeric` says of them (a blank is put after letters). -/
structure RenamesScripts (E : Env) (f : Char → Char) : Prop where
  one_to_one : ∀ a b, f a = f b → a = b
  latin1 : ∀ c, c.toNat < 256 → f c = c
  beyond : ∀ c, 256 ≤ c.toNat → 256 ≤ (f c).toNat
  size : ∀ c, (f c).utf8Size = c.utf8Size
  alnum : ∀ c, E.uni (f c) = E.uni c

/-- **C62.** `demangle_into` of the renamed name, whatever the two buffers held: the same result, the renamed text. -/
theorem C62_opaque_into (E : Env) (f : Char → Char) (hf : RenamesScripts E f) (m buf buf' : Text) :
    demangle_into E (m.map f) buf' = renamed f (demangle_into E m buf) := by
  let ρ : Renaming := ⟨f, hf.one_to_one, hf.latin1, hf.beyond, hf.size⟩
  have : Keeps ρ E := ⟨hf.alnum⟩
  exact ren_into ρ E m buf buf'

/-- **C62.** `demangle` of the renamed name: the same error, or the renamed text. -/
theorem C62_opaque (E : Env) (f : Char → Char) (hf : RenamesScripts E f) (m : Text) :
    demangle E (m.map f) = (demangle E m).map fun r => r.map fun t => t.map f := by
  rw [demangle_of_into, demangle_of_into, C62_opaque_into E f hf m [] []]
  rcases call_outcome E m [] with ⟨e, h, _⟩ | ⟨t, h, _⟩ <;> rw [h] <;> rfl

/-- Two characters exchanged. -/
def exchange (a b c : Char) : Char := if c = a then b else if c = b then a else c

theorem exchange_ok (E : Env) (a b : Char) (ha : 256 ≤ a.toNat) (hb : 256 ≤ b.toNat) (hs : a.utf8Size = b.utf8Size)
    (hu : E.uni a = E.uni b) : RenamesScripts E (exchange a b) := by
  refine ⟨?_, ?_, ?_, ?_, ?_⟩
  · intro x y h
    unfold exchange at h
    grind
  · intro c hc
    unfold exchange
    rw [if_neg (by rintro rfl; omega), if_neg (by rintro rfl; omega)]
  · intro c hc
    unfold exchange
    split
    · exact hb
    · split
      · exact ha
      · exact hc
  · intro c
    unfold exchange
    split
    · subst c; exact hs.symm
    · split
      · subst c; exact hs
      · rfl
  · intro c
    unfold exchange
    split
    · subst c; exact hu.symm
    · split
      · subst c; exact hu
      · rfl

/-- **C62.** Exchanging two letters of a foreign script in the name exchanges them in the text. -/
theorem C62_exchange (E : Env) (a b : Char) (ha : 256 ≤ a.toNat) (hb : 256 ≤ b.toNat) (hs : a.utf8Size = b.utf8Size)
    (hu : E.uni a = E.uni b) (m : Text) :
    demangle E (m.map (exchange a b)) = (demangle E m).map fun r => r.map fun t => t.map (exchange a b) :=
  C62_opaque E _ (exchange_ok E a b ha hb hs hu) m

/-- **C62.** Whether a name is accepted, and the error if not, does not depend on which characters beyond Latin-1 it
has where. -/
theorem C62_same_verdict (E : Env) (f : Char → Char) (hf : RenamesScripts E f) (m : Text) (e : Error) :
    demangle E (m.map f) = .ok (.error e) ↔ demangle E m = .ok (.error e) := by
  rw [C62_opaque E f hf]
  constructor
  · intro h
    cases hd : demangle E m with
    | error c => rw [hd] at h; cases h
    | ok r =>
      rw [hd] at h
      cases r with
      | error e' => exact h
      | ok t => cases h
  · intro h; rw [h]; rfl

/-- Every character beyond ASCII is a letter. -/
def EU : Env := ⟨Flags.default, fun _ => true⟩

/-- Beside the theorems: a name in Greek letters, with a back-reference to a Greek name, and the same with two letters
exchanged. -/
example : RenamesScripts EU (exchange 'λ' 'μ') ∧ c!"?λμ@κ@@3V1@A".map (exchange 'λ' 'μ') = c!"?μλ@κ@@3V1@A" ∧
    demangle EU c!"?λμ@κ@@3V1@A" = .ok (.ok c!"class κ κ::λμ") ∧ demangle EU c!"?μλ@κ@@3V1@A" = .ok (.ok c!"class κ κ::μλ") := by
  refine ⟨exchange_ok EU _ _ (by decide) (by decide) (by decide) rfl, by decide, by decide +kernel, by decide +kernel⟩

/-- Latin-1 must be kept: in the text of a string literal the character `é` stands for its code, which is shown in
hexadecimal. -/
example : demangle EU c!"??_C@_01A@é?$AA@" = .ok (.ok c!"\"\\xE9\"") := by decide +kernel

/-- One to one it must be: two names made one are one name for back-references. -/
example : demangle EU c!"?λ@μ@@3V1@A" = .ok (.ok c!"class μ μ::λ") ∧ demangle EU c!"?λ@λ@@3V1@A" = .ok (.error .InvalidBackRef) := by
  decide +kernel

end Props
end Undname
