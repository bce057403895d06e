/-
  The parser reads numbers as specified.
-/
import Verif.Spec.Numbers
import Verif.Proof.Run

namespace Undname
open Spec

variable {c : Cache} {ns ps : List Handle} {rest : Text}

theorem isHex_iff (x : Char) : is_rebased_ascii_hexdigit x = true ↔ IsHex x := by
  unfold is_rebased_ascii_hexdigit IsHex
  simp only [Char.le_def, UInt32.le_iff_toNat_le, Bool.and_eq_true, decide_eq_true_eq]
  exact Iff.rfl

theorem hex_not_digit {x : Char} (h : IsHex x) : isDigit x = false ∧ x ≠ '@' ∧ x ≠ '?' := by
  have h' := (isHex_iff x).2 h
  unfold is_rebased_ascii_hexdigit at h'
  refine ⟨?_, ?_, ?_⟩
  · unfold isDigit
    simp only [Bool.and_eq_true, decide_eq_true_eq, Bool.and_eq_false_iff, decide_eq_false_iff_not] at *
    have : 'A'.toNat = 65 := rfl
    have : '9'.toNat = 57 := rfl
    omega
  · rintro rfl; simp at h'
  · rintro rfl; simp at h'

@[run] theorem run_iterate_zero {σ β γ : Type} (body : β → SM σ (β ⊕ γ)) (b : β) (s : σ) :
    exec (SM.iterate 0 body b) s = .error (.crash .fuel) := rfl

theorem run_iterate_succ {σ β γ : Type} (n : Nat) (body : β → SM σ (β ⊕ γ)) (b : β) (s : σ) :
    exec (SM.iterate (n + 1) body b) s = andThen (exec (body b) s) fun x =>
      match x.1 with
      | .inl b' => exec (SM.iterate n body b') x.2
      | .inr c => .ok (c, x.2) := by
  show exec (SM.bind _ _) s = _
  have := run_bind_eq (body b) (fun | .inl b' => SM.iterate n body b' | .inr c => SM.pure c) s
  refine Eq.trans this ?_
  congr 1
  funext x
  cases x.1 <;> rfl

@[run] theorem run_loop {β γ : Type} (body : β → P (β ⊕ γ)) (b : β) (t : Text) :
    exec (loopInput body b) (mk t c ns ps) = exec (SM.iterate (t.length + 1) body b) (mk t c ns ps) := rfl

@[run] theorem run_forN_zero {σ β : Type} (body : β → SM σ β) (b : β) (s : σ) :
    exec (SM.forN 0 body b) s = .ok (b, s) := rfl

theorem run_forN_succ {σ β : Type} (n : Nat) (body : β → SM σ β) (b : β) (s : σ) :
    exec (SM.forN (n + 1) body b) s = andThen (exec (body b) s) fun x => exec (SM.forN n body x.1) x.2 :=
  run_bind_eq (body b) (SM.forN n body) s

theorem number_loop (ds : List Char) (hds : ∀ x ∈ ds, IsHex x) : ∀ (v : Nat) (x : Char) (t : Text) (n : Nat),
    v < 2 ^ 64 → x :: t = ds ++ '@' :: rest → ds.length < n →
    exec (SM.iterate n numberBody (v, x)) (mk t c ns ps) =
      .ok (ds.foldl (fun v x => 16 * v + hexDigit x) v % 2 ^ 64, mk rest c ns ps) := by
  induction ds with
  | nil =>
    intro v x t n hv hx hn
    simp only [List.nil_append, List.cons.injEq] at hx
    obtain ⟨rfl, rfl⟩ := hx
    obtain ⟨n, rfl⟩ : ∃ k, n = k + 1 := ⟨n - 1, by simp at hn; omega⟩
    rw [run_iterate_succ]
    simp [run, numberBody, Nat.mod_eq_of_lt hv]
  | cons d ds ih =>
    intro v x t n hv hx hn
    simp only [List.cons_append, List.cons.injEq] at hx
    obtain ⟨rfl, rfl⟩ := hx
    obtain ⟨n, rfl⟩ : ∃ k, n = k + 1 := ⟨n - 1, by simp at hn; omega⟩
    have hd : IsHex x := hds x (by simp)
    have h1 := (isHex_iff x).2 hd
    have h2 : (x == '@') = false := by simpa using (hex_not_digit hd).2.1
    have h3 : x.toNat - 'A'.toNat < 16 := hexdigit_lt h1
    have h4 : v * 16 % 2 ^ 64 + (x.toNat - 'A'.toNat) < 2 ^ 64 := number_no_overflow _ _ h3
    obtain ⟨y, u, hyu⟩ : ∃ y u, ds ++ '@' :: rest = y :: u := by
      cases ds <;> exact ⟨_, _, rfl⟩
    rw [run_iterate_succ]
    have hb : exec (numberBody (v, x)) (mk (ds ++ '@' :: rest) c ns ps) =
        .ok (.inl (v * 16 % 2 ^ 64 + (x.toNat - 'A'.toNat), y), mk u c ns ps) := by
      unfold numberBody
      simp only [h2, h1, Bool.false_eq_true, if_false, if_true, if_pos h4]
      rw [hyu]
      simp only [run]
    rw [hb, andThen_ok]
    simp only
    rw [ih (fun z hz => hds z (by simp [hz])) _ y u n h4 hyu.symm (by simp at hn; omega)]
    congr 2
    simp only [List.foldl_cons]
    have key : ∀ (l : List Char) (a b : Nat), a % 2 ^ 64 = b % 2 ^ 64 →
        l.foldl (fun v x => 16 * v + hexDigit x) a % 2 ^ 64 = l.foldl (fun v x => 16 * v + hexDigit x) b % 2 ^ 64 := by
      intro l
      induction l with
      | nil => intro a b h; exact h
      | cons z l ih =>
        intro a b h
        simp only [List.foldl_cons]
        apply ih
        omega
    apply key
    show (v * 16 % 2 ^ 64 + hexDigit x) % 2 ^ 64 = _
    omega

theorem encNat_run {t : Text} {n : Nat} (h : EncNat t n) :
    exec demangle_number (mk (t ++ rest) c ns ps) = .ok ((n, false), mk rest c ns ps) := by
  cases h with
  | digit d hd =>
    have : ∀ d, d < 10 → isDigit (Char.ofNat ('0'.toNat + d)) = true ∧
        (Char.ofNat ('0'.toNat + d)).toNat - '0'.toNat + 1 = d + 1 ∧ (Char.ofNat ('0'.toNat + d) == '?') = false := by
      decide
    obtain ⟨h1, h2, h3⟩ := this d hd
    simp only [demangle_number, run, List.cons_append, h3, Bool.false_eq_true, if_false, h1, if_true, h2, List.nil_append]
  | hex ds hds =>
    obtain ⟨x, u, hxu⟩ : ∃ x u, ds ++ '@' :: rest = x :: u := by cases ds <;> exact ⟨_, _, rfl⟩
    have hx : isDigit x = false ∧ (x == '?') = false := by
      cases ds with
      | nil => simp at hxu; obtain ⟨rfl, _⟩ := hxu; decide
      | cons d ds =>
        simp at hxu; obtain ⟨rfl, _⟩ := hxu
        have := hex_not_digit (hds d (by simp))
        exact ⟨this.1, by simpa using this.2.2⟩
    have hlen : ds.length < u.length + 1 := by
      have := congrArg List.length hxu
      simp at this; omega
    simp only [demangle_number, run, List.append_assoc, List.singleton_append, hxu, hx.2, hx.1,
      Bool.false_eq_true, if_false]
    rw [number_loop ds hds 0 x u _ (by decide) hxu.symm hlen]
    rfl

/-- `demangle_number` reads an encoded number. -/
theorem encInt_run {t : Text} {n : Nat} {neg : Bool} (h : EncInt t n neg) :
    exec demangle_number (mk (t ++ rest) c ns ps) = .ok ((n, neg), mk rest c ns ps) := by
  cases h with
  | pos h => exact encNat_run h
  | neg h =>
    rename_i t
    have h' := encNat_run (rest := rest) (c := c) (ns := ns) (ps := ps) h
    have hd : exec demangle_number (mk ('?' :: t ++ rest) c ns ps) =
        andThen (exec (expectAny .InvalidNumber) (mk (t ++ rest) c ns ps)) fun x =>
          exec (if isDigit x.1 then pure (x.1.toNat - '0'.toNat + 1, true)
            else do
              let n ← loopInput numberBody (0, x.1)
              pure (n, true)) x.2 := by
      simp [demangle_number, run]
    have hd' : exec demangle_number (mk (t ++ rest) c ns ps) =
        andThen (exec (expectAny .InvalidNumber) (mk (t ++ rest) c ns ps)) fun x =>
          exec (if isDigit x.1 then pure (x.1.toNat - '0'.toNat + 1, false)
            else do
              let n ← loopInput numberBody (0, x.1)
              pure (n, false)) x.2 := by
      have : ∃ x u, t ++ rest = x :: u ∧ (x == '?') = false := by
        cases h with
        | digit d hlt => exact ⟨_, _, rfl, (by decide : ∀ d, d < 10 → (Char.ofNat ('0'.toNat + d) == '?') = false) d hlt⟩
        | hex ds hds =>
          cases ds with
          | nil => exact ⟨_, _, rfl, by decide⟩
          | cons d ds => exact ⟨_, _, rfl, by simpa using (hex_not_digit (hds d (by simp))).2.2⟩
      obtain ⟨x, u, hx, hne⟩ := this
      rw [hx]
      simp [demangle_number, run, hne]
    rw [hd'] at h'
    rw [hd]
    revert h'
    cases exec (expectAny .InvalidNumber) (mk (t ++ rest) c ns ps) with
    | error e => intro h'; simp [run] at h'
    | ok p =>
      obtain ⟨x, s⟩ := p
      simp only [run]
      split
      · intro h'; simp at h' ⊢; exact h'
      · cases exec (loopInput numberBody (0, x)) s with
        | error e => intro h'; simp [run] at h'
        | ok q => intro h'; simp [run] at h' ⊢; exact h'

end Undname
