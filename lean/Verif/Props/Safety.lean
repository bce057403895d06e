/-
  Property theorems C01-C06, C29, C30, C45: what holds of every call, for every input and every flag set.

  `demangle E m` and `demangle_into E m buf` are the two API functions of the model (`Model/Api.lean`).
  Their results are `.error c` (the call does not return: `c` is a panic, undefined behaviour, or an
  exhausted recursion budget) or `.ok` of a Rust `Result`. `E.flags : BitVec 16` ranges over all flag values.
-/
import Verif.Proof.Top
import Verif.Proof.Eval

namespace Undname
namespace Props

/-- Everything a call can do: return an allowed error with an empty buffer, or a bounded text. -/
theorem call_outcome (E : Env) (m buf : Text) :
    (∃ e, demangle_into E m buf = .ok (.error e, []) ∧ e.allowed) ∨
    ∃ t, demangle_into E m buf = .ok (.ok (), t) ∧ utf8Len t < 2 ^ 20 ∧
      ∀ c ∈ t, c ∈ m ∨ isPrintable c = true := by
  rcases demangle_into_ok (T := charSpec m) E (charSpec_flags m E) (m := m) (fun c h => h) buf with
    ⟨e, h1, h2⟩ | ⟨t, h1, h2, h3⟩
  · exact Or.inl ⟨e, h1, h2⟩
  · exact Or.inr ⟨t, h1, h2, h3⟩

theorem demangle_of_into {E : Env} {m : Text} : demangle E m = (match demangle_into E m [] with
    | .error c => .error c
    | .ok (.error e, _) => .ok (.error e)
    | .ok (.ok (), t) => .ok (.ok t)) := rfl

/-- No call crashes in any way. -/
theorem no_crash (E : Env) (m buf : Text) (c : Crash) :
    demangle_into E m buf ≠ .error c ∧ demangle E m ≠ .error c := by
  refine ⟨?_, ?_⟩
  · rcases call_outcome E m buf with ⟨e, h, _⟩ | ⟨t, h, _⟩ <;> rw [h] <;> simp
  · rw [demangle_of_into]
    rcases call_outcome E m [] with ⟨e, h, _⟩ | ⟨t, h, _⟩ <;> rw [h] <;> simp

/-- **C01**: no call panics. -/
theorem C01_never_panics (E : Env) (m buf : Text) :
    demangle_into E m buf ≠ .error .panic ∧ demangle E m ≠ .error .panic := no_crash E m buf .panic

/-- Names on which slices, counters and back-references are at their limits: the empty name, a back-reference to nothing, a
character of three bytes at the end, a parameter list that is cut off. -/
example : demangle E0 [] = .ok (.error (.Io .UnexpectedEof)) ∧ demangle E0 c!"?9@3HA" = .ok (.error .InvalidBackRef) ∧
    demangle E0 c!"?x@@3H€" = .ok (.error .InvalidQualifiers) ∧
    demangle E0 c!"?f@@YAXPAH" = .ok (.error .InvalidFunctionParameterList) := by
  refine ⟨?_, ?_, ?_, ?_⟩ <;> decide +kernel

/-- **C02**: no call violates the precondition of an `unsafe` block. -/
theorem C02_no_undefined_behaviour (E : Env) (m buf : Text) :
    demangle_into E m buf ≠ .error .ub ∧ demangle E m ≠ .error .ub := no_crash E m buf .ub

/-- **C03**: parsing with a recursion budget of `length + 1` nested calls, and with every loop limited to one
iteration per remaining character plus one, never runs out of budget. -/
theorem C03_recursion_bounded (E : Env) (m : Text) :
    (fns (render E) (m.length + 1)).parse (initSt m) ≠ .error (.crash .fuel) :=
  (parse_wp E (charSpec_flags m E) (fun _ h => h)).no_crash .fuel

/-- **C03**, for the whole call: parsing and rendering terminate. -/
theorem C03_terminates (E : Env) (m buf : Text) :
    demangle_into E m buf ≠ .error .fuel ∧ demangle E m ≠ .error .fuel := no_crash E m buf .fuel

/-- **C05**: when parsing succeeds there are at most 2048 nodes. -/
theorem C05_node_bound (E : Env) (m : Text) {h : Handle} {s : St} (hp : parse (render E) m = .ok (h, s)) :
    s.cache.length ≤ 2048 :=
  ((parse_wp E (charSpec_flags m E) (fun _ h => h)).ok hp).1.size

/-- A name for which there are nodes to count. -/
example : ∃ h s, parse (render E0) c!"??$?BH@S@@QAEHXZ" = .ok (h, s) ∧ 5 < s.cache.length := by
  have : (match parse (render E0) c!"??$?BH@S@@QAEHXZ" with | .ok (_, s) => decide (5 < s.cache.length) | .error _ => false) = true := by
    decide +kernel
  split at this
  · next h s e => exact ⟨h, s, e, by simpa using this⟩
  · cases this

/-- **C05**: at the limit, creating a node makes the call fail with `MaliciousInput`; below it, it succeeds. -/
theorem C05_limit (nd : Node) (s : St) :
    (2048 ≤ s.cache.length → intern nd s = .error (.err .MaliciousInput)) ∧
    (s.cache.length < 2048 → ∃ s', intern nd s = .ok (s.cache.length, s') ∧ s'.cache = s.cache ++ [nd]) := by
  unfold intern NODE_LIMIT
  refine ⟨fun h => if_pos (by omega), fun h => ⟨_, if_neg (by omega), rfl⟩⟩

/-- **C06**: an accepted name demangles to fewer than 2^20 bytes of UTF-8. -/
theorem C06_output_bounded (E : Env) (m : Text) {t : Text} (h : demangle E m = .ok (.ok t)) :
    utf8Len t < 2 ^ 20 := by
  rw [demangle_of_into] at h
  rcases call_outcome E m [] with ⟨e, h1, _⟩ | ⟨u, h1, h2, _⟩
  · rw [h1] at h; simp at h
  · rw [h1] at h; simp at h; subst h; exact h2

/-- An accepted name with characters of several bytes. -/
example : demangle E0 c!"?größe@@3HA" = .ok (.ok c!"int größe") ∧ utf8Len c!"int größe" = 11 := by
  refine ⟨?_, ?_⟩ <;> decide +kernel

/-- **C06** for `demangle_into`, whatever the buffer held. -/
theorem C06_buffer_bounded (E : Env) (m buf : Text) {r : Except Error Unit} {t : Text}
    (h : demangle_into E m buf = .ok (r, t)) : utf8Len t < 2 ^ 20 := by
  rcases call_outcome E m buf with ⟨e, h1, _⟩ | ⟨u, h1, h2, _⟩
  · rw [h1] at h; cases h; decide
  · rw [h1] at h; cases h; exact h2

/-- **C29**: every character of the output occurs in the input or is printable ASCII. -/
theorem C29_output_characters (E : Env) (m : Text) {t : Text} (h : demangle E m = .ok (.ok t)) :
    ∀ c ∈ t, c ∈ m ∨ (0x20 ≤ c.toNat ∧ c.toNat ≤ 0x7E) := by
  rw [demangle_of_into] at h
  rcases call_outcome E m [] with ⟨e, h1, _⟩ | ⟨u, h1, _, h2⟩
  · rw [h1] at h; simp at h
  · rw [h1] at h; simp at h; subst h
    intro c hc
    exact (h2 c hc).imp id fun h => by simpa [isPrintable] using h

/-- Corollary of C29: ASCII in, ASCII out. -/
theorem C29_ascii (E : Env) (m : Text) {t : Text} (h : demangle E m = .ok (.ok t))
    (hm : ∀ c ∈ m, c.toNat < 128) : ∀ c ∈ t, c.toNat < 128 := fun c hc =>
  (C29_output_characters E m h c hc).elim (hm c) fun h => by omega

/-- A string literal with a control character and a byte above 127, both escaped. -/
example : demangle E0 c!"??_C@_03ABCDEFGH@?6?$PPa?$AA@" = .ok (.ok c!"\"\\n\\xFFa\"") ∧
    ∀ c ∈ c!"??_C@_03ABCDEFGH@?6?$PPa?$AA@", c.toNat < 128 := by
  refine ⟨?_, ?_⟩ <;> decide +kernel

/-- **C45**: the only errors are those of the enumeration other than `Utf8Error`. -/
theorem C45_errors (E : Env) (m buf : Text) :
    demangle E m ≠ .ok (.error .Utf8Error) ∧ ∀ t, demangle_into E m buf ≠ .ok (.error .Utf8Error, t) := by
  refine ⟨?_, ?_⟩
  · rw [demangle_of_into]
    rcases call_outcome E m [] with ⟨e, h1, h2⟩ | ⟨u, h1, _⟩ <;> rw [h1]
    · simp only [ne_eq, Except.ok.injEq, Except.error.injEq]; rintro rfl; exact h2
    · simp
  · intro t
    rcases call_outcome E m buf with ⟨e, h1, h2⟩ | ⟨u, h1, _⟩ <;> rw [h1]
    · simp only [ne_eq, Except.ok.injEq, Prod.mk.injEq, Except.error.injEq, not_and]; rintro rfl; exact h2.elim
    · simp

/-- Balanced parentheses: every prefix has at least as many `(` as `)`, and the whole text equally many. -/
def Balanced (t : Text) : Prop :=
  (∀ p, p <+: t → p.count ')' ≤ p.count '(') ∧ t.count ')' = t.count '('

theorem balanced_of_depth {t : Text} {d e : Nat} (h : depthAfter d t = some e) :
    (∀ p, p <+: t → p.count ')' ≤ d + p.count '(') ∧ e + t.count ')' = d + t.count '(' := by
  induction t generalizing d with
  | nil =>
    simp [depthAfter] at h
    subst h
    exact ⟨fun p hp => by simp at hp; subst hp; simp, by simp⟩
  | cons c cs ih =>
    have key : ∀ d', depthAfter d' cs = some e → (∀ (p : Text), (c :: p).count ')' + d' = d + (c :: p).count '(' - p.count '(' + p.count ')') →
        (∀ p, p <+: c :: cs → p.count ')' ≤ d + p.count '(') ∧ e + (c :: cs).count ')' = d + (c :: cs).count '(' := by
      intro d' h' hc
      obtain ⟨h1, h2⟩ := ih h'
      have hmono : ∀ p : Text, p.count '(' ≤ (c :: p).count '(' := fun p => by
        rw [List.count_cons]; omega
      refine ⟨fun p hp => ?_, ?_⟩
      · cases p with
        | nil => simp
        | cons x p =>
          obtain ⟨rfl, hp'⟩ := List.cons_prefix_cons.1 hp
          have := h1 p hp'
          have := hc p
          have := hmono p
          omega
      · have := hc cs
        have := hmono cs
        omega
    unfold depthAfter at h
    split at h
    · next hc =>
      subst hc
      refine key _ h fun p => ?_
      simp only [List.count_cons]
      simp
      omega
    · next hc =>
      split at h
      · next hc' =>
        subst hc'
        cases d with
        | zero => simp at h
        | succ d =>
          refine key _ h fun p => ?_
          simp only [List.count_cons]
          simp
          omega
      · next hc' =>
        refine key _ h fun p => ?_
        simp only [List.count_cons]
        simp [hc, hc']
        omega

/-- **C30**: if the input has no parenthesis and no string literal code, and `NAME_ONLY` is not set, the
output is balanced (in particular with default flags). -/
theorem C30_balanced (E : Env) (m : Text) {t : Text} (h : demangle E m = .ok (.ok t))
    (hf : E.flags.name_only = false) (h1 : '(' ∉ m) (h2 : ')' ∉ m) (h3 : ¬ c!"?_C" <:+: m) : Balanced t := by
  rw [demangle_of_into] at h
  rcases demangle_into_ok (T := nestSpec) E (nestSpec_flags hf) (m := m) ⟨h1, h2, h3⟩ [] with
    ⟨e, x1, _⟩ | ⟨u, x1, _, x2⟩
  · rw [x1] at h; simp at h
  · rw [x1] at h; simp at h; subst h
    obtain ⟨y1, y2⟩ := balanced_of_depth (d := 0) (e := 0) x2
    exact ⟨fun p hp => by have := y1 p hp; omega, by omega⟩

/-- **C30**: with `NAME_ONLY` it is not: the type that a function pointer returns is opened and not closed. -/
theorem C30_name_only_unbalanced :
    demangle (EF ⟨512⟩) c!"?x@?$A@P6AP6AXXZXZ@@3HA" = .ok (.ok c!"A<void (__cdecl * (__cdecl *)(void)>::x") ∧
    ¬ Balanced c!"A<void (__cdecl * (__cdecl *)(void)>::x" := by
  refine ⟨by decide +kernel, fun h => absurd h.2 (by decide +kernel)⟩

/-- A name with nested parentheses meets the conditions. -/
example : demangle E0 c!"?f@@YAP6AXPAY02H@ZP6AXXZ@Z" = .ok (.ok c!"void (__cdecl * __cdecl f(void (__cdecl *)(void)))(int (*)[3])") ∧
    '(' ∉ c!"?f@@YAP6AXPAY02H@ZP6AXXZ@Z" ∧ ')' ∉ c!"?f@@YAP6AXPAY02H@ZP6AXXZ@Z" ∧ ¬ c!"?_C" <:+: c!"?f@@YAP6AXPAY02H@ZP6AXXZ@Z" := by
  refine ⟨?_, ?_, ?_, ?_⟩ <;> decide +kernel

end Props
end Undname
