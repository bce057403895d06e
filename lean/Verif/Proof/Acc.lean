/-
  What the text must have been when a parser succeeds.
-/
import Verif.Proof.Refine

namespace Undname
open Spec (T Tbl Cat Gram)

/-- Whenever the computation succeeds, `Q` holds of its result. -/
def After {α : Type} (m : P α) (s : St) (Q : α → St → Prop) : Prop :=
  ∀ a s', exec m s = .ok (a, s') → Q a s'

/-- Whenever the computation succeeds, `X` holds. -/
abbrev Wh {α : Type} (m : P α) (s : St) (X : Prop) : Prop := After m s fun _ _ => X

section
variable {α β γ : Type} {s s' : St} {Q : α → St → Prop} {R : β → St → Prop} {m : P α} {k : α → P β} {X : Prop}

theorem After.mono {Q' : α → St → Prop} (h : After m s Q) (hq : ∀ a s', Q a s' → Q' a s') : After m s Q' :=
  fun a s' e => hq _ _ (h a s' e)

theorem After.bind (h : After m s Q) (hk : ∀ a s', Q a s' → After (k a) s' R) : After (m >>= k) s R := by
  intro b s2 e
  rw [run_bind_eq] at e
  cases hm : exec m s with
  | error f => rw [hm] at e; cases e
  | ok p => rw [hm, andThen_ok] at e; exact hk _ _ (h _ _ hm) _ _ e

/-- A first step with a known result. -/
theorem After.step {a : α} (h : exec m s = .ok (a, s')) (hk : After (k a) s' R) : After (m >>= k) s R := by
  intro b s2 e
  rw [run_bind_eq, h, andThen_ok] at e
  exact hk _ _ e

theorem After.ok {a : α} (h : exec m s = .ok (a, s')) (hq : Q a s') : After m s Q := by
  intro b s2 e
  rw [h] at e; cases e; exact hq

/-- What the first part requires of the state. -/
theorem After.know (h : Wh m s X) (hk : X → After (m >>= k) s R) : After (m >>= k) s R := by
  intro b s2 e
  refine hk ?_ _ _ e
  rw [run_bind_eq] at e
  cases hm : exec m s with
  | error f => rw [hm] at e; cases e
  | ok p => exact h _ _ hm

theorem After.know' (h : Wh m s X) (hk : X → After m s Q) : After m s Q :=
  fun a s' e => hk (h a s' e) a s' e

theorem After.now (h : X) : Wh m s X := fun _ _ _ => h
theorem After.pure {a : α} (h : Q a s) : After (Pure.pure a) s Q := by intro b s2 e; cases e; exact h
theorem After.pure' {a : α} (h : Q a s) : After (SM.pure a) s Q := by intro b s2 e; cases e; exact h

theorem After.of_eq {m' : P α} (e : exec m s = exec m' s') (h : After m' s' Q) : After m s Q := by
  intro b s2 e'; rw [e] at e'; exact h _ _ e'

theorem After.error {f : Fail} (h : exec m s = .error f) : After m s Q := by
  intro b s2 e; rw [h] at e; cases e

theorem After.err {e : Error} : After (SM.err e : P α) s Q := After.error rfl
theorem After.crash {e : Crash} : After (SM.crash e : P α) s Q := After.error rfl
theorem After.bind_error {f : Fail} (h : exec m s = .error f) : After (m >>= k) s R := After.error (run_bind_error h)
theorem After.errB {e : Error} {k : α → P β} : After ((SM.err e : P α) >>= k) s R := After.bind_error rfl

theorem After.get {k : St → P β} (h : After (k s) s R) : After (SM.get >>= k) s R := After.step rfl h
theorem After.query {f : MStr → α} (h : After (k (f s.str)) s R) : After (query f >>= k) s R := After.step rfl h

theorem After.okOr {e : Error} {o : Option α} (h : ∀ a, o = some a → After (k a) s R) : After (SM.okOr e o >>= k) s R := by
  cases o with
  | none => exact After.bind_error rfl
  | some a => exact After.step rfl (h a rfl)

theorem After.okOr_end {e : Error} {o : Option α} (h : ∀ a, o = some a → Q a s) : After (SM.okOr e o) s Q := by
  cases o with
  | none => exact After.error rfl
  | some a => exact After.ok rfl (h a rfl)

theorem After.lift {x : Except Fail α} (h : ∀ a, x = .ok a → After (k a) s R) : After (SM.lift x >>= k) s R := by
  cases x with
  | error f => exact After.bind_error rfl
  | ok a => exact After.step rfl (h a rfl)

theorem After.ite {b : Prop} [Decidable b] {m m' : P α} (h1 : b → After m s Q) (h0 : ¬ b → After m' s Q) :
    After (if b then m else m') s Q := by
  split
  · exact h1 ‹_›
  · exact h0 ‹_›

theorem After.iteB {b : Bool} {m m' : P α} (h1 : b = true → After m s Q) (h0 : b = false → After m' s Q) :
    After (if b = true then m else m') s Q := After.ite h1 fun h => h0 (by simpa using h)

/-- When a simulation is known. -/
theorem After.sim (h : Sim m s Q) : After m s Q := by
  intro a s' e
  unfold Sim at h
  rw [e] at h
  exact h

theorem After.simB (h : Sim m s Q) (hk : ∀ a s', Q a s' → After (k a) s' R) : After (m >>= k) s R :=
  After.bind (After.sim h) hk

/-- One round of a loop. -/
theorem After.round {n : Nat} {body : β → P (β ⊕ γ)} {b : β} {Q : γ → St → Prop}
    (h : After (body b) s fun r s' => match r with | .inl b' => After (SM.iterate n body b') s' Q | .inr c => Q c s') :
    After (SM.iterate (n + 1) body b) s Q := by
  intro c s2 e
  rw [run_iterate_succ] at e
  cases hb : exec (body b) s with
  | error f => rw [hb] at e; cases e
  | ok p =>
    obtain ⟨r, s1⟩ := p
    rw [hb, andThen_ok] at e
    have := h _ _ hb
    cases r with
    | inl b' => exact this _ _ e
    | inr c' => cases e; exact this

/-- What the body of a loop requires of the state. -/
theorem After.roundKnow {n : Nat} {body : β → P (β ⊕ γ)} {b : β} {Q : γ → St → Prop} (h : Wh (body b) s X)
    (hk : X → After (SM.iterate (n + 1) body b) s Q) : After (SM.iterate (n + 1) body b) s Q := by
  intro c s2 e
  refine hk ?_ _ _ e
  rw [run_iterate_succ] at e
  cases hb : exec (body b) s with
  | error f => rw [hb] at e; cases e
  | ok p => exact h _ _ hb

theorem After.iter_zero {body : β → P (β ⊕ γ)} {b : β} {Q : γ → St → Prop} : After (SM.iterate 0 body b) s Q :=
  After.error (f := .crash .fuel) rfl

end

section
variable {α β : Type} {w : World} {c : Cache} {tb tb' : Tbl} {t x rest : Text} {ns ps : List Handle} {R : β → St → Prop}

theorem After.tryChar {y : Char} {k : Bool → P β} (h1 : ∀ u, t = y :: u → After (k true) (mk u c ns ps) R)
    (h0 : t.head? ≠ some y → After (k false) (mk t c ns ps) R) : After (Undname.tryChar y >>= k) (mk t c ns ps) R := by
  by_cases h : t.head? = some y
  · cases t with
    | nil => cases h
    | cons z u =>
      cases h
      refine After.step ?_ (h1 u rfl)
      rw [tryChar_cons]; simp
  · exact After.step (tryChar_head h) (h0 h)

theorem After.expectChar {y : Char} {e : Error} {k : Unit → P β} (h1 : ∀ u, t = y :: u → After (k ()) (mk u c ns ps) R) :
    After (Undname.expectChar y e >>= k) (mk t c ns ps) R := by
  cases t with
  | nil => exact After.bind_error rfl
  | cons z u =>
    by_cases h : z = y
    · subst h
      refine After.step ?_ (h1 u rfl)
      rw [expectChar_cons]; simp
    · refine After.bind_error (f := .err e) ?_
      rw [expectChar_cons, if_neg (by simpa using h)]

theorem After.expectAny {e : Error} {k : Char → P β} (h1 : ∀ y u, t = y :: u → After (k y) (mk u c ns ps) R) :
    After (Undname.expectAny e >>= k) (mk t c ns ps) R := by
  cases t with
  | nil => exact After.bind_error rfl
  | cons z u => exact After.step (expectAny_cons _ _ _ _ _ _) (h1 z u rfl)

theorem After.tryAny {k : Option Char → P β} (h0 : t = [] → After (k none) (mk t c ns ps) R)
    (h1 : ∀ y u, t = y :: u → After (k (some y)) (mk u c ns ps) R) : After (Undname.tryAny >>= k) (mk t c ns ps) R := by
  cases t with
  | nil => exact After.step rfl (h0 rfl)
  | cons z u => exact After.step (tryAny_cons _ _ _ _ _) (h1 z u rfl)

theorem After.tryIf {f : Char → Bool} {k : Option Char → P β}
    (h1 : ∀ y u, t = y :: u → f y = true → After (k (some y)) (mk u c ns ps) R)
    (h0 : (∀ y u, t = y :: u → f y = false) → After (k none) (mk t c ns ps) R) :
    After (Undname.tryIf f >>= k) (mk t c ns ps) R := by
  cases t with
  | nil => exact After.step rfl (h0 (by intro y u h; cases h))
  | cons z u =>
    by_cases h : f z = true
    · refine After.step ?_ (h1 z u rfl h)
      rw [tryIf_cons, if_pos h]
    · refine After.step ?_ (h0 (by intro y u e; cases e; simpa using h))
      rw [tryIf_cons, if_neg h]

theorem After.tryStr {y : Text} {k : Bool → P β} (h1 : ∀ u, t = y ++ u → After (k true) (mk u c ns ps) R)
    (h0 : ¬ y <+: t → After (k false) (mk t c ns ps) R) : After (Undname.tryStr y >>= k) (mk t c ns ps) R := by
  by_cases h : y <+: t
  · obtain ⟨u, rfl⟩ := h
    exact After.step (tryStr_hit _ _ _ _ _) (h1 u rfl)
  · refine After.step (tryStr_miss _ _ _ _ _ ?_) (h0 h)
    rw [Bool.eq_false_iff, Ne, List.isPrefixOf_iff_prefix]; exact h

theorem After.expectStr {y : Text} {e : Error} {k : Unit → P β} (h1 : ∀ u, t = y ++ u → After (k ()) (mk u c ns ps) R) :
    After (Undname.expectStr y e >>= k) (mk t c ns ps) R := by
  by_cases h : y <+: t
  · obtain ⟨u, rfl⟩ := h
    refine After.step ?_ (h1 u rfl)
    rw [expectStr_eq, tryStr_hit]; rfl
  · refine After.bind_error (f := .err e) ?_
    rw [expectStr_eq, tryStr_miss _ _ _ _ _ (by rw [Bool.eq_false_iff, Ne, List.isPrefixOf_iff_prefix]; exact h)]; rfl

theorem After.intern (b : Bool) {nd : Node} {k : Handle → P β}
    (h : After (k w.length) (mk x (World.c (w ++ [(nd, b)])) ns ps) R) :
    After (Undname.intern nd >>= k) (mk x w.c ns ps) R := by
  by_cases hc : w.c.length < 2048
  · refine After.step ?_ h
    rw [intern_mk, if_pos hc, World.c_push, World.c_length]
  · refine After.bind_error (f := .err .MaliciousInput) ?_
    simp only [run, if_neg hc]

/-- Reading a known phrase. -/
theorem Runs.post {m : P α} {k : α → P β} {Q : World → World → α → Prop} (h : Runs m x tb tb' Q) (ht : Tab w tb ns ps)
    (hk : ∀ a (w' : World) ns' ps', w <+: w' → Tab w' tb' ns' ps' → Q w w' a → After (k a) (mk rest w'.c ns' ps') R) :
    After (m >>= k) (mk (x ++ rest) w.c ns ps) R := by
  refine After.simB (h rest w ns ps ht) ?_
  rintro a s ⟨w', ns', ps', rfl, hp, ht', hq⟩
  exact hk a w' ns' ps' hp ht' hq

theorem RunsAt.post {m : P α} {k : α → P β} {Q : World → World → α → Prop} (h : RunsAt m x rest tb tb' Q) (ht : Tab w tb ns ps)
    (hk : ∀ a (w' : World) ns' ps', w <+: w' → Tab w' tb' ns' ps' → Q w w' a → After (k a) (mk rest w'.c ns' ps') R) :
    After (m >>= k) (mk (x ++ rest) w.c ns ps) R := by
  refine After.simB (h w ns ps ht) ?_
  rintro a s ⟨w', ns', ps', rfl, hp, ht', hq⟩
  exact hk a w' ns' ps' hp ht' hq

end

/-! ### Phrases -/

/-- The text begins with a phrase. -/
def Took (E : Env) (cat : Cat) (tb : Tbl) (s : Text) : Prop :=
  ∃ x rest t tb', s = x ++ rest ∧ Gram E cat tb t x tb'

/-- The parser succeeds only on phrases. -/
def Acc {α : Type} (E : Env) (cat : Cat) (m : P α) : Prop :=
  ∀ {tb : Tbl} {s : Text} {w : World} {ns ps : List Handle}, Tab w tb ns ps → Wh m (mk s w.c ns ps) (Took E cat tb s)

/-- A parser that succeeds only on phrases, and reads them correctly. -/
theorem Acc.bind {α β : Type} {E : Env} {cat : Cat} {m : P α} (h : Acc E cat m) {Q : T → World → World → α → Prop}
    (hr : ∀ {tb t x tb'}, Gram E cat tb t x tb' → Runs m x tb tb' (Q t))
    {tb : Tbl} {s : Text} {w : World} {ns ps : List Handle} (ht : Tab w tb ns ps) {k : α → P β} {R : β → St → Prop}
    (hk : ∀ x rest t tb', s = x ++ rest → Gram E cat tb t x tb' → ∀ a (w' : World) ns' ps', w <+: w' → Tab w' tb' ns' ps' → Q t w w' a →
      After (k a) (mk rest w'.c ns' ps') R) : After (m >>= k) (mk s w.c ns ps) R := by
  refine After.know (h ht) ?_
  rintro ⟨x, rest, t, tb', rfl, hg⟩
  exact Runs.post (hr hg) ht (hk x rest t tb' rfl hg)

end Undname
