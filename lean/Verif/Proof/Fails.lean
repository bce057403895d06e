/-
  Computations that end with a known error.
-/
import Verif.Proof.Named

namespace Undname
open Spec

/-- The computation gives the error, or runs out of nodes, or crashes (which the safety theorems exclude). -/
def Fails {α : Type} (m : P α) (s : St) (e : Error) : Prop :=
  match exec m s with
  | .ok _ => False
  | .error (.crash _) => True
  | .error (.err e') => e' = e ∨ e' = .MaliciousInput

section
variable {α β : Type} {s s' : St} {e : Error}

theorem Fails.eq {m : P α} (h : exec m s = .error (.err e)) : Fails m s e := by
  unfold Fails; rw [h]; exact .inl rfl

theorem Fails.crash {m : P α} {c : Crash} (h : exec m s = .error (.crash c)) : Fails m s e := by
  unfold Fails; rw [h]; trivial

theorem Fails.err : Fails (SM.err e : P α) s e := Fails.eq rfl

/-- The first part fails. -/
theorem Fails.left {m : P α} {k : α → P β} (h : Fails m s e) : Fails (m >>= k) s e := by
  unfold Fails at *
  rw [run_bind_eq]
  revert h
  cases exec m s with
  | ok p => exact False.elim
  | error e => cases e <;> exact id

/-- The second part fails. -/
theorem Fails.bind {m : P α} {k : α → P β} {Q : α → St → Prop} (h : Sim m s Q)
    (hk : ∀ a s', Q a s' → Fails (k a) s' e) : Fails (m >>= k) s e := by
  unfold Fails Sim at *
  rw [run_bind_eq]
  revert h
  cases exec m s with
  | ok p => exact hk _ _
  | error f =>
    cases f with
    | crash c => exact fun _ => trivial
    | err e' => exact .inr

theorem Fails.step {m : P α} {k : α → P β} {a : α} (h : exec m s = .ok (a, s')) (hk : Fails (k a) s' e) :
    Fails (m >>= k) s e := by
  unfold Fails at *
  rw [run_bind_eq, h]; exact hk

theorem Fails.of_eq {m m' : P α} (h : exec m s = exec m' s') (hf : Fails m' s' e) : Fails m s e := by
  unfold Fails at *; rw [h]; exact hf

theorem Fails.get {k : St → P β} (h : Fails (k s) s e) : Fails (SM.get >>= k) s e := Fails.step rfl h

theorem Fails.query {f : MStr → α} {k : α → P β} (h : Fails (k (f s.str)) s e) : Fails (query f >>= k) s e := Fails.step rfl h

end

section
variable {α β : Type} {w : World} {tb tb' : Tbl} {x rest : Text} {ns ps : List Handle} {e : Error}

theorem Runs.fail {m : P α} {k : α → P β} {Q : World → World → α → Prop} (h : Runs m x tb tb' Q) (ht : Tab w tb ns ps)
    (hk : ∀ a (w' : World) ns' ps', w <+: w' → Tab w' tb' ns' ps' → Q w w' a → Fails (k a) (mk rest w'.c ns' ps') e) :
    Fails (m >>= k) (mk (x ++ rest) w.c ns ps) e := by
  refine Fails.bind (h rest w ns ps ht) ?_
  rintro a s ⟨w', ns', ps', rfl, hp, ht', hq⟩
  exact hk a w' ns' ps' hp ht' hq

theorem Fails.intern (b : Bool) {nd : Node} {k : Handle → P β}
    (h : Fails (k w.length) (mk x (World.c (w ++ [(nd, b)])) ns ps) e) :
    Fails (intern nd >>= k) (mk x w.c ns ps) e := by
  unfold Fails at *
  simp only [run]
  by_cases hc : w.c.length < 2048
  · simp only [if_pos hc, run]
    rw [World.c_push] at *
    rw [World.c_length]
    exact h
  · simp only [if_neg hc, run]
    simp

/-- One round of a loop that fails. -/
theorem Fails.round {β γ : Type} {n : Nat} {body : β → P (β ⊕ γ)} {b : β} {s : St} (h : Fails (body b) s e) :
    Fails (SM.iterate (n + 1) body b) s e := by
  unfold Fails at *
  rw [run_iterate_succ]
  revert h
  cases exec (body b) s with
  | ok p => exact False.elim
  | error e => cases e <;> exact id

/-- One round of a loop that goes on and fails later. -/
theorem Fails.next {β γ : Type} {n : Nat} {body : β → P (β ⊕ γ)} {b : β} {s : St}
    (h : Sim (body b) s fun r s' => ∃ b', r = .inl b' ∧ Fails (SM.iterate n body b') s' e) :
    Fails (SM.iterate (n + 1) body b) s e := by
  unfold Fails Sim at *
  rw [run_iterate_succ]
  revert h
  cases exec (body b) s with
  | ok p =>
    obtain ⟨r, s'⟩ := p
    rintro ⟨b', rfl, h⟩
    exact h
  | error f =>
    cases f with
    | crash c => exact fun _ => trivial
    | err e' => exact fun h => .inr h

end

/-- At the top. -/
theorem rejects_of {E : Env} {m : Text} {e : Error} (h : Fails (fns (render E) (m.length + 1)).parse (mk m [] [] []) e) :
    Rejects E m e := by
  have hp : parse (render E) m = exec (fns (render E) (m.length + 1)).parse (mk m [] [] []) := rfl
  unfold Fails at h
  rw [← hp] at h
  cases h' : parse (render E) m with
  | ok p => rw [h'] at h; exact h.elim
  | error f =>
    rw [h'] at h
    cases f with
    | crash c =>
      exfalso
      refine (Props.no_crash E m [] c).2 ?_
      unfold demangle demangle_into parse_into
      rw [h']
    | err e' =>
      rcases (show e' = e ∨ e' = .MaliciousInput from h) with rfl | rfl
      · exact .inl (demangle_error h')
      · refine .inr ⟨?_, demangle_error h'⟩
        by_cases hm : m.length ≤ 1024
        · exact absurd (demangle_error h') (demangle_not_malicious E m (by unfold NODE_LIMIT; omega))
        · omega

end Undname
