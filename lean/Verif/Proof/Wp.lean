/-
  Weakest preconditions for the state/error monad. A computation may return `Err(e)` with an error that
  the crate can produce; it must not crash.
-/
import Verif.Model.Api

namespace Undname

/-- Errors a caller can see (C45). The others are in the enumeration but are never returned. -/
def Error.allowed : Error → Prop
  | .Utf8Error | .InvalidFunctionType | .InvalidPointerType | .InvalidTagUniqueName
  | .InvalidPointerCVQualifiers | .InvalidMemberPointerType | .InvalidVariableStorageClass
  | .InvalidLocallyScopedNamePiece => False
  | _ => True

/-- Running `m` from `s` ends in a state satisfying `Q`, or in an allowed Rust error. -/
def wp {σ α : Type} (m : SM σ α) (Q : α → σ → Prop) (s : σ) : Prop :=
  match m s with
  | .ok (a, s') => Q a s'
  | .error (.err e) => e.allowed
  | .error (.crash _) => False

namespace wp
variable {σ α β γ : Type} {Q : α → σ → Prop} {s : σ}

theorem mono {R : α → σ → Prop} {m : SM σ α} (h : wp m Q s) (hq : ∀ a s', Q a s' → R a s') :
    wp m R s := by
  unfold wp at *
  split <;> simp_all

theorem pure' {a : α} (h : Q a s) : wp (SM.pure a) Q s := h

theorem pure {a : α} (h : Q a s) : wp (Pure.pure a : SM σ α) Q s := h

theorem bind' {m : SM σ α} {f : α → SM σ β} {R : β → σ → Prop}
    (h : wp m (fun a s' => wp (f a) R s') s) : wp (SM.bind m f) R s := by
  unfold wp SM.bind at *
  cases hm : m s with
  | ok p => simp_all
  | error e => cases e <;> simp_all

theorem bind {m : SM σ α} {f : α → SM σ β} {R : β → σ → Prop}
    (h : wp m (fun a s' => wp (f a) R s') s) : wp (m >>= f) R s := bind' h

theorem err {e : Error} (h : e.allowed) : wp (SM.err e : SM σ α) Q s := h

theorem get {Q : σ → σ → Prop} (h : Q s s) : wp SM.get Q s := h

theorem set {Q : Unit → σ → Prop} {s' : σ} (h : Q () s') : wp (SM.set s') Q s := h

theorem modify {Q : Unit → σ → Prop} {f : σ → σ} (h : Q () (f s)) : wp (SM.modify f) Q s := h

theorem okOr {e : Error} {o : Option α} (he : e.allowed) (h : ∀ a, o = some a → Q a s) :
    wp (SM.okOr e o) Q s := by
  cases o with
  | none => exact he
  | some a => exact h a rfl

theorem lift_ok {m : Except Fail α} {a : α} (hm : m = .ok a) (h : Q a s) : wp (SM.lift m) Q s := by
  subst hm; exact h

theorem whenB {b : Bool} {m : SM σ Unit} {Q : Unit → σ → Prop} (h1 : b = true → wp m Q s)
    (h0 : b = false → Q () s) : wp (whenB b m) Q s := by
  cases b with
  | true => exact h1 rfl
  | false => exact h0 rfl

theorem whenSome {o : Option α} {f : α → SM σ Unit} {Q : Unit → σ → Prop}
    (h1 : ∀ a, o = some a → wp (f a) Q s) (h0 : o = none → Q () s) : wp (whenSome o f) Q s := by
  cases o with
  | none => exact h0 rfl
  | some a => exact h1 a rfl

theorem forN {n : Nat} {body : β → SM σ β} {b : β} (I : β → σ → Prop)
    (h0 : I b s) (hb : ∀ b s, I b s → wp (body b) I s) : wp (SM.forN n body b) I s := by
  induction n generalizing b s with
  | zero => exact h0
  | succ n ih => exact bind' (mono (hb b s h0) fun a s' h => ih h)

/-- Loops whose measure decreases with every iteration. -/
theorem iterate {n : Nat} {body : β → SM σ (β ⊕ γ)} {b : β} {R : γ → σ → Prop}
    (I : β → σ → Prop) (μ : σ → Nat) (h0 : I b s) (hn : μ s < n)
    (hb : ∀ b s, I b s → wp (body b) (fun x s' => match x with
      | .inl b' => I b' s' ∧ μ s' < μ s
      | .inr c => R c s') s) : wp (SM.iterate n body b) R s := by
  induction n generalizing b s with
  | zero => omega
  | succ n ih =>
    refine bind' (mono (hb b s h0) ?_)
    intro x s' hx
    cases x with
    | inl b' => exact ih hx.1 (by have := hx.2; omega)
    | inr c => exact hx

theorem ok {m : SM σ α} (h : wp m Q s) {a : α} {s' : σ} (hm : m s = .ok (a, s')) : Q a s' := by
  unfold wp at h; rw [hm] at h; exact h

theorem no_crash {m : SM σ α} (h : wp m Q s) (c : Crash) : m s ≠ .error (.crash c) := by
  intro hm; unfold wp at h; rw [hm] at h; exact h

theorem err_allowed {m : SM σ α} (h : wp m Q s) {e : Error} (hm : m s = .error (.err e)) :
    e.allowed := by
  unfold wp at h; rw [hm] at h; exact h

end wp

end Undname
