/-
  Evaluation of closed terms by the kernel.
-/
import Verif.Model.Api

namespace Undname

instance {ε α : Type} [DecidableEq ε] [DecidableEq α] : DecidableEq (Except ε α)
  | .ok a, .ok b => if h : a = b then isTrue (by rw [h]) else isFalse (by simpa using h)
  | .error a, .error b => if h : a = b then isTrue (by rw [h]) else isFalse (by simpa using h)
  | .ok _, .error _ => isFalse (by simp)
  | .error _, .ok _ => isFalse (by simp)

/-- Default flags; no non-ASCII character counts as alphanumeric. -/
def E0 : Env := ⟨Flags.default, fun _ => false⟩

/-- The given flags. -/
def EF (f : Flags) : Env := ⟨f, fun _ => false⟩

/-- A test of the kernel evaluation. -/
example : demangle E0 c!"?x@@3HA" = .ok (.ok c!"int x") := by decide +kernel

end Undname
