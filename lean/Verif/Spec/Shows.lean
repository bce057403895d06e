/-
  Specification: the outcomes of a call, and names and types as a C++ programmer writes them.
-/
import Verif.Model.Api
import Verif.Spec.Grammar

namespace Undname.Spec

/-- The call demangles the name `m` to the text `out`. There are two limits: a text of 2^20 bytes or more
is an I/O error, and a name of more than 1024 characters may be refused as malicious (because of the limit
on the number of nodes). -/
def Shows (E : Env) (m out : Text) : Prop :=
  demangle E m = .ok (if utf8Len out < 2 ^ 20 then .ok out else .error (.Io .OutOfMemory)) ∨
  (1024 < m.length ∧ demangle E m = .ok (.error .MaliciousInput))

/-- The call rejects the name with the given error (a name of more than 1024 characters may be refused as
malicious before the error is found). -/
def Rejects (E : Env) (m : Text) (e : Error) : Prop :=
  demangle E m = .ok (.error e) ∨ (1024 < m.length ∧ demangle E m = .ok (.error .MaliciousInput))

/-- For names of ordinary length: the text itself. -/
theorem Shows.short {E : Env} {m out : Text} (h : Shows E m out) (hm : m.length ≤ 1024)
    (ho : utf8Len out < 2 ^ 20) : demangle E m = .ok (.ok out) := by
  rcases h with h | ⟨h, _⟩
  · rw [h, if_pos ho]
  · omega

theorem Rejects.short {E : Env} {m : Text} {e : Error} (h : Rejects E m e) (hm : m.length ≤ 1024) :
    demangle E m = .ok (.error e) := by
  rcases h with h | ⟨h, _⟩
  · exact h
  · omega

/-! ### Qualified names -/

/-- `a::b::c`. -/
def join (sep : Text) : List Text → Text
  | [] => []
  | [a] => a
  | a :: as => a ++ sep ++ join sep as

/-- A path, innermost name first, in a mangled name: every name is followed by `@`, the path by another. -/
def manglePath (p : List Text) : Text := p.flatMap (· ++ c!"@") ++ c!"@"

/-- The path in C++: outermost name first. -/
def showPath (p : List Text) : Text := join c!"::" p.reverse

example : manglePath [c!"x", c!"A", c!"B"] = c!"x@A@B@@" := by decide
example : showPath [c!"x", c!"A", c!"B"] = c!"B::A::x" := by decide

/-- A path of plain names. -/
def IsPath (p : List Text) : Prop := p ≠ [] ∧ ∀ s ∈ p, Name s

instance (p : List Text) : Decidable (IsPath p) := inferInstanceAs (Decidable (_ ∧ _))

end Undname.Spec
