/-
  Property theorems C59: the exact verdict on every symbol of a compiler, of any size.
-/
import Verif.Proof.ManglerSymN
import Verif.Proof.ManglerWord
import Verif.Props.Exact
import Verif.Props.Symbols
import Verif.Props.Distinct

namespace Undname
namespace Props
open Spec Spec.Cxx

/-- The outcome for a symbol that costs `n` nodes and is shown as `out`. -/
def verdict (n : Nat) (out : Text) : Except Error Text :=
  if 2048 < n then .error .MaliciousInput else if utf8Len out < 2 ^ 20 then .ok out else .error (.Io .OutOfMemory)

/-- **C59**: the outcome for every symbol of a compiler (C49, C53), of any size: counted from the declaration alone, a
symbol of more than 2048 nodes is refused as malicious, and every other one is demangled to its declaration unless
that has 2^20 bytes or more; whatever the flags, the word size, and what follows the name. -/
theorem C59_verdict {E : Env} (w : Bool) {y : Sym} (h : y.Ok E) (hd : Distinct E y.keys) (rest : Text) :
    demangle E (y.mangle w ++ rest) = .ok (verdict (y.nodes w) (y.cpp E)) := by
  obtain ⟨t, x, r, tb, e, g, ht⟩ := Sym.readN w h hd
  have := C56_verdict E (m := y.mangle w ++ rest) (.inl ⟨x, r ++ rest, tb, by rw [e, List.append_assoc], g⟩)
  rw [ht] at this
  exact this

/-- **C59**: the same for descriptors of types, and guards without a number. -/
theorem C59_final_verdict {E : Env} (w : Bool) {y : EndSym} (h : y.Ok E) (hd : Distinct E y.keys) :
    demangle E (y.mangle w) = .ok (verdict (y.nodes w) (y.cpp E)) := by
  obtain ⟨t, tb, g, ht⟩ := EndSym.readN w h hd
  have := C56_verdict E (m := y.mangle w) (.inr (.inl ⟨tb, g⟩))
  rw [ht] at this
  exact this

/-- **C59**: the number of nodes does not depend on the word size. -/
theorem C59_word (y : Sym) : y.nodes true = y.nodes false := y.word true false

/-- **C59**: the names of a symbol for 32 and 64 bits have the same outcome, whatever their length and whatever
follows them. -/
theorem C59_same_outcome {E : Env} {y : Sym} (h : y.Ok E) (hd : Distinct E y.keys) (rest rest' : Text) :
    demangle E (y.mangle true ++ rest) = demangle E (y.mangle false ++ rest') := by
  rw [C59_verdict true h hd, C59_verdict false h hd, C59_word]

/-- **C59**: whether a symbol is refused as malicious does not depend on the flags. -/
theorem C59_flags {E E' : Env} {y : Sym} (h : y.Ok E) (hd : Distinct E y.keys) (h' : y.Ok E') (hd' : Distinct E' y.keys) (w : Bool) (rest : Text) :
    demangle E (y.mangle w ++ rest) = .ok (.error .MaliciousInput) ↔ demangle E' (y.mangle w ++ rest) = .ok (.error .MaliciousInput) := by
  have key : ∀ (n : Nat) (out : Text), verdict n out = .error .MaliciousInput ↔ 2048 < n := by
    intro n out
    unfold verdict
    split
    · simp_all
    · split <;> simp_all
  rw [C59_verdict w h hd, C59_verdict w h' hd', Except.ok.injEq, Except.ok.injEq, key, key]

/-- **C59**: names of different plain declarations have different outcomes, unless both are refused for one reason:
of any size, for 32 or 64 bits, whatever follows them. -/
theorem C59_different {E : Env} (hE : E.flags = Flags.default) {key : Text} (hk : key.head?.any Char.isDigit = true) (w w' : Bool) {d d' : Decl}
    (h : d.Ok E) (hp : d.plain key = true) (h' : d'.Ok E) (hp' : d'.plain key = true) (rest rest' : Text)
    (hn : d.nodes w {} ≤ 2048) (ht : utf8Len (d.cpp E) < 2 ^ 20) :
    demangle E ((d.mangle w {}).1 ++ rest) = demangle E ((d'.mangle w' {}).1 ++ rest') ↔ d = d' := by
  have a := C59_verdict (E := E) w (y := .decl d) h (Decl.plain_distinct hE hk hp) rest
  have ev : verdict (Sym.nodes w (.decl d)) (Sym.cpp E (.decl d)) = .ok (d.cpp E) := by
    unfold verdict
    rw [if_neg (show ¬ 2048 < Sym.nodes w (.decl d) by show ¬ 2048 < d.nodes w {}; omega)]
    exact if_pos ht
  rw [ev] at a
  constructor
  · intro e
    exact C55_demangled hE hk w w' h hp h' hp' rest rest' (d.cpp E) a (e.symm.trans a)
  · rintro rfl
    have b := C59_verdict (E := E) w' (y := .decl d) h (Decl.plain_distinct hE hk hp) rest'
    rw [show Sym.nodes w' (.decl d) = Sym.nodes w (.decl d) from Sym.word w' w _, ev] at b
    exact a.trans b.symm

/-! Concrete symbols. -/

/-- `int *...*x` with `n` stars. -/
def stars : Nat → Cxx.Ty
  | 0 => .prim .Int false false
  | n + 1 => .ptr (.star false false false) false (stars n)

def starVar (n : Nat) : Sym := .decl (.var .global (.id c!"x") .nil (stars n))

theorem stars_nodes (w : Bool) (st : Cxx.Seen) : ∀ n, (stars n).nodes w st = n + 1
  | 0 => by rw [stars, Cxx.Ty.nodes]
  | n + 1 => by rw [stars, Cxx.Ty.nodes, stars_nodes w st n]

theorem stars_ok (E : Env) : ∀ n, (stars n).Ok E
  | 0 => by rw [stars, Cxx.Ty.Ok]; trivial
  | n + 1 => by rw [stars, Cxx.Ty.Ok]; exact stars_ok E n

theorem stars_keys : ∀ n, (stars n).keys = []
  | 0 => by rw [stars, Cxx.Ty.keys]
  | n + 1 => by rw [stars, Cxx.Ty.keys]; exact stars_keys n

theorem stars_again (w : Bool) (st : Cxx.Seen) (n : Nat) : (stars n).againNodes w st = 0 := by
  cases n <;> simp [stars, Cxx.Ty.againNodes]

theorem starVar_nodes (w : Bool) (n : Nat) : (starVar n).nodes w = n + 6 := by
  show (Decl.var .global (.id c!"x") .nil (stars n)).nodes w {} = _
  rw [Decl.nodes, Head.nodes, Cxx.Path.nodes]
  dsimp only
  rw [stars_nodes, stars_again]
  show 2 + 2 + (n + 1 + 0 + 1) = _
  omega

/-- **C59**: a pointer with 2042 stars is demangled, for 32 and 64 bits and under every set of flags; with 2043 stars it
is malicious. (The mangled name for 64 bits is half as long again, but has the same limit.) -/
theorem C59_limit (E : Env) (w : Bool) (n : Nat) (rest : Text) :
    demangle E ((starVar n).mangle w ++ rest) = .ok (.error .MaliciousInput) ↔ 2042 < n := by
  have hk : Distinct E (starVar n).keys := distinct_ids (by
    show ∀ a ∈ (Decl.var .global (.id c!"x") .nil (stars n)).keys, _
    rw [Decl.keys, Head.keys, Cxx.Path.keys, stars_keys]
    simp)
  have ho : (starVar n).Ok E := by
    show (Decl.var .global (.id c!"x") .nil (stars n)).Ok E
    rw [Decl.Ok, Head.Ok, Cxx.Path.Ok]
    exact ⟨by decide, trivial, stars_ok E n⟩
  rw [C59_verdict w ho hk rest, starVar_nodes]
  unfold verdict
  split
  · simp; omega
  · split <;> simp <;> omega

example : ((starVar 3).mangle true) = c!"?x@@3PEAPEAPEAHEA" := by decide +kernel
example : cxxFn.nodes true {} = 36 := by decide +kernel
example : symTable.nodes true = 15 ∧ symInit.nodes true = 15 := by decide +kernel
example (rest rest' : Text) : demangle E0 (symTable.mangle true ++ rest) = demangle E0 (symTable.mangle false ++ rest') :=
  C59_same_outcome (E := E0) (y := symTable) ⟨by decide +kernel, .inr (by decide +kernel)⟩ (by decide +kernel) rest rest'

end Props
end Undname
