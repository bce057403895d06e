/-
  Property theorems C67: back-references may be used or not, occurrence by occurrence.
-/
import Verif.Proof.Mixed
import Verif.Proof.MixedEnds
import Verif.Proof.MixedSym
import Verif.Proof.MixedLength
import Verif.Proof.MixedSymN
import Verif.Proof.MixedCheap
import Verif.Proof.MixedBest
import Verif.Proof.MixedSymEnds
import Verif.Props.Spelled
import Verif.Props.Verdict
import Verif.Props.Distinct

namespace Undname
namespace Props
open Spec Spec.Cxx

/-- **C67**: wherever a compiler may use a back-reference to a name or a parameter type it is free not to: whatever
it chooses at each of these places (the coins), the name is demangled to the same declaration in C++, under every
set of flags and whatever follows it. -/
theorem C67_free_choice {E : Env} (w : Bool) {d : Decl} (h : d.Ok E) (hd : Distinct E d.keys) (coins : Nat → Bool) (rest : Text) :
    Shows E ((d.mix w { coins }).1 ++ rest) (d.cpp E) := by
  obtain ⟨t, x, tb', g⟩ := d.mgram hd w h (fun _ h => h) { coins } {} (Seen.like_nil E _)
  have := shows_sym g.sym rest
  rw [← g.eq, g.alike.text_eq] at this
  have e : (d.tree E).text E = d.cpp E := (d.pr_eq h [] (Ctx.nil E)).trans (List.nil_append _)
  rwa [e] at this

/-- **C67**: with all the back-references the name is the one of C49, and without any it is the one of C66. -/
theorem C67_extremes (w : Bool) (d : Decl) :
    (d.mix w { coins := fun _ => true }).1 = (d.mangle w {}).1 ∧ (d.mix w { coins := fun _ => false }).1 = d.spell w := by
  refine ⟨congrArg Prod.fst (d.mix_true w {}), ?_⟩
  obtain ⟨s, h⟩ := d.mix_false w {}
  exact congrArg Prod.fst h

/-- **C67**: no choice makes a name longer than it is without back-references. -/
theorem C67_no_longer (w : Bool) (d : Decl) (coins : Nat → Bool) : (d.mix w { coins }).1.length ≤ (d.spell w).length :=
  d.mix_le w { coins }

/-- **C67**: any two choices give names with the same text. -/
theorem C67_same_text {E : Env} (w : Bool) {d : Decl} (h : d.Ok E) (hd : Distinct E d.keys) (hl : (d.spell w).length ≤ 1024)
    (c1 c2 : Nat → Bool) : demangle E (d.mix w { coins := c1 }).1 = demangle E (d.mix w { coins := c2 }).1 := by
  have h1 := C67_no_longer w d c1
  have h2 := C67_no_longer w d c2
  have a := C67_free_choice w h hd c1 []
  have b := C67_free_choice w h hd c2 []
  rw [List.append_nil] at a b
  rcases a with a | ⟨a, -⟩
  · rcases b with b | ⟨b, -⟩
    · rw [a, b]
    · omega
  · omega

/-- **C67**: the same of every other symbol: tables, descriptors, thunks, guards, initializers. -/
theorem C67_symbols {E : Env} (w : Bool) {y : Sym} (h : y.Ok E) (hd : Distinct E y.keys) (coins : Nat → Bool) (rest : Text) :
    Shows E (y.mix w coins ++ rest) (y.cpp E) := by
  obtain ⟨t, x, r, tb, e, g, ht⟩ := Sym.mread w coins h hd
  have := shows_sym g (r ++ rest)
  rw [ht] at this
  rwa [e, List.append_assoc]

/-- **C67**: the same of the symbols which nothing may follow. -/
theorem C67_final_symbols {E : Env} (w : Bool) {y : EndSym} (h : y.Ok E) (hd : Distinct E y.keys) (coins : Nat → Bool) :
    Shows E (y.mix w coins) (y.cpp E) := by
  obtain ⟨t, tb, g, ht⟩ := EndSym.mread w coins h hd
  have := shows_symEnd g
  rwa [ht] at this

/-- **C67**: for names of any length: the exact outcome, from the number of nodes that the declaration costs with these
choices. -/
theorem C67_verdict {E : Env} (w : Bool) {y : Sym} (h : y.Ok E) (hd : Distinct E y.keys) (coins : Nat → Bool) (rest : Text) :
    demangle E (y.mix w coins ++ rest) = .ok (verdict (y.mixNodes w coins) (y.cpp E)) := by
  obtain ⟨t, x, r, tb, e, g, ht⟩ := Sym.mreadN w coins h hd
  have := C56_verdict E (m := y.mix w coins ++ rest) (.inl ⟨x, r ++ rest, tb, by rw [e, List.append_assoc], g⟩)
  rw [ht] at this
  exact this

/-- **C67**: the same for the symbols which nothing may follow. -/
theorem C67_final_verdict {E : Env} (w : Bool) {y : EndSym} (h : y.Ok E) (hd : Distinct E y.keys) (coins : Nat → Bool) :
    demangle E (y.mix w coins) = .ok (verdict (y.mixNodes w coins) (y.cpp E)) := by
  obtain ⟨t, tb, g, ht⟩ := EndSym.mreadN w coins h hd
  have := C56_verdict E (m := y.mix w coins) (.inr (.inl ⟨tb, g⟩))
  rw [ht] at this
  exact this

/-- **C67**: the same extremes for the other symbols. -/
theorem C67_symbol_extremes (w : Bool) (y : Sym) :
    y.mix w (fun _ => true) = y.mangle w ∧ y.mix w (fun _ => false) = y.spell w := ⟨y.mix_true w, y.mix_false w⟩

/-- **C67**: and for the symbols which nothing may follow. -/
theorem C67_final_extremes (w : Bool) (y : EndSym) :
    y.mix w (fun _ => true) = y.mangle w ∧ y.mix w (fun _ => false) = y.spell w := ⟨y.mix_true w, y.mix_false w⟩

theorem verdict_fewer {n m : Nat} {x out : Text} (h : n ≤ m) (e : verdict m x = .ok out) : verdict n x = .ok out := by
  unfold verdict at *
  split at e
  · cases e
  · rwa [if_neg (by omega)]

/-- **C67**: using a back-reference never makes a name unacceptable. A name of any length that is written without
back-references and is demangled to some text is demangled to the same text if it is written with back-references, be it
all of them or only some, whatever follows it. -/
theorem C67_abbreviating_is_safe {E : Env} (w : Bool) {y : Sym} (h : y.Ok E) (hd : Distinct E y.keys) {rest out : Text}
    (e : demangle E (y.spell w ++ rest) = .ok (.ok out)) (coins : Nat → Bool) (rest' : Text) :
    demangle E (y.mix w coins ++ rest') = .ok (.ok out) ∧ demangle E (y.mangle w ++ rest') = .ok (.ok out) := by
  rw [← y.mix_false w, C67_verdict w h hd] at e
  injection e with e
  have all : ∀ c, demangle E (y.mix w c ++ rest') = .ok (.ok out) := fun c => by
    rw [C67_verdict w h hd, verdict_fewer (y.mix_cheap w c) e]
  exact ⟨all coins, y.mix_true w ▸ all _⟩

/-- **C67**: the same for the symbols which nothing may follow. -/
theorem C67_final_abbreviating {E : Env} (w : Bool) {y : EndSym} (h : y.Ok E) (hd : Distinct E y.keys) {out : Text}
    (e : demangle E (y.spell w) = .ok (.ok out)) (coins : Nat → Bool) :
    demangle E (y.mix w coins) = .ok (.ok out) ∧ demangle E (y.mangle w) = .ok (.ok out) := by
  rw [← y.mix_false w, C67_final_verdict w h hd] at e
  injection e with e
  have all : ∀ c, demangle E (y.mix w c) = .ok (.ok out) := fun c => by
    rw [C67_final_verdict w h hd, verdict_fewer (y.mix_cheap w c) e]
  exact ⟨all coins, y.mix_true w ▸ all _⟩

/-- **C67**: no choice makes a name shorter than the one that the compiler writes, with all the back-references. -/
theorem C67_shortest (w : Bool) (y : Sym) (coins : Nat → Bool) : (y.mangle w).length ≤ (y.mix w coins).length :=
  y.mix_true w ▸ (y.mix_best w coins).2

theorem C67_final_shortest (w : Bool) (y : EndSym) (coins : Nat → Bool) : (y.mangle w).length ≤ (y.mix w coins).length :=
  y.mix_true w ▸ (y.mix_best w coins).2

/-- **C67**: if any choice of back-references gives a name that is demangled to some text, so is the name that the
compiler writes, with all of them. -/
theorem C67_compilers_choice {E : Env} (w : Bool) {y : Sym} (h : y.Ok E) (hd : Distinct E y.keys) {rest out : Text} (coins : Nat → Bool)
    (e : demangle E (y.mix w coins ++ rest) = .ok (.ok out)) (rest' : Text) : demangle E (y.mangle w ++ rest') = .ok (.ok out) := by
  rw [C67_verdict w h hd] at e
  injection e with e
  rw [← y.mix_true w, C67_verdict w h hd, verdict_fewer (y.mix_best w coins).1 e]

theorem C67_final_compilers_choice {E : Env} (w : Bool) {y : EndSym} (h : y.Ok E) (hd : Distinct E y.keys) {out : Text} (coins : Nat → Bool)
    (e : demangle E (y.mix w coins) = .ok (.ok out)) : demangle E (y.mangle w) = .ok (.ok out) := by
  rw [C67_final_verdict w h hd] at e
  injection e with e
  rw [← y.mix_true w, C67_final_verdict w h hd, verdict_fewer (y.mix_best w coins).1 e]

/-- **C67** and **C55**: two names of plain declarations, written with any choices, for 32 or 64 bits, with anything after
them, that are demangled to one text are names of one declaration. -/
theorem C67_one_declaration {E : Env} (hE : E.flags = Flags.default) {key : Text} (hk : key.head?.any Char.isDigit = true) (w w' : Bool)
    {d d' : Decl} (h : d.Ok E) (hp : d.plain key = true) (h' : d'.Ok E) (hp' : d'.plain key = true) (c c' : Nat → Bool) (rest rest' out : Text)
    (e : demangle E ((d.mix w { coins := c }).1 ++ rest) = .ok (.ok out))
    (e' : demangle E ((d'.mix w' { coins := c' }).1 ++ rest') = .ok (.ok out)) : d = d' :=
  C55_declarations hE hp hp' ((shows_ok (C67_free_choice w h (Decl.plain_distinct hE hk hp) c rest) e).symm.trans
    (shows_ok (C67_free_choice w' h' (Decl.plain_distinct hE hk hp') c' rest') e'))

/-! Concrete choices, for a function with three strings as parameters: always, never, and every second time. -/

/-- `void f(std::string, std::string, std::string)`. -/
def cxxFn3 : Decl := .fn (.free false) (.id c!"f") .nil
  (.mk 'A' (.prim .Void false false) (.cons (.tag .Class cxxVector false false) (.cons (.tag .Class cxxVector false false)
    (.cons (.tag .Class cxxVector false false) .nil))) false false)

example : (cxxFn3.mix true { coins := fun _ => true }).1 = c!"?f@@YAXV?$vector@H@std@@00@Z" ∧
    (cxxFn3.mangle true {}).1 = c!"?f@@YAXV?$vector@H@std@@00@Z" := by decide +kernel
example : (cxxFn3.mix true { coins := fun _ => false }).1 = cxxFn3.spell true ∧
    cxxFn3.spell true = c!"?f@@YAXV?$vector@H@std@@V?$vector@H@std@@V?$vector@H@std@@@Z" := by decide +kernel
/-- The second parameter is written again, with its names abbreviated, and the third is a back-reference. -/
example : (cxxFn3.mix true { coins := fun k => k ≠ 6 }).1 = c!"?f@@YAXV?$vector@H@std@@V12@0@Z" := by decide +kernel
/-- The other way round. -/
example : (cxxFn3.mix true { coins := fun k => k ≠ 8 }).1 = c!"?f@@YAXV?$vector@H@std@@0V12@@Z" := by decide +kernel

example : demangle E0 c!"?f@@YAXV?$vector@H@std@@V12@0@Z" = .ok (.ok
    c!"void __cdecl f(class std::vector<int>, class std::vector<int>, class std::vector<int>)") := by
  have h := (C67_free_choice (E := E0) true (d := cxxFn3) (show Decl.Ok _ _ by decide +kernel) (by decide +kernel) (fun k => k ≠ 6) []).short
    (by decide +kernel) (by decide +kernel)
  exact (congrArg (demangle E0) (by decide +kernel)).trans (h.trans (by decide +kernel))

/-- The table of `std::vector<int>` for its base `std::Base`, in two ways. -/
example : symTable.mix true (fun _ => true) = c!"??_7?$vector@H@std@@6BBase@1@@" ∧
    symTable.mix true (fun _ => false) = c!"??_7?$vector@H@std@@6BBase@std@@@" := by decide +kernel

/-- What the choices cost: 18 nodes with all the back-references, 34 without any. -/
example : (Sym.decl cxxFn3).mixNodes true (fun _ => true) = 18 ∧ (Sym.decl cxxFn3).mixNodes true (fun k => k ≠ 6) = 21 ∧
    (Sym.decl cxxFn3).mixNodes true (fun _ => false) = 34 ∧ (Sym.decl cxxFn3).nodes true = 18 := by decide +kernel

/-- A function with `n` strings as parameters. -/
def cxxManyTys : Nat → Tys
  | 0 => .nil
  | n + 1 => .cons (.tag .Class cxxVector false false) (cxxManyTys n)
def cxxMany (n : Nat) : Decl := .fn (.free false) (.id c!"f") .nil (.mk 'A' (.prim .Void false false) (cxxManyTys n) false false)

/-- With 300 parameters the name without back-references is refused, and the usual one is not: abbreviating is safe, but
not the other way round. -/
example : demangle E0 ((Sym.decl (cxxMany 300)).mix true fun _ => false) = .ok (.error .MaliciousInput) ∧
    demangle E0 ((Sym.decl (cxxMany 300)).mix true fun _ => true) = .ok (.ok ((Sym.decl (cxxMany 300)).cpp E0)) := by
  have h : (Sym.decl (cxxMany 300)).Ok E0 := by show Decl.Ok _ _; decide +kernel
  have hd : Distinct E0 (Sym.decl (cxxMany 300)).keys := by decide +kernel
  constructor
  · have := C67_verdict true h hd (fun _ => false) []
    rw [List.append_nil] at this
    rw [this]
    exact congrArg Except.ok (if_pos (by decide +kernel))
  · have := C67_verdict true h hd (fun _ => true) []
    rw [List.append_nil] at this
    rw [this]
    exact congrArg Except.ok ((if_neg (by decide +kernel)).trans (if_pos (by decide +kernel)))

/-- The hypothesis of `C67_abbreviating_is_safe`. -/
example : demangle E0 ((Sym.decl cxxFn3).spell true ++ c!"rest") = .ok (.ok
    c!"void __cdecl f(class std::vector<int>, class std::vector<int>, class std::vector<int>)") := by
  have h : (Sym.decl cxxFn3).Ok E0 := by show Decl.Ok _ _; decide +kernel
  have hd : Distinct E0 (Sym.decl cxxFn3).keys := by decide +kernel
  have := C67_verdict true h hd (fun _ => false) c!"rest"
  rw [Sym.mix_false] at this
  rw [this]
  exact congrArg Except.ok ((if_neg (by decide +kernel)).trans ((if_pos (by decide +kernel)).trans (by decide +kernel)))

example : cxxFn3.Ok E0 ∧ Distinct E0 cxxFn3.keys := by constructor <;> decide +kernel

end Props
end Undname
