/-
  How many steps parsing takes: linear in the number of characters read, for a renderer of bounded cost.
-/
import Verif.Timed.EraseParse
import Verif.Proof.CostParse
import Verif.Proof.Strings
import Verif.Proof.Literals

namespace Undname.Timed
open Undname (Fail Error Crash Text Handle Cache Kind Node MStr St isPrefixOf_drop splitAtBytes_append splitAtBytes_pos)

/-- Steps paid for by one character read. -/
local notation "K" => (10000 : Int)

/-- What is left of the text from its first `?` on: what has not been looked at in search of the next `?`. -/
def gap : Text → Nat
  | [] => 0
  | c :: t => if c == '?' then t.length + 1 else gap t

theorem gap_le (t : Text) : gap t ≤ t.length := by
  induction t with
  | nil => exact Nat.le_refl _
  | cons c t ih => unfold gap; split <;> simp <;> omega

theorem gap_cons (c : Char) (t : Text) : gap t ≤ gap (c :: t) := by
  have := gap_le t
  rw [gap]; split <;> omega

theorem gap_suffix {t u : Text} (h : t <:+ u) : gap t ≤ gap u := by
  obtain ⟨p, rfl⟩ := h
  induction p with
  | nil => exact Nat.le_refl _
  | cons c p ih => exact Nat.le_trans ih (gap_cons c _)

/-- The cache has room for so many nodes. -/
def room (s : St) : Nat := Undname.NODE_LIMIT - s.cache.length

/-- The steps that can still be paid for: 10000 for every character to be read, `C` for every node to be made, ten for
every character that has not been looked at in search of a `?`. -/
def bank (C : Nat) (s : St) : Nat := 10000 * s.str.string.length + 10 * gap s.str.string + C * room s

/-- What remains of it when the first character will be read. -/
def bank' (C : Nat) (s : St) : Nat := 10000 * s.str.string.length + 10 * gap s.str.string.tail + C * room s

theorem bank'_le (C : Nat) (s : St) : bank' C s ≤ bank C s := by
  unfold bank bank'
  cases h : s.str.string with
  | nil => simp [gap]
  | cons c t => have := gap_cons c t; simp only [List.tail_cons]; omega

/-- The account after a computation on `s`: `e` steps of credit, plus what is paid for, leave `d`
steps of credit on success and are not overdrawn on failure. -/
def TpRes {α : Type} (C : Nat) (e : Int) (d : α → Int) (s : St) : Except Fail (α × St) × Nat → Prop
  | (.ok (a, s'), t) => (t : Int) + d a + bank C s' ≤ e + bank C s
  | (.error _, t) => (t : Int) ≤ e + bank C s

/-- `m` started with `e` steps of credit. -/
def Tp {α : Type} (C : Nat) (e : Int) (m : P α) (d : α → Int) : Prop := ∀ s, TpRes C e d s (m s)

/-- The same for a computation that leaves aside what the first character's search for the next `?` costs. -/
def TqRes {α : Type} (C : Nat) (e : Int) (d : α → Int) (s : St) : Except Fail (α × St) × Nat → Prop
  | (.ok (a, s'), t) => (t : Int) + d a + bank C s' ≤ e + bank' C s
  | (.error _, t) => (t : Int) ≤ e + bank' C s

def Tq {α : Type} (C : Nat) (e : Int) (m : P α) (d : α → Int) : Prop := ∀ s, TqRes C e d s (m s)

/-- The credit after an iteration of a loop. -/
def loopTp {α β : Type} (e : β → Int) (d : α → Int) : β ⊕ α → Int
  | .inl b => e b + 1
  | .inr a => d a

namespace Tp
variable {C : Nat} {α β γ : Type} {e e1 : Int} {d d1 : α → Int} {d2 : β → Int}

theorem seq {m : P α} {f : α → P β} (h : Tp C e1 m d1) (he : e1 + 1 ≤ e) (hf : ∀ a, Tp C (e - e1 - 1 + d1 a) (f a) d2) :
    Tp C e (m >>= f) d2 := by
  intro s
  have h1 := h s
  show TpRes C e d2 s (SM.bind m f s)
  unfold SM.bind
  rcases hm : m s with ⟨r, t⟩
  rw [hm] at h1
  cases r with
  | error x => simp only [TpRes] at h1 ⊢; omega
  | ok x =>
    have h2 := hf x.1 x.2
    show TpRes C e d2 s ((f x.1 x.2).1, t + (f x.1 x.2).2 + 1)
    rcases hn : f x.1 x.2 with ⟨r, t'⟩
    rw [hn] at h2
    cases r with
    | error y => simp only [TpRes] at h1 h2 ⊢; omega
    | ok y => simp only [TpRes] at h1 h2 ⊢; omega

theorem mono {m : P α} (h : Tp C e1 m d1) (he : e1 ≤ e) (hd : ∀ a, d a ≤ e - e1 + d1 a) : Tp C e m d := by
  intro s
  have h1 := h s
  rcases hm : m s with ⟨r, t⟩
  rw [hm] at h1
  cases r with
  | error x => simp only [TpRes] at h1 ⊢; omega
  | ok x => have := hd x.1; simp only [TpRes] at h1 ⊢; omega

theorem mono0 {m : P α} (h : Tp C e1 m d) (he : e1 ≤ e) : Tp C e m d := mono h he fun _ => by omega

theorem pure {a : α} (h : d a ≤ e) : Tp C e (Pure.pure a) d := by
  intro s
  show ((0 : Nat) : Int) + d a + bank C s ≤ e + bank C s
  omega

theorem pure' {a : α} (h : d a ≤ e) : Tp C e (SM.pure a) d := pure (a := a) h

theorem err {x : Error} (h : 1 ≤ e) : Tp C e (SM.err x) d := by
  intro s
  show ((1 : Nat) : Int) ≤ e + bank C s
  omega

theorem crash {x : Crash} (h : 1 ≤ e) : Tp C e (SM.crash x) d := by
  intro s
  show ((1 : Nat) : Int) ≤ e + bank C s
  omega

theorem pureB {a : α} {f : α → P β} (he : 1 ≤ e) (h : Tp C (e - 1) (f a) d2) : Tp C e (Pure.pure a >>= f) d2 := by
  intro s
  have h1 := h s
  show TpRes C e d2 s ((f a s).1, 0 + (f a s).2 + 1)
  rcases hm : f a s with ⟨r, t⟩
  rw [hm] at h1
  cases r with
  | error x => simp only [TpRes] at h1 ⊢; omega
  | ok x => simp only [TpRes] at h1 ⊢; omega

theorem errB {x : Error} {f : α → P β} (h : 2 ≤ e) : Tp C e (SM.err x >>= f) d2 := by
  intro s
  show ((1 + 1 : Nat) : Int) ≤ e + bank C s
  omega

/-- A basic operation that does not read the input. -/
theorem prim {m : Undname.SM St α} (h : ∀ s a s', m s = .ok (a, s') → bank C s' ≤ bank C s) : Tp C 1 (SM.prim m) (fun _ => 0) := by
  intro s
  show TpRes C 1 (fun _ => 0) s (m s, 1)
  cases hm : m s with
  | error x => simp only [TpRes]; omega
  | ok x => have := h s x.1 x.2 hm; simp only [TpRes]; omega

theorem get0 : Tp C 1 (SM.get : P St) (fun _ => 0) := prim fun s a s' h => by cases h; exact Nat.le_refl _

theorem lift0 {x : Except Fail α} : Tp C 1 (SM.lift x : P α) (fun _ => 0) := prim fun s a s' h => by
  cases x with
  | error y => cases h
  | ok y => cases h; exact Nat.le_refl _

/-- Neither the input nor the number of nodes changes. -/
def Keeps (s s' : St) : Prop := s'.str = s.str ∧ s'.cache.length = s.cache.length

theorem _root_.Undname.Timed.Tp.Keeps.bank {s s' : St} (h : Keeps s s') : bank C s' = bank C s := by
  unfold Timed.bank room; rw [h.1, h.2]

theorem modify0 {g : St → St} (hg : ∀ s, Keeps s (g s)) : Tp C 1 (SM.modify g : P Unit) (fun _ => 0) := prim fun s a s' h => by
  cases h
  rw [(hg s).bank]
  exact Nat.le_refl _

theorem room_intern {n : Node} {s s' : St} {h : Handle} (hi : Undname.intern n s = .ok (h, s')) :
    s'.str = s.str ∧ room s = room s' + 1 := by
  unfold Undname.intern at hi
  split at hi
  · cases hi
  · cases hi
    refine ⟨rfl, ?_⟩
    simp only [room, List.length_append, List.length_singleton]
    omega

theorem bank_intern {n : Node} {s s' : St} {h : Handle} (hi : Undname.intern n s = .ok (h, s')) : bank C s' + C = bank C s := by
  obtain ⟨h1, h2⟩ := room_intern hi
  unfold bank
  rw [h1, h2, Nat.mul_add]
  omega

/-- Making a node pays. -/
theorem intern0 {n : Node} : Tp C (1 + nodeSize n) (intern n) (fun _ => C) := by
  intro s
  show TpRes C _ _ s (Undname.intern n s, 1 + nodeSize n)
  cases hi : Undname.intern n s with
  | error x => simp only [TpRes]; omega
  | ok x => have := bank_intern (C := C) hi; simp only [TpRes]; omega

theorem okOr0 {x : Error} {o : Option α} : Tp C 1 (SM.okOr x o : P α) (fun _ => 1) := by
  cases o with
  | none => exact err (by omega)
  | some a => exact pure' (by omega)

theorem query0 {α : Type} {g : MStr → α} : Tp C 2 (query g) (fun _ => 0) :=
  seq get0 (by omega) fun _ => pure (by omega)

theorem queryE0 {α : Type} {g : MStr → Except Fail α} : Tp C 3 (queryE g) (fun _ => 0) :=
  seq get0 (by omega) fun _ => mono lift0 (by omega) fun _ => by omega

theorem resolveP0 {k : Kind} {h : Handle} : Tp C 3 (resolveP k h) (fun _ => 0) :=
  seq get0 (by omega) fun _ => mono lift0 (by omega) fun _ => by omega

theorem downcastP0 {k k1 : Kind} {h : Handle} : Tp C 3 (downcastP k k1 h) (fun _ => 0) :=
  seq get0 (by omega) fun _ => mono lift0 (by omega) fun _ => by omega

theorem modifyNode0 {k : Kind} {h : Handle} {g : Node → Node} : Tp C 5 (modifyNode k h g) (fun _ => 0) :=
  seq resolveP0 (by omega) fun _ => mono (modify0 fun _ => ⟨rfl, by simp⟩) (by omega) fun _ => by omega

/-- Reading the input gives credit. -/
theorem onStr {m : Undname.SM MStr α} {n : α → Int} (h : ∀ x a y, m x = .ok (a, y) →
    (y.string.length : Int) + n a ≤ x.string.length ∧ y.string <:+ x.string) : Tp C 1 (onStr m) (fun a => K * n a) := by
  intro s
  show TpRes C 1 _ s (Undname.onStr m s, 1)
  unfold Undname.onStr
  cases hm : m s.str with
  | error y => simp only [TpRes]; omega
  | ok y =>
    obtain ⟨h1, h2⟩ := h s.str y.1 y.2 hm
    have h2 := gap_suffix h2
    have h3 : room { s with str := y.2 } = room s := rfl
    simp only [TpRes, bank, h3] at *
    omega

theorem len_try_if {g : Char → Bool} {x : MStr} {o : Option Char} {y : MStr}
    (h : MStr.try_consume_char_if g x = .ok (o, y)) :
    (y.string.length : Int) + (if o.isSome then 1 else 0) ≤ x.string.length ∧ y.string <:+ x.string := by
  have h' : exec (MStr.try_consume_char_if g) x = .ok (o, y) := h
  unfold MStr.try_consume_char_if at h'
  simp only [run] at h'
  cases hx : x.string with
  | nil =>
    simp only [run, hx] at h'
    cases h'
    simp [hx]
  | cons c cs =>
    simp only [run, hx] at h'
    by_cases hf : g c = true
    · simp only [hf, if_true, run] at h'
      by_cases hn : 1 ≤ x.chars
      · simp only [hn, run, if_true] at h'
        cases h'
        simp
      · simp only [hn, run, if_false] at h'
        cases h'
    · simp only [hf, run] at h'
      cases h'
      simp [hx]

theorem tryIf0 (g : Char → Bool) : Tp C 1 (tryIf g) (fun o => if o.isSome then K else 0) :=
  mono (onStr (n := fun o => if o.isSome then 1 else 0) fun _ _ _ h => len_try_if h) (by omega) fun o => by
    cases o <;> simp

theorem len_try_str {t : Text} {x : MStr} {o : Option Text} {y : MStr} (h : MStr.try_consume_str t x = .ok (o, y)) :
    (y.string.length : Int) + (if o.isSome then (t.length : Int) else 0) ≤ x.string.length ∧ y.string <:+ x.string := by
  have h' : exec (MStr.try_consume_str t) x = .ok (o, y) := h
  unfold MStr.try_consume_str at h'
  simp only [run] at h'
  by_cases hp : x.starts_with t = true
  · simp only [hp, if_true, run] at h'
    have := congrArg List.length (isPrefixOf_drop (t := t) (l := x.string) hp)
    simp only [List.length_append] at this
    by_cases hn : t.length ≤ x.chars
    · simp only [hn, run, if_true] at h'
      cases h'
      refine ⟨?_, List.drop_suffix _ _⟩
      show ((x.string.drop t.length).length : Int) + t.length ≤ x.string.length
      omega
    · simp only [hn, run, if_false] at h'
      cases h'
  · simp only [hp, run] at h'
    cases h'
    simp

theorem tryStr0 {t : Text} (ht : t ≠ []) : Tp C 2 (tryStr t) (fun b => if b then K else 0) := by
  unfold tryStr
  refine seq (onStr (n := fun o : Option Text => if o.isSome then (t.length : Int) else 0) fun _ _ _ h => len_try_str h)
    (by omega) fun o => pure ?_
  have := List.length_pos_iff.2 ht
  cases o with
  | none => simp
  | some a => simp only [Option.isSome_some, if_true]; omega

theorem try20 : Tp C 1 (Timed.onStr MStr.try_consume_2_chars) (fun _ => 0) := by
  refine mono (onStr (n := fun _ => 0) fun x a y h => ?_) (by omega) fun _ => by omega
  have h' : exec MStr.try_consume_2_chars x = .ok (a, y) := h
  unfold MStr.try_consume_2_chars at h'
  simp only [run] at h'
  rcases hx : x.string with _ | ⟨b, _ | ⟨c, cs⟩⟩
  · simp only [run, hx] at h'; cases h'; simp [hx]
  · simp only [run, hx] at h'; cases h'; simp [hx]
  · simp only [run, hx] at h'
    by_cases hn : 2 ≤ x.chars
    · simp only [hn, run, if_true] at h'
      cases h'
      refine ⟨?_, ⟨[b, c], by simp⟩⟩
      show ((cs.length : Nat) : Int) + 0 ≤ ((b :: c :: cs).length : Nat)
      simp only [List.length_cons]
      omega
    · simp only [hn, run, if_false] at h'
      cases h'

/-- Sequencing at one state, with what is known of the result. -/
theorem seqS {m : P α} {f : α → P β} {s : St} (h : TpRes C e1 d1 s (m s)) (he : e1 + 1 ≤ e)
    (hf : ∀ a s', (m s).1 = .ok (a, s') → TpRes C (e - e1 - 1 + d1 a) d2 s' (f a s')) : TpRes C e d2 s ((m >>= f) s) := by
  show TpRes C e d2 s (SM.bind m f s)
  unfold SM.bind
  rcases hm : m s with ⟨r, t⟩
  rw [hm] at h hf
  cases r with
  | error x => simp only [TpRes] at h ⊢; omega
  | ok x =>
    have h2 := hf x.1 x.2 rfl
    show TpRes C e d2 s ((f x.1 x.2).1, t + (f x.1 x.2).2 + 1)
    rcases hn : f x.1 x.2 with ⟨r, t'⟩
    rw [hn] at h2
    cases r with
    | error y => simp only [TpRes] at h h2 ⊢; omega
    | ok y => simp only [TpRes] at h h2 ⊢; omega

/-- The results of `m` satisfy `Q`. -/
def Has (m : P α) (Q : α → Prop) : Prop := ∀ s a s', (m s).1 = .ok (a, s') → Q a

theorem seqQ {m : P α} {f : α → P β} {Q : α → Prop} (h : Tp C e1 m d1) (hq : Has m Q) (he : e1 + 1 ≤ e)
    (hf : ∀ a, Q a → Tp C (e - e1 - 1 + d1 a) (f a) d2) : Tp C e (m >>= f) d2 :=
  fun s => seqS (h s) he fun a s' ha => hf a (hq s a s' ha) s'

/-! With a continuation. -/

theorem get {f : St → P β} (he : 2 ≤ e) (h : ∀ s, Tp C (e - 2) (f s) d2) : Tp C e (SM.get >>= f) d2 :=
  seq get0 (by omega) fun a => mono0 (h a) (by omega)
theorem query {α : Type} {g : MStr → α} {f : α → P β} (he : 3 ≤ e) (h : ∀ a, Tp C (e - 3) (f a) d2) : Tp C e (query g >>= f) d2 :=
  seq query0 (by omega) fun a => mono0 (h a) (by omega)
theorem firstIs {g : Char → Bool} {f : Bool → P β} (he : 3 ≤ e) (h : ∀ a, Tp C (e - 3) (f a) d2) : Tp C e (firstIs g >>= f) d2 :=
  query he h
theorem queryE {α : Type} {g : MStr → Except Fail α} {f : α → P β} (he : 4 ≤ e) (h : ∀ a, Tp C (e - 4) (f a) d2) :
    Tp C e (queryE g >>= f) d2 := seq queryE0 (by omega) fun a => mono0 (h a) (by omega)
theorem lift {α : Type} {x : Except Fail α} {f : α → P β} (he : 2 ≤ e) (h : ∀ a, Tp C (e - 2) (f a) d2) :
    Tp C e (SM.lift x >>= f) d2 := seq lift0 (by omega) fun a => mono0 (h a) (by omega)
theorem okOr {α : Type} {x : Error} {o : Option α} {f : α → P β} (he : 2 ≤ e) (h : ∀ a, Tp C (e - 1) (f a) d2) :
    Tp C e (SM.okOr x o >>= f) d2 := seq okOr0 (by omega) fun a => mono0 (h a) (by omega)
theorem okOrN {α : Type} {x : Error} {f : α → P β} (he : 2 ≤ e) : Tp C e (SM.okOr x none >>= f) d2 := errB he
theorem okOrS {α : Type} {x : Error} {a : α} {f : α → P β} (he : 2 ≤ e) (h : Tp C (e - 1) (f a) d2) :
    Tp C e (SM.okOr x (some a) >>= f) d2 := pureB (by omega) h
theorem okOr' {x : Error} {o : Option α} (he : 1 ≤ e) (hd : ∀ a, d a ≤ e) : Tp C e (SM.okOr x o) d :=
  mono okOr0 (by omega) fun a => by have := hd a; omega
theorem modify {g : St → St} {f : Unit → P β} (hg : ∀ s, Keeps s (g s)) (he : 2 ≤ e) (h : Tp C (e - 2) (f ()) d2) :
    Tp C e (SM.modify g >>= f) d2 := seq (modify0 hg) (by omega) fun a => mono0 h (by omega)
theorem intern' {n : Node} {d : Handle → Int} (he : 1 ≤ e) (hd : ∀ a, d a ≤ e - 1 + C) (hn : nodeSize n = 0 := by simp only [nodeSize]) :
    Tp C e (intern n) d := mono intern0 (by omega) fun a => by have := hd a; omega
theorem intern {n : Node} {f : Handle → P β} (he : 2 ≤ e) (h : ∀ a, Tp C (e - 2 + C) (f a) d2)
    (hn : nodeSize n = 0 := by simp only [nodeSize]) : Tp C e (intern n >>= f) d2 :=
  seq intern0 (by omega) fun a => mono0 (h a) (by omega)
theorem internL {l : List Handle} {f : Handle → P β} (he : l.length + 2 ≤ e) (h : ∀ a, Tp C (e - l.length - 2 + C) (f a) d2) :
    Tp C e (Timed.intern (.NodeArray l) >>= f) d2 :=
  seq intern0 (by simp only [nodeSize]; omega) fun a => mono0 (h a) (by simp only [nodeSize]; omega)
theorem modifyNode' {k : Kind} {h : Handle} {g : Node → Node} {d : Unit → Int} (he : 5 ≤ e) (hd : d () ≤ e - 5) :
    Tp C e (modifyNode k h g) d := mono modifyNode0 (by omega) fun _ => by show d () ≤ _; omega
theorem modifyNode {k : Kind} {h : Handle} {g : Node → Node} {f : Unit → P β} (he : 6 ≤ e) (hf : Tp C (e - 6) (f ()) d2) :
    Tp C e (modifyNode k h g >>= f) d2 := seq modifyNode0 (by omega) fun a => mono0 hf (by omega)
theorem resolveP {k : Kind} {h : Handle} {f : Node → P β} (he : 4 ≤ e) (hf : ∀ a, Tp C (e - 4) (f a) d2) :
    Tp C e (resolveP k h >>= f) d2 := seq resolveP0 (by omega) fun a => mono0 (hf a) (by omega)
theorem downcastP {k k1 : Kind} {h : Handle} {f : Option Handle → P β} (he : 4 ≤ e) (hf : ∀ a, Tp C (e - 4) (f a) d2) :
    Tp C e (downcastP k k1 h >>= f) d2 := seq downcastP0 (by omega) fun a => mono0 (hf a) (by omega)

theorem iteT {m m' : P α} (h : Tp C e m d) : Tp C e (if true = true then m else m') d := h
theorem iteF {m m' : P α} (h : Tp C e m' d) : Tp C e (if false = true then m else m') d := h
theorem ite {b : Prop} [Decidable b] {m m' : P α} (h1 : Tp C e m d) (h0 : Tp C e m' d) :
    Tp C e (if b then m else m') d := by split <;> assumption

theorem whenB {b : Bool} {m : P Unit} {d : Unit → Int} (h : Tp C e m d) (hd : d () ≤ e) : Tp C e (whenB b m) d := by
  cases b
  · exact pure' hd
  · exact h

theorem tryIf {g : Char → Bool} {f : Option Char → P β} (he : 2 ≤ e) (h1 : ∀ c, Tp C (e - 2 + K) (f (some c)) d2)
    (h0 : Tp C (e - 2) (f none) d2) : Tp C e (tryIf g >>= f) d2 :=
  seq (tryIf0 g) (by omega) fun o => by
    cases o with
    | none => exact mono0 h0 (by simp; omega)
    | some c => exact mono0 (h1 c) (by simp; omega)

theorem tryAny {f : Option Char → P β} (he : 2 ≤ e) (h1 : ∀ c, Tp C (e - 2 + K) (f (some c)) d2)
    (h0 : Tp C (e - 2) (f none) d2) : Tp C e (tryAny >>= f) d2 := tryIf he h1 h0

theorem tryChar {c : Char} {f : Bool → P β} (he : 3 ≤ e) (h1 : Tp C (e - 3 + K) (f true) d2)
    (h0 : Tp C (e - 3) (f false) d2) : Tp C e (tryChar c >>= f) d2 := by
  refine seq (e1 := 2) (d1 := fun b => if b then K else 0) ?_ (by omega) fun b => ?_
  · exact tryIf (g := fun x => x == c) (f := fun o => Pure.pure o.isSome) (by omega) (fun c => pure (by simp))
      (pure (by simp))
  · cases b with
    | false => exact mono0 h0 (by simp; omega)
    | true => exact mono0 h1 (by simp; omega)

theorem tryStr {t : Text} {f : Bool → P β} (ht : t ≠ []) (he : 3 ≤ e) (h1 : Tp C (e - 3 + K) (f true) d2)
    (h0 : Tp C (e - 3) (f false) d2) : Tp C e (tryStr t >>= f) d2 :=
  seq (tryStr0 ht) (by omega) fun b => by
    cases b with
    | false => exact mono0 h0 (by simp; omega)
    | true => exact mono0 h1 (by simp; omega)

theorem expectAny' {x : Error} {d : Char → Int} (he : 3 ≤ e) (hd : ∀ a, d a ≤ e - 2 + K) : Tp C e (expectAny x) d :=
  tryAny (by omega) (fun c => pure' (by have := hd c; omega)) (err (by omega))

theorem expectAny {x : Error} {f : Char → P β} (he : 4 ≤ e) (h : ∀ c, Tp C (e - 3 + K) (f c) d2) :
    Tp C e (expectAny x >>= f) d2 :=
  seq (e1 := 3) (d1 := fun _ => 1 + K) (expectAny' (by omega) (fun _ => by omega)) (by omega) fun a =>
    mono0 (h a) (by omega)

theorem expectChar' {c : Char} {x : Error} {d : Unit → Int} (he : 4 ≤ e) (hd : d () ≤ e - 3 + K) : Tp C e (expectChar c x) d :=
  tryChar (by omega) (iteT (pure hd)) (iteF (err (by omega)))

theorem expectChar {c : Char} {x : Error} {f : Unit → P β} (he : 5 ≤ e) (h : Tp C (e - 4 + K) (f ()) d2) :
    Tp C e (expectChar c x >>= f) d2 :=
  seq (e1 := 4) (d1 := fun _ => 1 + K) (expectChar' (by omega) (by omega)) (by omega) fun _ => mono0 h (by omega)

theorem expectStr' {t : Text} {x : Error} {d : Unit → Int} (ht : t ≠ []) (he : 4 ≤ e) (hd : d () ≤ e - 3 + K) :
    Tp C e (expectStr t x) d :=
  tryStr ht (by omega) (iteT (pure hd)) (iteF (err (by omega)))

theorem expectStr {t : Text} {x : Error} {f : Unit → P β} (ht : t ≠ []) (he : 5 ≤ e) (h : Tp C (e - 4 + K) (f ()) d2) :
    Tp C e (expectStr t x >>= f) d2 :=
  seq (e1 := 4) (d1 := fun _ => 1 + K) (expectStr' ht (by omega) (by omega)) (by omega) fun _ => mono0 h (by omega)

theorem iterate {n : Nat} {body : β → P (β ⊕ α)} {eb : β → Int} (h0 : ∀ b, 0 ≤ eb b)
    (h : ∀ b, Tp C (eb b) (body b) (loopTp eb d)) (b : β) : Tp C (eb b + 1) (SM.iterate n body b) d := by
  induction n generalizing b with
  | zero => exact crash (by have := h0 b; omega)
  | succ n ih =>
    refine seq (h b) (Int.le_refl _) fun x => ?_
    cases x with
    | inl b' => exact mono0 (ih b') (by simp only [loopTp]; omega)
    | inr a => exact pure' (by simp only [loopTp]; omega)

theorem loop {body : β → P (β ⊕ α)} {eb : β → Int} (h0 : ∀ b, 0 ≤ eb b)
    (h : ∀ b, Tp C (eb b) (body b) (loopTp eb d)) (b : β) : Tp C (eb b + 1) (loopInput body b) d :=
  fun s => iterate (n := s.str.string.length + 1) h0 h b s

/-- A loop of a fixed number of iterations: the credit depends on how many are left. -/
theorem forN {n : Nat} {body : β → P β} {eb : Nat → β → Int} (h : ∀ n b, Tp C (eb (n + 1) b) (body b) (fun b' => eb n b' + 1)) (b : β) :
    Tp C (eb n b + 1) (SM.forN n body b) (fun b' => eb 0 b' + 1) := by
  induction n generalizing b with
  | zero => exact pure' (Int.le_refl _)
  | succ n ih => exact seq (h n b) (Int.le_refl _) fun x => mono0 (ih x) (by omega)

theorem runW {m : W Unit} {t : Text} (h : ((m t).2 : Int) ≤ e1) : Tp C (e1 + 1) (runW m t) (fun _ => 0) := by
  intro s
  unfold Timed.runW
  rcases hm : m t with ⟨r, n⟩
  rw [hm] at h
  cases r with
  | error x => simp only [TpRes]; simp only at h; omega
  | ok x => simp only [TpRes]; simp only at h; omega

end Tp

/-- The rules of the step count. -/
macro "tp" : tactic => `(tactic| repeat' (first
  | assumption
  | with_reducible exact Tp.crash (by omega)
  | with_reducible exact Tp.err (by omega)
  | with_reducible exact Tp.errB (by omega)
  | with_reducible exact Tp.pure (by first | omega | (simp; done) | (simp; omega))
  | with_reducible exact Tp.pure' (by first | omega | (simp; done) | (simp; omega))
  | with_reducible exact Tp.intern' (by omega) (fun _ => by omega)
  | with_reducible refine Tp.iteT ?_ | with_reducible refine Tp.iteF ?_
  | with_reducible refine Tp.pureB (by omega) ?_
  | with_reducible refine Tp.intern (by omega) fun _ => ?_
  | with_reducible refine Tp.tryChar (by omega) ?_ ?_
  | with_reducible refine Tp.tryStr (by simp) (by omega) ?_ ?_
  | with_reducible refine Tp.tryIf (by omega) (fun _ => ?_) ?_
  | with_reducible refine Tp.expectAny (by omega) (fun _ => ?_)
  | with_reducible exact Tp.expectChar' (by omega) (by omega)
  | with_reducible refine Tp.expectChar (by omega) ?_
  | with_reducible exact Tp.expectStr' (by simp) (by omega) (by omega)
  | with_reducible refine Tp.expectStr (by simp) (by omega) ?_
  | with_reducible exact Tp.okOrN (by omega)
  | with_reducible refine Tp.okOrS (by omega) ?_
  | with_reducible refine Tp.okOr (by omega) fun _ => ?_
  | with_reducible exact Tp.okOr' (by omega) (fun _ => by omega)
  | with_reducible refine Tp.get (by omega) fun _ => ?_
  | with_reducible refine Tp.query (by omega) fun _ => ?_
  | with_reducible refine Tp.queryE (by omega) fun _ => ?_
  | with_reducible refine Tp.lift (by omega) fun _ => ?_
  | with_reducible refine Tp.firstIs (by omega) fun _ => ?_
  | with_reducible refine Tp.resolveP (by omega) fun _ => ?_
  | with_reducible refine Tp.downcastP (by omega) fun _ => ?_
  | with_reducible refine Tp.modifyNode (by omega) ?_
  | with_reducible exact Tp.modifyNode' (by omega) (by omega)
  | with_reducible refine Tp.ite ?_ ?_))

/-- A call of a function whose steps are known. -/
macro "tc " t:term : tactic => `(tactic| refine Tp.seq $t (by omega) fun _ => ?_)

theorem tp_number : Tp C 50 demangle_number (fun _ => K) := by
  unfold demangle_number
  have hb : ∀ c, Tp C 21 (loopInput numberBody (0, c)) (fun _ => 10) := fun c =>
    Tp.loop (eb := fun _ => 20) (fun _ => by omega) (fun b => by
      unfold numberBody
      tp
      all_goals exact Tp.pure (by simp only [loopTp]; omega)) (0, c)
  tp
  all_goals tc hb _
  all_goals tp

theorem tp_unsigned : Tp C 60 demangle_unsigned (fun _ => K) := by
  unfold demangle_unsigned
  tc tp_number
  tp

theorem tp_signed : Tp C 60 demangle_signed (fun _ => K) := by
  unfold demangle_signed
  tc tp_number
  tp

theorem tp_quals : Tp C 50 demangle_qualifiers (fun _ => K) := by
  unfold demangle_qualifiers
  refine Tp.expectAny (by omega) fun c => ?_
  split <;> tp

theorem tp_cv : Tp C 50 demangle_pointer_cv_qualifiers (fun _ => K) := by
  unfold demangle_pointer_cv_qualifiers
  refine Tp.tryStr (by simp) (by omega) ?_ ?_
  · tp
  · refine Tp.iteF (Tp.expectAny (by omega) fun c => ?_)
    split <;> tp

theorem tp_ext : Tp C 50 demangle_pointer_ext_qualifiers (fun _ => 0) := by
  unfold demangle_pointer_ext_qualifiers
  tp

theorem tp_ref : Tp C 50 demangle_function_ref_qualifier (fun _ => 0) := by
  unfold demangle_function_ref_qualifier
  tp

theorem tp_class : Tp C 50 demangle_function_class (fun _ => K) := by
  unfold demangle_function_class
  tp

theorem tp_cc : Tp C 50 demangle_calling_convention (fun _ => K) := by
  unfold demangle_calling_convention
  tp

theorem tp_storage : Tp C 50 demangle_variable_storage_class (fun _ => K) := by
  unfold demangle_variable_storage_class
  refine Tp.expectAny (by omega) fun c => ?_
  split <;> tp

theorem tp_throw : Tp C 50 demangle_throw_specification (fun _ => K) := by
  unfold demangle_throw_specification
  tp

theorem tp_prim : Tp C 100 demangle_primitive_type (fun _ => K) := by
  unfold demangle_primitive_type
  have : Tp C 50 primitive_kind (fun _ => K) := by unfold primitive_kind; tp
  tc this
  tp

theorem bank_memorize {t : Text} {s s' : St} {u : Unit} (h : Undname.memorize_string t s = .ok (u, s')) :
    bank C s' ≤ bank C s := by
  have h' : exec (Undname.memorize_string t) s = .ok (u, s') := h
  unfold Undname.memorize_string at h'
  simp only [run] at h'
  cases hk : Undname.memorize_string.names_contain s.cache t s.names with
  | error x => rw [hk] at h'; simp only [run] at h'; cases h'
  | ok b =>
    rw [hk] at h'
    simp only [run] at h'
    split at h'
    · cases hi : Undname.intern (.NamedIdentifier none t) s with
      | error x =>
        have hi : exec (Undname.intern (.NamedIdentifier none t)) s = .error x := hi
        rw [hi] at h'
        cases h'
      | ok y =>
        have hb := Tp.bank_intern (C := C) hi
        have hi : exec (Undname.intern (.NamedIdentifier none t)) s = .ok y := hi
        rw [hi] at h'
        simp only [run] at h'
        unfold Undname.memorize_string.push_name at h'
        simp only [run] at h'
        split at h'
        · cases h'
          have : bank C { y.2 with names := y.2.names ++ [y.1] } = bank C y.2 := rfl
          exact Nat.le_trans (Nat.le_of_eq this) (by omega)
        · cases h'
    · cases h'
      exact Nat.le_refl _

theorem tp_memorize (t : Text) : Tp C (20 + 10 * t.length) (memorize_string t) (fun _ => 0) := by
  intro s
  show TpRes C _ _ s (Undname.memorize_string t s, 20 + 10 * t.length)
  cases hm : Undname.memorize_string t s with
  | error x => simp only [TpRes]; omega
  | ok x => have := bank_memorize (C := C) (s' := x.2) hm; simp only [TpRes]; omega

/-! ### Searching -/

theorem scanned_split {c : Char} {a b : Text} (h : c ∉ a) : scanned c (a ++ c :: b) = a.length + 1 := by
  induction a with
  | nil => simp [scanned]
  | cons x a ih =>
    simp only [List.mem_cons, not_or] at h
    have hx : (x == c) = false := by simp; exact fun e => h.1 e.symm
    simp only [List.cons_append, scanned, hx, ih h.2, List.length_cons]
    simp

theorem scanned_le (c : Char) (t : Text) : scanned c t ≤ t.length := by
  induction t with
  | nil => exact Nat.le_refl _
  | cons x t ih => unfold scanned; split <;> simp <;> omega

theorem splitCost_len (a b : Text) : splitCost (utf8Len a) (a ++ b) = a.length := by
  unfold splitCost; rw [splitAtBytes_len]

theorem length_le_utf8Len (t : Text) : t.length ≤ utf8Len t := by
  induction t with
  | nil => exact Nat.le_refl _
  | cons c t ih => have := Undname.utf8Size_pos c; simp only [List.length_cons, utf8Len]; omega

theorem utf8Len_app (a b : Text) : utf8Len (a ++ b) = utf8Len a + utf8Len b := by
  induction a with
  | nil => simp [utf8Len]
  | cons c a ih => simp only [List.cons_append, utf8Len, ih]; omega

/-- Splitting off a prefix. -/
theorem try_bytes {a b : Text} {s : St} (h : s.str.string = a ++ b) :
    (∃ s1, tryBytes (utf8Len a) s = (.ok (some a, s1), 1 + a.length) ∧ s1.str.string = b ∧ room s1 = room s) ∨
    ∃ x, tryBytes (utf8Len a) s = (.error x, 1 + a.length) := by
  have hc : splitCost (utf8Len a) s.str.string = a.length := by rw [h, splitCost_len]
  unfold tryBytes
  rw [hc]
  unfold Undname.tryBytes Undname.onStr
  have hx : MStr.try_consume_n_bytes (utf8Len a) s.str = if a.length ≤ s.str.chars then
      .ok (some a, ⟨b, s.str.chars - a.length⟩) else .error (.crash .panic) := by
    show exec (MStr.try_consume_n_bytes (utf8Len a)) s.str = _
    unfold MStr.try_consume_n_bytes
    simp only [run]
    rw [h, splitAtBytes_len]
    simp only [run]
  rw [hx]
  by_cases hl : a.length ≤ s.str.chars
  · rw [if_pos hl]; exact .inl ⟨_, rfl, rfl, rfl⟩
  · rw [if_neg hl]; exact .inr ⟨_, rfl⟩

/-- The credit `findChar` and `tryBytes` leave: 9000 for every character read. -/
theorem tp_find_take {β : Type} {x y : Error} {j : Nat} (hj : j ≤ 1) {f : Nat → Text → P β} {e : Int} {d : β → Int} (he : 10 ≤ e)
    (hf : ∀ n t, Tp C (e - 10 + 9000 * t.length) (f n t) d) : Tp C e (findChar '@' >>= fun o => SM.okOr x o >>= fun pos =>
      tryBytes (pos + j) >>= fun o => SM.okOr y o >>= f pos) d := by
  intro s
  cases hp : s.str.find_char '@' with
  | none =>
    have h1 : findChar '@' s = (.ok (none, s), 1 + scanned '@' s.str.string) := by unfold findChar; rw [hp]
    have hl := scanned_le '@' s.str.string
    show TpRes C e d s (SM.bind _ _ s)
    unfold SM.bind
    rw [h1]
    show (((1 + scanned '@' s.str.string) + (1 + 1) + 1 : Nat) : Int) ≤ e + bank C s
    unfold bank
    omega
  | some pos =>
    obtain ⟨a, b, hs, ha, hu⟩ := Undname.findChar_split hp
    have h1 : findChar '@' s = (.ok (some pos, s), 1 + (a.length + 1)) := by
      unfold findChar; rw [hp, hs, scanned_split ha]
    show TpRes C e d s (SM.bind _ _ s)
    unfold SM.bind
    rw [h1]
    have h2 : ∀ g : Nat → P β, (SM.okOr x (some pos) >>= g) s = ((g pos s).1, 0 + (g pos s).2 + 1) := fun _ => rfl
    simp only [h2]
    obtain ⟨a', b', hs', hu', hl'⟩ : ∃ a' b', s.str.string = a' ++ b' ∧ utf8Len a' = pos + j ∧ a.length ≤ a'.length := by
      rcases Nat.le_one_iff_eq_zero_or_eq_one.1 hj with rfl | rfl
      · exact ⟨a, '@' :: b, hs, hu, Nat.le_refl _⟩
      · refine ⟨a ++ ['@'], b, by simp [hs], ?_, by simp⟩
        rw [utf8Len_app, hu]; rfl
    have hb : bank C s = 10000 * a'.length + 10000 * b'.length + 10 * gap s.str.string + C * room s := by
      unfold bank; rw [hs', List.length_append]; omega
    rcases try_bytes hs' with ⟨s1, h3, h4, h5⟩ | ⟨z, h3⟩
    · have h6 : (tryBytes (pos + j) >>= fun o => SM.okOr y o >>= f pos) s =
          ((f pos a' s1).1, 1 + a'.length + (0 + (f pos a' s1).2 + 1) + 1) := by
        show SM.bind _ _ s = _
        unfold SM.bind
        rw [← hu', h3]
        rfl
      rw [h6]
      have hb1 : bank C s1 = 10000 * b'.length + 10 * gap b' + C * room s := by unfold bank; rw [h4, h5]
      have hg : gap b' ≤ gap s.str.string := gap_suffix ⟨a', hs'.symm⟩
      have h7 := hf pos a' s1
      rcases hr : f pos a' s1 with ⟨r, n⟩
      rw [hr] at h7
      cases r with
      | error w => simp only [TpRes] at h7 ⊢; omega
      | ok w => simp only [TpRes] at h7 ⊢; omega
    · have h6 : (tryBytes (pos + j) >>= fun o => SM.okOr y o >>= f pos) s = (.error z, 1 + a'.length + 1) := by
        show SM.bind _ _ s = _
        unfold SM.bind
        rw [← hu', h3]
      rw [h6]
      simp only [TpRes]
      omega

/-- The same, of a text that is not empty, without the first character's search for the next `?`. -/
theorem tq_find_take {β : Type} {x y z : Error} {f : Text → P β} {e : Int} {d : β → Int} (he : 10 ≤ e)
    (hf : ∀ t, Tp C (e - 10 + 9000 * t.length) (f t) d) : Tq C e (findChar '@' >>= fun o => SM.okOr x o >>= fun pos =>
      if pos == 0 then SM.err z else tryBytes pos >>= fun o => SM.okOr y o >>= f) d := by
  intro s
  have hb0 : 10000 * s.str.string.length ≤ bank' C s := by unfold bank'; omega
  cases hp : s.str.find_char '@' with
  | none =>
    have h1 : findChar '@' s = (.ok (none, s), 1 + scanned '@' s.str.string) := by unfold findChar; rw [hp]
    have hl := scanned_le '@' s.str.string
    show TqRes C e d s (SM.bind _ _ s)
    unfold SM.bind
    rw [h1]
    show (((1 + scanned '@' s.str.string) + (1 + 1) + 1 : Nat) : Int) ≤ e + bank' C s
    omega
  | some pos =>
    obtain ⟨a, b, hs, ha, hu⟩ := Undname.findChar_split hp
    have h1 : findChar '@' s = (.ok (some pos, s), 1 + (a.length + 1)) := by
      unfold findChar; rw [hp, hs, scanned_split ha]
    show TqRes C e d s (SM.bind _ _ s)
    unfold SM.bind
    rw [h1]
    have h2 : ∀ g : Nat → P β, (SM.okOr x (some pos) >>= g) s = ((g pos s).1, 0 + (g pos s).2 + 1) := fun _ => rfl
    simp only [h2]
    cases a with
    | nil =>
      have hp0 : pos = 0 := by rw [← hu]; rfl
      subst hp0
      show (((1 + (0 + 1)) + (0 + 1 + 1) + 1 : Nat) : Int) ≤ e + bank' C s
      omega
    | cons c a =>
      have hp0 : ¬ ((pos == 0) = true) := by
        have := Undname.utf8Size_pos c
        simp only [utf8Len] at hu
        simp only [beq_iff_eq]
        omega
      rw [if_neg hp0]
      have hb : bank' C s = 10000 * (c :: a).length + 10000 * ('@' :: b).length + 10 * gap (a ++ '@' :: b) + C * room s := by
        unfold bank'; rw [hs, List.length_append, List.cons_append, List.tail_cons]; omega
      rcases try_bytes hs with ⟨s1, h3, h4, h5⟩ | ⟨z, h3⟩
      · have h6 : (tryBytes pos >>= fun o => SM.okOr y o >>= f) s =
            ((f (c :: a) s1).1, 1 + (c :: a).length + (0 + (f (c :: a) s1).2 + 1) + 1) := by
          show SM.bind _ _ s = _
          unfold SM.bind
          rw [← hu, h3]
          rfl
        rw [h6]
        have hb1 : bank C s1 = 10000 * ('@' :: b).length + 10 * gap ('@' :: b) + C * room s := by unfold bank; rw [h4, h5]
        have hg : gap ('@' :: b) ≤ gap (a ++ '@' :: b) := gap_suffix ⟨a, rfl⟩
        have h7 := hf (c :: a) s1
        rcases hr : f (c :: a) s1 with ⟨r, n⟩
        rw [hr] at h7
        cases r with
        | error w => simp only [TpRes, TqRes] at h7 ⊢; omega
        | ok w => simp only [TpRes, TqRes] at h7 ⊢; omega
      · have h6 : (tryBytes pos >>= fun o => SM.okOr y o >>= f) s = (.error z, 1 + (c :: a).length + 1) := by
          show SM.bind _ _ s = _
          unfold SM.bind
          rw [← hu, h3]
        rw [h6]
        simp only [TqRes]
        omega

theorem Tq.toTp {α : Type} {m : P α} {e : Int} {d : α → Int} (h : Tq C e m d) : Tp C e m d := by
  intro s
  have h1 := h s
  have h2 := bank'_le C s
  rcases hm : m s with ⟨r, t⟩
  rw [hm] at h1
  cases r with
  | error x => simp only [TpRes, TqRes] at h1 ⊢; omega
  | ok x => simp only [TpRes, TqRes] at h1 ⊢; omega

theorem Tq.mono {α : Type} {m : P α} {e e1 : Int} {d d1 : α → Int} (h : Tq C e1 m d1) (he : e1 ≤ e) (hd : ∀ a, d a ≤ e - e1 + d1 a) :
    Tq C e m d := by
  intro s
  have h1 := h s
  rcases hm : m s with ⟨r, t⟩
  rw [hm] at h1
  cases r with
  | error x => simp only [TqRes] at h1 ⊢; omega
  | ok x => have := hd x.1; simp only [TqRes] at h1 ⊢; omega

theorem Tq.seq {α β : Type} {m : P α} {f : α → P β} {e e1 : Int} {d1 : α → Int} {d2 : β → Int} (h : Tq C e1 m d1) (he : e1 + 1 ≤ e)
    (hf : ∀ a, Tp C (e - e1 - 1 + d1 a) (f a) d2) : Tq C e (m >>= f) d2 := by
  intro s
  have h1 := h s
  show TqRes C e d2 s (SM.bind m f s)
  unfold SM.bind
  rcases hm : m s with ⟨r, t⟩
  rw [hm] at h1
  cases r with
  | error x => simp only [TqRes] at h1 ⊢; omega
  | ok x =>
    have h2 := hf x.1 x.2
    show TqRes C e d2 s ((f x.1 x.2).1, t + (f x.1 x.2).2 + 1)
    rcases hn : f x.1 x.2 with ⟨r, t'⟩
    rw [hn] at h2
    cases r with
    | error y => simp only [TqRes, TpRes] at h1 h2 ⊢; omega
    | ok y => simp only [TqRes, TpRes] at h1 h2 ⊢; omega

/-- Reading the first character. -/
theorem Tq.expectChar {c : Char} {x : Error} : Tq C 4 (expectChar c x) (fun _ => K) := by
  intro s
  have hb0 : 10000 * s.str.string.length ≤ bank' C s := by unfold bank'; omega
  have key : (∃ t s1, s.str.string = c :: t ∧ Timed.expectChar c x s = (.ok ((), s1), 3) ∧ s1.str.string = t ∧ room s1 = room s) ∨
      ∃ y n, Timed.expectChar c x s = (.error y, n) ∧ n ≤ 4 := by
    cases hs : s.str.string with
    | nil =>
      refine .inr ⟨.err x, 4, ?_, by omega⟩
      have h1 : onStr (MStr.try_consume_char c) s = (.ok (none, s), 1) := by
        show (Undname.onStr _ s, 1) = _
        unfold Undname.onStr
        have : MStr.try_consume_char c s.str = .ok (none, s.str) := by
          show exec (MStr.try_consume_char_if fun x => x == c) s.str = _
          unfold MStr.try_consume_char_if
          simp only [run, hs]
        rw [this]
      have h2 : Timed.tryChar c s = (.ok (false, s), 2) := by
        show SM.bind _ _ s = _
        unfold SM.bind
        rw [h1]
        rfl
      show SM.bind _ _ s = _
      unfold SM.bind
      rw [h2]
      rfl
    | cons z t =>
      by_cases hz : (z == c) = true
      · have hz' : z = c := by simpa using hz
        by_cases hn : 1 ≤ s.str.chars
        · have h1 : onStr (MStr.try_consume_char c) s = (.ok (some z, { s with str := ⟨t, s.str.chars - 1⟩ }), 1) := by
            show (Undname.onStr _ s, 1) = _
            unfold Undname.onStr
            have : MStr.try_consume_char c s.str = .ok (some z, ⟨t, s.str.chars - 1⟩) := by
              show exec (MStr.try_consume_char_if fun x => x == c) s.str = _
              unfold MStr.try_consume_char_if
              simp only [run, hs, hz, if_true, hn]
            rw [this]
          have h2 : Timed.tryChar c s = (.ok (true, { s with str := ⟨t, s.str.chars - 1⟩ }), 2) := by
            show SM.bind _ _ s = _
            unfold SM.bind
            rw [h1]
            rfl
          refine .inl ⟨t, { s with str := ⟨t, s.str.chars - 1⟩ }, by rw [hz'], ?_, rfl, rfl⟩
          show SM.bind _ _ s = _
          unfold SM.bind
          rw [h2]
          rfl
        · refine .inr ⟨.crash .panic, 3, ?_, by omega⟩
          have h1 : onStr (MStr.try_consume_char c) s = (.error (.crash .panic), 1) := by
            show (Undname.onStr _ s, 1) = _
            unfold Undname.onStr
            have : MStr.try_consume_char c s.str = .error (.crash .panic) := by
              show exec (MStr.try_consume_char_if fun x => x == c) s.str = _
              unfold MStr.try_consume_char_if
              simp only [run, hs, hz, if_true, hn, if_false]
            rw [this]
          have h2 : Timed.tryChar c s = (.error (.crash .panic), 2) := by
            show SM.bind _ _ s = _
            unfold SM.bind
            rw [h1]
          show SM.bind _ _ s = _
          unfold SM.bind
          rw [h2]
      · refine .inr ⟨.err x, 4, ?_, by omega⟩
        have h1 : onStr (MStr.try_consume_char c) s = (.ok (none, s), 1) := by
          show (Undname.onStr _ s, 1) = _
          unfold Undname.onStr
          have : MStr.try_consume_char c s.str = .ok (none, s.str) := by
            show exec (MStr.try_consume_char_if fun x => x == c) s.str = _
            unfold MStr.try_consume_char_if
            simp only [run, hs, hz]
            rfl
          rw [this]
        have h2 : Timed.tryChar c s = (.ok (false, s), 2) := by
          show SM.bind _ _ s = _
          unfold SM.bind
          rw [h1]
          rfl
        show SM.bind _ _ s = _
        unfold SM.bind
        rw [h2]
        rfl
  rcases key with ⟨t, s1, h1, h2, h3, h4⟩ | ⟨y, n, h1, h2⟩
  · rw [h2]
    simp only [TqRes, bank, bank', h1, h3, h4, List.length_cons, List.tail_cons]
    omega
  · rw [h1]
    simp only [TqRes]
    omega

theorem scanned_gap (t : Text) : scanned '?' t + gap t ≤ t.length + 1 := by
  induction t with
  | nil => simp [scanned, gap]
  | cons c t ih =>
    unfold scanned gap
    split <;> simp only [List.length_cons] <;> omega

/-- The test for a local scope is paid for by the text up to the next `?`, which is not searched again. -/
theorem tp_localScope {β : Type} {f : Bool → P β} {e : Int} {d : β → Int} (he : 12 ≤ e) (h : ∀ b, Tq C (e - 12) (f b) d) :
    Tp C e (localScope >>= f) d := by
  intro s
  have hp : (patternCost s.str.string : Int) + bank' C s ≤ 10 + bank C s := by
    unfold patternCost
    split
    · rename_i t ht
      have h1 := scanned_gap t
      have h2 := gap_le t
      unfold bank bank'
      have h3 : gap s.str.string = t.length + 1 := by rw [ht]; simp [gap]
      have h4 : s.str.string.tail = t := by rw [ht]; rfl
      rw [h3, h4]
      omega
    · have := bank'_le C s
      omega
  have hc : localScope s = (Undname.queryE MStr.starts_with_local_scope_pattern s, patternCost s.str.string) := rfl
  show TpRes C e d s (SM.bind _ _ s)
  unfold SM.bind
  rw [hc]
  have hs : ∀ x, Undname.queryE MStr.starts_with_local_scope_pattern s = .ok x → x.2 = s := by
    intro x hx
    have h' : exec (Undname.queryE MStr.starts_with_local_scope_pattern) s = .ok x := hx
    unfold Undname.queryE at h'
    simp only [run] at h'
    cases hq : MStr.starts_with_local_scope_pattern s.str with
    | error y => rw [hq] at h'; cases h'
    | ok y => rw [hq] at h'; cases h'; rfl
  cases hq : Undname.queryE MStr.starts_with_local_scope_pattern s with
  | error y => simp only [TpRes]; omega
  | ok y =>
    obtain ⟨b, s'⟩ := y
    have : s' = s := hs _ hq
    subst this
    have h1 := h b s'
    show TpRes C e d s' ((f b s').1, patternCost s'.str.string + (f b s').2 + 1)
    rcases hm : f b s' with ⟨r, t⟩
    rw [hm] at h1
    cases r with
    | error x => simp only [TpRes, TqRes] at h1 ⊢; omega
    | ok x => simp only [TpRes, TqRes] at h1 ⊢; omega

theorem tq_simple_string (b : Bool) : Tq C 100 (demangle_simple_string b) (fun _ => K) := by
  unfold demangle_simple_string
  refine tq_find_take (by omega) fun t => Tp.expectChar (by omega) ?_
  tc Tp.whenB (tp_memorize t) (by omega)
  tp

theorem tp_simple_string (b : Bool) : Tp C 100 (demangle_simple_string b) (fun _ => K) := (tq_simple_string b).toTp

theorem tq_simple_name (b : Bool) : Tq C 110 (demangle_simple_name b) (fun _ => K + C) := by
  unfold demangle_simple_name
  refine Tq.seq (tq_simple_string b) (by omega) fun _ => ?_
  tp

theorem tp_simple_name (b : Bool) : Tp C 110 (demangle_simple_name b) (fun _ => K + C) := (tq_simple_name b).toTp

theorem tp_anon : Tp C 100 demangle_anonymous_namespace_name (fun _ => K + C) := by
  unfold demangle_anonymous_namespace_name
  refine Tp.expectStr (by simp) (by omega) (tp_find_take (j := 0) (by omega) (by omega) fun _ t => ?_)
  tc tp_memorize t
  tp

theorem tp_backref : Tp C 50 demangle_back_ref_name (fun _ => K) := by
  unfold demangle_back_ref_name
  refine Tp.tryIf (by omega) (fun c => ?_) ?_
  · tp
  · tp

theorem tp_from_id (h : Handle) : Tp C 10 (synthesize_from_id h) (fun _ => C) := by
  unfold synthesize_from_id
  refine Tp.internL (by simp) fun _ => ?_
  simp only [List.length_singleton]
  tp

theorem tp_from_name (t : Text) : Tp C 20 (synthesize_from_name t) (fun _ => C) := by
  unfold synthesize_from_name
  refine Tp.intern (by omega) fun _ => ?_
  exact Tp.mono (tp_from_id _) (by omega) fun _ => by omega

theorem tp_md5 : Tp C 200 demangle_md5_name (fun _ => K + C) := by
  unfold demangle_md5_name
  have h : ∀ e, K + 40 ≤ e → ∀ (n : Nat) (c : Text), Tp C e (match splitAtBytes n c with
      | none => SM.crash .panic
      | some (md5, _) => do
        let name ← synthesize_from_name md5
        intern (.Md5Symbol name) : P Handle) (fun _ => K + C) := by
    intro e he n c
    split
    · tp
    · tc tp_from_name _
      tp
  refine Tp.query (by omega) fun _ => Tp.expectStr (by simp) (by omega) ?_
  have hk : ∀ e, K + 60 ≤ e → ∀ (copy : Text) (stop : Nat), Tp C e (do
      let r4 ← tryStr c!"??_R4@"
      let stop := if r4 then stop + 6 else stop
      match splitAtBytes (stop + 1) copy with
      | none => SM.crash .panic
      | some (md5, _) => do
        let name ← synthesize_from_name md5
        intern (.Md5Symbol name) : P Handle) (fun _ => K + C) := by
    intro e he copy stop
    refine Tp.tryStr (by simp) (by omega) (h _ (by omega) _ _) (h _ (by omega) _ _)
  exact tp_find_take (j := 1) (by omega) (by omega) fun n t => hk _ (by omega) _ _

theorem tp_fcode_group (g : CodeGroup) : Tp C 150 (demangle_function_identifier_code_group g) (fun _ => K) := by
  unfold demangle_function_identifier_code_group
  tp
  unfold demangle_literal_operator_identifier
  tc tp_simple_string _
  tp

theorem tp_fcode : Tp C 200 demangle_function_identifier_code (fun _ => K) := by
  unfold demangle_function_identifier_code
  tp
  all_goals exact Tp.mono (tp_fcode_group _) (by omega) fun _ => by omega

theorem tp_table0 {α : Type} (l : List (Text × α)) (hn : ∀ x ∈ l, x.1 ≠ []) :
    Tp C (3 * l.length) (tryTable l) (fun o => if o.isSome then K else 0) := by
  induction l with
  | nil => exact Tp.pure (by simp)
  | cons x xs ih =>
    obtain ⟨t, a⟩ := x
    unfold tryTable
    have hl : (3 : Int) * ((t, a) :: xs).length = 3 * xs.length + 3 := by simp; omega
    rw [hl]
    refine Tp.tryStr (hn (t, a) (by simp)) (by omega) (Tp.iteT (Tp.pure ?_)) (Tp.iteF (Tp.mono0 (ih fun y hy => hn y (by simp [hy])) (by omega)))
    simp; omega

theorem tp_table {α β : Type} {l : List (Text × α)} {e : Int} {f : Option α → P β} {d : β → Int}
    (hn : ∀ x ∈ l, x.1 ≠ []) (he : 3 * l.length + 1 ≤ e) (h1 : ∀ a, Tp C (e - 3 * l.length - 1 + K) (f (some a)) d)
    (h0 : Tp C (e - 3 * l.length - 1) (f none) d) : Tp C e (tryTable l >>= f) d :=
  Tp.seq (tp_table0 l hn) he fun o => by
    cases o with
    | none => exact Tp.mono0 h0 (by simp)
    | some a => exact Tp.mono0 (h1 a) (by simp)

/-! ### String literals -/

theorem tp_char : Tp C 100 demangle_char_literal (fun _ => K) := by
  unfold demangle_char_literal
  have hu : ∀ (o : Option Nat), Tp C 10 (demangle_char_literal.unchecked o) (fun _ => 10) := by
    intro o
    unfold demangle_char_literal.unchecked
    split <;> tp
  tp
  · tc Tp.try20
    tp
  all_goals exact Tp.mono (hu _) (by omega) fun _ => by omega

namespace Tp.Has
variable {α β : Type}

theorem bind {m : P α} {f : α → P β} {Q1 : α → Prop} {Q : β → Prop} (h : Has m Q1) (hf : ∀ a, Q1 a → Has (f a) Q) : Has (m >>= f) Q := by
  intro s b s' hb
  have hb : (SM.bind m f s).1 = .ok (b, s') := hb
  unfold SM.bind at hb
  rcases hm : m s with ⟨r, t⟩
  rw [hm] at hb
  cases r with
  | error x => cases hb
  | ok x => exact hf x.1 (h s x.1 x.2 (by rw [hm])) x.2 b s' hb

theorem any {m : P α} : Has m (fun _ => True) := fun _ _ _ _ => trivial

theorem bind' {m : P α} {f : α → P β} {Q : β → Prop} (hf : ∀ a, Has (f a) Q) : Has (m >>= f) Q := bind any fun a _ => hf a

theorem pure {a : α} {Q : α → Prop} (h : Q a) : Has (Pure.pure a : P α) Q := by
  intro s b s' hb
  cases hb
  exact h

theorem err {x : Error} {Q : α → Prop} : Has (SM.err x : P α) Q := fun _ _ _ h => by cases h

theorem crash {x : Crash} {Q : α → Prop} : Has (SM.crash x : P α) Q := fun _ _ _ h => by cases h

theorem ite {b : Prop} [Decidable b] {m m' : P α} {Q : α → Prop} (h : b → Has m Q) (h' : ¬ b → Has m' Q) :
    Has (if b then m else m') Q := by
  by_cases hb : b
  · rw [if_pos hb]; exact h hb
  · rw [if_neg hb]; exact h' hb

theorem okOr {x : Error} {o : Option α} {Q : α → Prop} (h : ∀ a, o = some a → Q a) : Has (SM.okOr x o : P α) Q := by
  cases o with
  | none => exact err
  | some a => exact pure (h a rfl)

theorem iterate {n : Nat} {body : β → P (β ⊕ α)} {I : β → Prop} {J : α → Prop}
    (hI : ∀ b, I b → Has (body b) fun | .inl b' => I b' | .inr a => J a) (b : β) (hb : I b) : Has (SM.iterate n body b) J := by
  induction n generalizing b with
  | zero => exact crash
  | succ n ih =>
    refine bind (m := body b) (hI b hb) fun x hx => ?_
    cases x with
    | inl b' => exact ih b' hx
    | inr a => exact pure hx

theorem loop {body : β → P (β ⊕ α)} {I : β → Prop} {J : α → Prop}
    (hI : ∀ b, I b → Has (body b) fun | .inl b' => I b' | .inr a => J a) (b : β) (hb : I b) : Has (loopInput body b) J :=
  fun s => iterate (n := s.str.string.length + 1) hI b hb s

end Tp.Has

/-- A byte is below 256. -/
theorem has_char : Tp.Has demangle_char_literal (fun b => b < 256) := by
  unfold demangle_char_literal
  have hu : ∀ (o : Option Nat), (∀ b, o = some b → b < 256) → Tp.Has (demangle_char_literal.unchecked o) (fun b => b < 256) := by
    intro o ho
    unfold demangle_char_literal.unchecked
    cases o with
    | none => exact Tp.Has.crash
    | some b => exact Tp.Has.pure (ho b rfl)
  refine Tp.Has.bind' fun c => Tp.Has.ite (fun _ => Tp.Has.bind' fun c => Tp.Has.ite (fun _ => Tp.Has.bind' fun n => Tp.Has.bind' fun n =>
    Tp.Has.bind' fun c1 => Tp.Has.bind (Q1 := fun c => c < 256) (Tp.Has.okOr fun a ha => ?_) fun c2 h2 => Tp.Has.pure ?_) fun _ => Tp.Has.ite (fun _ => hu _ ?_) fun _ =>
    Tp.Has.ite (fun _ => hu _ ?_) fun _ => Tp.Has.ite (fun _ => hu _ ?_) fun _ => Tp.Has.err) fun _ => Tp.Has.ite (fun h => Tp.Has.pure h) fun _ => Tp.Has.err
  · unfold try_convert_rebased_ascii_hexdigit_to_number at ha
    split at ha
    · rename_i hx
      simp only [is_rebased_ascii_hexdigit, Bool.and_eq_true, decide_eq_true_eq] at hx
      have hx := hx.2
      have hP : 'P'.toNat = 80 := rfl
      split at ha
      · cases ha; omega
      · cases ha; omega
    · cases ha
  · have h1 : (c1 <<< 4) % 256 < 2 ^ 8 := by omega
    have h2 : c2 < 2 ^ 8 := h2
    exact Nat.or_lt_two_pow h1 h2
  · intro b hb; exact Undname.charDigitTable_lt (List.mem_of_getElem? hb)
  · intro b hb; exact Undname.charLetterTable_lt (List.mem_of_getElem? hb) (by omega)
  · intro b hb; exact Undname.charLetterTable_lt (List.mem_of_getElem? hb) (by omega)

theorem tp_wchar : Tp C 210 demangle_wchar_literal (fun _ => K) := by
  unfold demangle_wchar_literal
  tc tp_char
  tc tp_char
  tp

theorem has_wchar : Tp.Has demangle_wchar_literal (fun b => b < 2 ^ 32) := by
  unfold demangle_wchar_literal
  refine Tp.Has.bind has_char fun a ha => Tp.Has.bind has_char fun b hb => Tp.Has.pure (Nat.or_lt_two_pow ?_ ?_)
  · omega
  · omega

theorem ite_or {b : Prop} [Decidable b] {x y : Option Text} {t : Text} (h : (if b then x else y) = some t) : x = some t ∨ y = some t := by
  by_cases hb : b
  · rw [if_pos hb] at h; exact .inl h
  · rw [if_neg hb] at h; exact .inr h

/-- A character is written as one or two, or in hexadecimal. -/
theorem escaped_length {c : Nat} (hc : c < 2 ^ 32) {t : Text} (h : escapedChar c = some t) : t.length ≤ 10 := by
  have h8 : (Nat.toDigits 16 c).length ≤ 8 := (Nat.length_toDigits_le_iff (by omega) (by omega)).2 (by omega)
  unfold escapedChar at h
  iterate 11 (rcases ite_or h with h | h; · cases h; show 2 ≤ 10; omega)
  rcases ite_or h with h | h
  · rcases ite_or h with h | h
    · cases h; show 1 ≤ 10; omega
    · cases h
  cases h
  rw [List.length_append]
  unfold hex02
  dsimp only
  split
  · rename_i hl
    simp only [List.length_cons, List.length_nil]
    omega
  · simp only [List.length_cons, List.length_map, List.length_nil]; omega

theorem tp_escaped {c : Nat} (hc : c < 2 ^ 32) (t : Text) :
    Tp C 12 (runW (output_escaped_char c) t) (fun t' => t'.length - t.length - 10) := by
  intro s
  unfold runW output_escaped_char
  cases he : escapedChar c with
  | none =>
    show ((1 + 1 : Nat) : Int) ≤ _
    omega
  | some u =>
    have hu := escaped_length hc he
    show TpRes C 12 _ s (match (Undname.write u t, 1 + min u.length OUTPUT_LIMIT) with
      | (.ok (_, t'), n) => (.ok (t', s), n + 1)
      | (.error e, n) => (.error e, n + 1))
    unfold Undname.write
    by_cases hl : utf8Len u + utf8Len t < OUTPUT_LIMIT
    · simp only [hl, if_true, TpRes, List.length_append]; omega
    · simp only [hl, if_false, TpRes]; omega

theorem tp_wide (b : Bool) (x : Nat × Text) : Tp C (300 + x.2.length) (wideBody b x) (loopTp (fun x => 300 + x.2.length) fun t => 300 + t.length) := by
  unfold wideBody
  tp
  · exact Tp.pure (by simp only [loopTp]; omega)
  · refine Tp.seqQ tp_wchar has_wchar (by omega) fun w hw => Tp.ite ?_ ?_
    · refine Tp.seq (tp_escaped hw _) (by omega) fun t' => ?_
      exact Tp.pure (by simp only [loopTp]; omega)
    · refine Tp.pureB (by omega) ?_
      exact Tp.pure (by simp only [loopTp]; omega)

theorem tp_narrow (x : List Nat) : Tp C (300 + 50 * x.length) (narrowBody x)
    (loopTp (fun x => 300 + 50 * x.length) fun x => 300 + 50 * x.length) := by
  unfold narrowBody
  tp
  · exact Tp.pure (by simp only [loopTp]; omega)
  · tc tp_char
    refine Tp.ite (Tp.pure ?_) (by tp)
    simp only [loopTp, List.length_append, List.length_singleton]; omega

theorem has_narrow : Tp.Has (loopInput narrowBody []) (fun l => ∀ b ∈ l, b < 256) := by
  refine Tp.Has.loop (I := fun l => ∀ b ∈ l, b < 256) (fun l hl => ?_) _ (by simp)
  unfold narrowBody
  refine Tp.Has.bind' fun b => Tp.Has.ite (fun _ => Tp.Has.pure hl) fun _ => Tp.Has.bind' fun b => Tp.Has.ite (fun _ => Tp.Has.err) fun _ =>
    Tp.Has.bind has_char fun b hb => Tp.Has.ite (fun _ => Tp.Has.pure ?_) fun _ => Tp.Has.err
  intro x hx
  rcases List.mem_append.1 hx with hx | hx
  · exact hl x hx
  · simp only [List.mem_singleton] at hx; subst hx; exact hb

theorem decode_lt {bytes : List Nat} (hb : ∀ b ∈ bytes, b < 256) {i n c : Nat} (h : decode_multi_byte_char bytes i n = some c) :
    c < 2 ^ 32 := by
  unfold decode_multi_byte_char at h
  split at h
  · rename_i hn
    have hn : n ≤ 4 := by simp at hn; omega
    dsimp only at h
    split at h
    · cases h
    · split at h
      · cases h
      · cases h
        have hb' : ∀ b ∈ (bytes.drop (i * n)).take n, b < 256 := fun b h => hb b (List.mem_of_mem_drop (List.mem_of_mem_take h))
        rw [combineBytes_eq hb']
        have h1 := littleEndian_lt hb'
        have h2 : 256 ^ ((bytes.drop (i * n)).take n).length ≤ 256 ^ 4 :=
          Nat.pow_le_pow_right (by omega) (by rw [List.length_take]; omega)
        simp only [Nat.mul_zero, Nat.shiftLeft_zero] at *
        omega
  · cases h

theorem tp_decode {bytes n m b} (hb : ∀ b ∈ bytes, b < 256) (k : Nat) (x : Nat × Text) :
    Tp C (50 * (k + 1 : Nat) + x.2.length) (decodeBody bytes n m b x) (fun y => 50 * k + y.2.length + 1) := by
  unfold decodeBody
  cases hd : decode_multi_byte_char bytes x.1 n with
  | none => exact Tp.okOrN (by omega)
  | some c =>
    refine Tp.okOrS (by omega) (Tp.ite ?_ ?_)
    · refine Tp.seq (tp_escaped (decode_lt hb hd) _) (by omega) fun t' => Tp.pure ?_
      dsimp only
      omega
    · refine Tp.pureB (by omega) (Tp.pure ?_)
      dsimp only
      omega

theorem tp_internS {C : Nat} {b : Bool} {c : CharKind} {e : Int} {t : Text} {a : Option Handle} {d : Handle → Int} (he : 1 + (t.length : Int) ≤ e) (hd : ∀ h, d h ≤ e - 1 - t.length + C) :
    Tp C e (intern (.EncodedStringLiteral a t b c)) d :=
  Tp.mono Tp.intern0 (by simp only [nodeSize]; omega) fun h => by have := hd h; simp only [nodeSize]; omega

theorem tp_string_tail (b : Bool) : Tp C 1000 (do
    let (string_byte_len, is_negative) ← demangle_number
    if is_negative || string_byte_len < (if b then 2 else 1) then SM.err .InvalidStringLiteral
    else do
      let crc_end_pos ← findChar '@'
      let crc_end_pos ← SM.okOr .InvalidStringLiteral crc_end_pos
      let crc ← tryBytes (crc_end_pos + 1)
      let _ ← SM.okOr .InvalidStringLiteral crc
      let e ← query MStr.is_empty
      if e then SM.err .InvalidStringLiteral
      else if b then do
        let is_truncated := decide (string_byte_len > 64)
        let t ← loopInput (wideBody is_truncated) (string_byte_len, [])
        intern (.EncodedStringLiteral none t is_truncated .Wchar)
      else do
        let bytes ← loopInput narrowBody []
        let is_truncated := decide (string_byte_len > bytes.length)
        let char_bytes ← SM.okOr .InvalidStringLiteral (guess_char_byte_size bytes string_byte_len)
        let char ← SM.okOr .InvalidStringLiteral (charKindOf char_bytes)
        let num_chars := bytes.length / char_bytes
        let (_, t) ← SM.forN num_chars (decodeBody bytes char_bytes num_chars is_truncated) (0, [])
        intern (.EncodedStringLiteral none t is_truncated char) : P Handle) (fun _ => C) := by
  tc tp_number
  refine Tp.ite (by tp) (tp_find_take (by omega) (by omega) fun _ t => ?_)
  refine Tp.query (by omega) fun _ => Tp.ite (by tp) (Tp.ite ?_ ?_)
  · refine Tp.seq (Tp.loop (eb := fun x : Nat × Text => 300 + x.2.length) (fun _ => by omega) (fun b => tp_wide _ b) _)
      (by simp only [List.length_nil]; omega) fun t => ?_
    simp only [List.length_nil]
    exact tp_internS (by omega) fun _ => by omega
  · refine Tp.seqQ (Tp.loop (eb := fun x : List Nat => 300 + 50 * x.length) (fun _ => by omega) tp_narrow _) has_narrow
      (by simp only [List.length_nil]; omega) fun bytes hb => ?_
    simp only [List.length_nil]
    refine Tp.okOr (by omega) fun n => Tp.okOr (by omega) fun _ => ?_
    have hn : (bytes.length / n : Nat) ≤ bytes.length := Nat.div_le_self _ _
    refine Tp.seq (Tp.forN (eb := fun n (x : Nat × Text) => 50 * n + x.2.length) (fun k x => tp_decode hb k x) _)
      (by simp only [List.length_nil]; omega) fun y => ?_
    simp only [List.length_nil]
    exact tp_internS (t := y.2) (by omega) fun _ => by omega

theorem tp_string : Tp C 100 demangle_string_literal (fun _ => C) := by
  unfold demangle_string_literal
  refine Tp.expectStr (by simp) (by omega) (Tp.expectAny (by omega) fun c => Tp.ite ?_ (Tp.ite ?_ (by tp)))
  · exact Tp.pureB (by omega) (Tp.mono (tp_string_tail true) (by omega) fun _ => by omega)
  · exact Tp.pureB (by omega) (Tp.mono (tp_string_tail false) (by omega) fun _ => by omega)

/-! ### Recursive parsers -/

/-- The recursive functions read at least one character. -/
structure TpFns (C : Nat) (r : Fns) : Prop where
  type : ∀ q, Tp C 1000 (r.type q) (fun _ => K)
  tmpl : ∀ n, Tp C 300 (r.tmpl n) (fun _ => K)
  parse : Tp C 1000 r.parse (fun _ => K + C)

/-- What a rendering costs and writes; a node pays for it. -/
structure RendCost (R C : Nat) (rend : Renderer) : Prop where
  cost : ∀ c k h w, (rend c k h w).2 ≤ R
  len : ∀ c k h w u t, (rend c k h w).1 = .ok (u, t) → t.length ≤ 1048576
  node : R + 20000000 ≤ C

/-- A rendering into a fresh buffer; ten steps for every character of the text are left. -/
theorem tp_runFresh {C n : Nat} {m : W Unit} {t : Text} (h : (m t).2 ≤ n) (hl : ∀ u t', (m t).1 = .ok (u, t') → t'.length ≤ 1048576) :
    Tp C (n + 11534340) (runFresh m t) (fun t' => 10 * t'.length) := by
  intro s
  unfold runFresh
  rcases hm : m t with ⟨r, k⟩
  rw [hm] at h hl
  cases r with
  | error x => simp only [TpRes]; simp only at h; omega
  | ok x => have := hl x.1 x.2 rfl; simp only [TpRes]; simp only at h; omega

section
variable {R C : Nat} {rend : Renderer} {r : Fns} (hrend : RendCost R C rend) (hr : TpFns C r)

include hrend in
theorem tp_memorize_identifier (h : Handle) : Tp C (R + 12000000) (memorize_identifier rend h) (fun _ => 0) := by
  unfold memorize_identifier
  refine Tp.get (by omega) fun s => ?_
  refine Tp.seq (tp_runFresh (hrend.cost _ _ _ _) (hrend.len _ _ _ _)) (by omega) fun t => ?_
  exact Tp.mono (tp_memorize t) (by omega) fun _ => by omega

include hr

theorem tp_utn (b : Bool) : Tp C 400 (demangle_unqualified_type_name r b) (fun _ => K) := by
  unfold demangle_unqualified_type_name
  tp
  · exact Tp.mono tp_backref (by omega) fun _ => by omega
  · exact Tp.mono (hr.tmpl _) (by omega) fun _ => by omega
  · exact Tp.mono (tp_simple_name _) (by omega) fun _ => by omega

theorem tp_usn (n : NBB) : Tp C 400 (demangle_unqualified_symbol_name r n) (fun _ => K) := by
  unfold demangle_unqualified_symbol_name
  tp
  · exact Tp.mono tp_backref (by omega) fun _ => by omega
  · exact Tp.mono (hr.tmpl _) (by omega) fun _ => by omega
  · exact Tp.mono tp_fcode (by omega) fun _ => by omega
  · exact Tp.mono (tp_simple_name _) (by omega) fun _ => by omega

include hrend

omit hr in
theorem scope_text_steps (c : Cache) (k : Kind) (h : Handle) (a b w : Text) :
    ((do write a; rend c k h; write b : W Unit) w).2 ≤ R + 3000000 := by
  have hw : ∀ (a w : Text), (write a w).2 ≤ 1048577 := by
    intro a w
    show 1 + min _ OUTPUT_LIMIT ≤ _
    have : OUTPUT_LIMIT = 1048576 := rfl
    omega
  have hb : ∀ {α β : Type} (m : W α) (f : α → W β) (x y : Nat), (∀ w, (m w).2 ≤ x) → (∀ a w, (f a w).2 ≤ y) →
      ∀ w, ((m >>= f) w).2 ≤ x + y + 1 := by
    intro α β m f x y hm hf w
    show (SM.bind m f w).2 ≤ _
    unfold SM.bind
    have h1 := hm w
    rcases hx : m w with ⟨q, n⟩
    rw [hx] at h1
    cases q with
    | error e => simp only at h1 ⊢; omega
    | ok p =>
      have h2 := hf p.1 p.2
      show n + (f p.1 p.2).2 + 1 ≤ _
      simp only at h1
      omega
  have := hb (write a) (fun _ => do rend c k h; write b) 1048577 (R + 1048577 + 1) (hw a)
    (fun _ => hb (rend c k h) (fun _ => write b) R 1048577 (hrend.cost c k h) (fun _ => hw b)) w
  exact Nat.le_trans this (by omega)

omit hr hrend in
theorem scope_text_length (c : Cache) (k : Kind) (h : Handle) (a b w : Text) (u : Unit) (t : Text)
    (ht : ((do write a; rend c k h; write b : W Unit) w).1 = .ok (u, t)) : t.length ≤ 1048576 := by
  have hw : ∀ (a w : Text) u t, (write a w).1 = .ok (u, t) → t.length ≤ 1048576 := by
    intro a w u t h
    have h : Undname.write a w = .ok (u, t) := h
    unfold Undname.write at h
    split at h
    · cases h
      have h1 := length_le_utf8Len w
      have h2 := length_le_utf8Len a
      have : OUTPUT_LIMIT = 1048576 := rfl
      rw [List.length_append]
      omega
    · cases h
  have hb : ∀ {α β : Type} (m : W α) (f : α → W β) w x, ((m >>= f) w).1 = .ok x → ∃ a w', (f a w').1 = .ok x := by
    intro α β m f w x hx
    have hx : (SM.bind m f w).1 = .ok x := hx
    unfold SM.bind at hx
    rcases hm : m w with ⟨q, n⟩
    rw [hm] at hx
    cases q with
    | error e => cases hx
    | ok p => exact ⟨p.1, p.2, hx⟩
  obtain ⟨_, w1, h1⟩ := hb _ _ _ _ ht
  obtain ⟨_, w2, h2⟩ := hb _ _ _ _ h1
  exact hw b w2 u t h2

theorem tq_local : Tq C 200 (demangle_locally_scoped_name_piece rend r) (fun _ => K + C) := by
  unfold demangle_locally_scoped_name_piece
  have := hrend.node
  refine Tq.seq Tq.expectChar (by omega) fun _ => ?_
  tc tp_number
  refine Tp.ite (by tp) (Tp.expectChar (by omega) ?_)
  tc hr.parse
  refine Tp.get (by omega) fun _ => ?_
  refine Tp.seq (tp_runFresh (scope_text_steps hrend _ _ _ _ _ _) (scope_text_length _ _ _ _ _ _)) (by omega) fun t => ?_
  exact Tp.intern' (by omega) fun _ => by omega

theorem tp_piece : Tp C 400 (demangle_name_scope_piece rend r) (fun _ => K) := by
  unfold demangle_name_scope_piece
  refine Tp.firstIs (by omega) fun _ => Tp.ite ?_ (Tp.query (by omega) fun _ => Tp.ite ?_ (Tp.query (by omega) fun _ => Tp.ite ?_
    (tp_localScope (by omega) fun b => ?_)))
  · exact Tp.mono tp_backref (by omega) fun _ => by omega
  · exact Tp.mono (hr.tmpl _) (by omega) fun _ => by omega
  · exact Tp.mono tp_anon (by omega) fun _ => by omega
  · cases b
    · exact (tq_simple_name _).mono (by omega) fun _ => by omega
    · exact (tq_local hrend hr).mono (by omega) fun _ => by omega

theorem tp_chain (h : Handle) : Tp C 511 (demangle_name_scope_chain rend r h) (fun _ => C) := by
  unfold demangle_name_scope_chain
  refine Tp.mono0 (Tp.loop (eb := fun l : List Handle => 500 + 5 * l.length) (fun _ => by omega) (fun b => ?_) _)
    (by simp only [List.length_singleton]; omega)
  unfold scopeChainBody
  refine Tp.tryChar (by omega) (Tp.iteT (Tp.internL (by rw [List.length_reverse]; omega) fun _ => Tp.intern (by rw [List.length_reverse]; omega)
    fun _ => Tp.pure ?_)) (Tp.iteF (Tp.query (by omega) fun _ => Tp.ite (by tp) ?_))
  · rw [List.length_reverse]; simp only [loopTp]; omega
  · tc tp_piece hrend hr
    exact Tp.pure (by simp only [loopTp, List.length_append, List.length_singleton]; omega)

theorem tp_fqtn : Tp C 500 (demangle_fully_qualified_type_name rend r) (fun _ => K - 600 + C) := by
  unfold demangle_fully_qualified_type_name
  tc tp_utn hr _
  exact Tp.mono (tp_chain hrend hr _) (by omega) fun _ => by omega

omit hrend hr in
theorem tp_class_of (h : Handle) : Tp C 50 (class_of_structor h) (fun _ => 0) := by
  unfold class_of_structor
  refine Tp.resolveP (by omega) fun n => ?_
  cases n <;> try exact Tp.crash (by omega)
  refine Tp.resolveP (by omega) fun n => ?_
  cases n <;> try exact Tp.crash (by omega)
  refine Tp.ite (by tp) ?_
  split <;> tp

theorem tp_fqsn : Tp C 500 (demangle_fully_qualified_symbol_name rend r) (fun _ => K - 950 + C) := by
  unfold demangle_fully_qualified_symbol_name
  tc tp_usn hr _
  tc tp_chain hrend hr _
  refine Tp.downcastP (by omega) fun o => ?_
  cases o with
  | none => tp
  | some x =>
    tc tp_class_of _
    tp

theorem tp_class_type : Tp C 600 (demangle_class_type rend r) (fun _ => K) := by
  unfold demangle_class_type
  refine Tp.expectAny (by omega) fun c => ?_
  have hk : ∀ (t : TagKind), Tp C 550 (do
      let name ← demangle_fully_qualified_type_name rend r
      intern (.TagType Qualifiers.Q_None name t) : P Handle) (fun _ => 0) := by
    intro t
    tc tp_fqtn hrend hr
    tp
  split <;> tp
  all_goals try dsimp only
  all_goals exact Tp.mono (hk _) (by omega) fun _ => by omega

omit hrend
theorem tp_custom : Tp C 600 (demangle_custom_type r) (fun _ => K) := by
  unfold demangle_custom_type
  refine Tp.expectChar (by omega) ?_
  tc tp_utn hr _
  tp

theorem tp_param_body (l : List Handle) : Tp C (1200 + 5 * l.length) (paramListBody r l) (loopTp (fun l => 1200 + 5 * l.length) fun l => 1000 + 5 * l.length) := by
  unfold paramListBody
  have hp : ∀ n, Tp C 1 (paramListBody.push_param n) (fun _ => 0) := fun n => Tp.modify0 fun s => by split <;> exact ⟨rfl, rfl⟩
  tp
  · exact Tp.pure (by simp only [loopTp]; omega)
  · exact Tp.pure (by simp only [loopTp, List.length_append, List.length_singleton]; omega)
  · · tc hr.type _
      tp
      tc Tp.whenB (hp _) (by omega)
      exact Tp.pure (by simp only [loopTp, List.length_append, List.length_singleton]; omega)

theorem tp_params : Tp C 1300 (demangle_function_parameter_list r) (fun _ => K) := by
  unfold demangle_function_parameter_list
  refine Tp.tryChar (by omega) (Tp.iteT (by tp)) (Tp.iteF ?_)
  refine Tp.seq (Tp.loop (eb := fun l : List Handle => 1200 + 5 * l.length) (fun _ => by omega) (fun b => tp_param_body hr b) _)
    (by simp only [List.length_nil]; omega) fun l => ?_
  simp only [List.length_nil]
  refine Tp.internL (by omega) fun _ => ?_
  tp

omit hr in
theorem tp_this (b : Bool) : Tp C 200 (function_this_quals b) (fun _ => 0) := by
  unfold function_this_quals
  tp
  tc tp_ext
  tc tp_ref
  tc tp_quals
  tp

theorem tp_function_type (b : Bool) : Tp C 400 (demangle_function_type r b) (fun _ => K) := by
  unfold demangle_function_type
  refine Tp.seq (tp_this b) (by omega) fun x => Tp.seq tp_cc (by omega) fun _ => ?_
  have hk : ∀ (x : Qualifiers × Option FunctionRefQualifier) y (return_type : Option Handle), Tp C 2000 (do
      let (params, is_variadic) ← demangle_function_parameter_list r
      let is_noexcept ← demangle_throw_specification
      intern (.FunctionSignature
        { quals := x.1, call_convention := y, ref_qualifier := x.2, return_type := return_type,
          is_variadic := is_variadic, params := params, is_noexcept := is_noexcept }) : P Handle) (fun _ => K) := by
    intro x y rt
    tc tp_params hr
    tc tp_throw
    tp
  refine Tp.tryChar (by omega) (Tp.iteT ?_) (Tp.iteF ?_)
  · exact Tp.pureB (by omega) (Tp.mono (hk x _ _) (by omega) fun _ => by omega)
  · tc hr.type _
    exact Tp.pureB (by omega) (Tp.mono (hk x _ _) (by omega) fun _ => by omega)

theorem tp_pointer : Tp C 400 (demangle_pointer_type r) (fun _ => K) := by
  unfold demangle_pointer_type
  refine Tp.seq tp_cv (by omega) fun _ => Tp.tryChar (by omega) (Tp.iteT ?_) (Tp.iteF ?_)
  · tc tp_function_type hr _
    tp
  · tc tp_ext
    tc hr.type _
    tp

include hrend in
theorem tp_member_pointer : Tp C 400 (demangle_member_pointer_type rend r) (fun _ => K) := by
  unfold demangle_member_pointer_type
  refine Tp.seq tp_cv (by omega) fun _ => Tp.ite (by tp) (Tp.seq tp_ext (by omega) fun _ =>
    Tp.tryChar (by omega) (Tp.iteT ?_) (Tp.iteF ?_))
  · tc tp_fqtn hrend hr
    tc tp_function_type hr _
    tp
  · tc tp_quals
    refine Tp.ite (by tp) ?_
    tc tp_fqtn hrend hr
    tc hr.type _
    tp

theorem tp_array : Tp C 400 (demangle_array_type r) (fun _ => K) := by
  unfold demangle_array_type
  have hd : ∀ (n : Nat) (l : List Handle), Tp C (100 + 5 * l.length) (arrayDim l) (fun l => 100 + 5 * l.length + 1) := by
    intro _ l
    unfold arrayDim
    tc tp_number
    refine Tp.ite (by tp) (Tp.intern (by omega) fun _ => Tp.pure ?_)
    simp only [List.length_append, List.length_singleton]; omega
  refine Tp.expectChar (by omega) ?_
  tc tp_number
  refine Tp.ite (by tp) ?_
  refine Tp.seq (Tp.forN (eb := fun _ (l : List Handle) => 100 + 5 * l.length) hd _) (by simp only [List.length_nil]; omega) fun l => ?_
  simp only [List.length_nil]
  have hk : ∀ (q : Qualifiers) (d : Handle) e, 1100 ≤ e → Tp C e (do
      let element_type ← r.type .Drop
      intern (.ArrayType q d element_type) : P Handle) (fun _ => K) := by
    intro q d e he
    tc hr.type _
    tp
  refine Tp.internL (by omega) fun _ => Tp.tryStr (by simp) (by omega) (Tp.iteT ?_) (Tp.iteF ?_)
  · tc tp_quals
    refine Tp.ite (by tp) ?_
    exact Tp.pureB (by omega) (hk _ _ _ (by omega))
  · exact Tp.pureB (by omega) (hk _ _ _ (by omega))

omit hr in
theorem tp_type_quals (q : QMM) : Tp C 100 (type_quals q) (fun _ => 0) := by
  unfold type_quals
  cases q
  · tp
  · tc tp_quals
    tp
  · refine Tp.tryChar (by omega) (Tp.iteT ?_) (Tp.iteF (by tp))
    tc tp_quals
    tp

include hrend in
theorem tp_type_body : Tp C 700 (demangle_type_body rend r) (fun _ => K) := by
  unfold demangle_type_body
  refine Tp.query (by omega) fun m => Tp.ite ?_ (Tp.ite ?_ (Tp.ite ?_ (Tp.ite ?_ (Tp.ite ?_ ?_))))
  · exact Tp.mono (tp_class_type hrend hr) (by omega) fun _ => by omega
  · refine Tp.queryE (by omega) fun k => ?_
    rcases k with _ | _ | _
    · tp
    · exact Tp.mono (tp_pointer hr) (by omega) fun _ => by omega
    · exact Tp.mono (tp_member_pointer hrend hr) (by omega) fun _ => by omega
  · exact Tp.mono (tp_array hr) (by omega) fun _ => by omega
  · refine Tp.tryStr (by simp) (by omega) (Tp.iteT ?_) (Tp.iteF (Tp.tryStr (by simp) (by omega) (Tp.iteT ?_) (Tp.iteF (by tp))))
    · exact Tp.mono (tp_function_type hr _) (by omega) fun _ => by omega
    · exact Tp.mono (tp_function_type hr _) (by omega) fun _ => by omega
  · exact Tp.mono (tp_custom hr) (by omega) fun _ => by omega
  · exact Tp.mono tp_prim (by omega) fun _ => by omega

include hrend in
theorem tp_type (q : QMM) : Tp C 1000 (demangle_type rend r q) (fun _ => K) := by
  unfold demangle_type
  tc tp_type_quals q
  refine Tp.query (by omega) fun _ => Tp.ite (by tp) ?_
  tc tp_type_body hrend hr
  tp

omit hr in
theorem tp_offsets (n : Nat) : Tp C 101 (offsets n) (fun _ => 101) := by
  unfold offsets
  refine Tp.forN (eb := fun _ _ => 100) (fun _ l => ?_) _
  tc tp_signed
  tp

omit hr in
theorem tp_symbol_identifier (h : Handle) : Tp C 50 (symbol_identifier h) (fun _ => 0) := by
  unfold symbol_identifier
  refine Tp.resolveP (by omega) fun n => ?_
  split <;> tp

include hrend in
theorem tp_template_member_pointer (c : Char) : Tp C 1300 (template_member_pointer rend r c) (fun _ => 0) := by
  unfold template_member_pointer
  have hk : ∀ (s : Option Handle), Tp C 200 (do
      let offs ← match c with
        | '1' => offsets 0
        | 'H' => offsets 1
        | 'I' => offsets 2
        | 'J' => offsets 3
        | _ => SM.err .InvalidTemplateParameterList
      intern (.TemplateParameterReference s offs (some .Pointer) true) : P Handle) (fun _ => 0) := by
    intro s
    split
    · tc tp_offsets _
      tp
    · tc tp_offsets _
      tp
    · tc tp_offsets _
      tp
    · tc tp_offsets _
      tp
    · tp
  refine Tp.query (by omega) fun _ => Tp.ite ?_ ?_
  · have := hrend.node
    tc hr.parse
    tc tp_symbol_identifier _
    tc tp_memorize_identifier hrend _
    exact Tp.pureB (by omega) (Tp.mono (hk _) (by omega) fun _ => by omega)
  · exact Tp.pureB (by omega) (Tp.mono (hk _) (by omega) fun _ => by omega)

omit hr in
theorem tp_template_data_pointer (c : Char) : Tp C 200 (template_data_member_pointer c) (fun _ => 0) := by
  unfold template_data_member_pointer
  split
  · refine Tp.seq (e := 200) (tp_offsets _) (by omega) fun _ => by tp
  · refine Tp.seq (e := 200) (tp_offsets _) (by omega) fun _ => by tp
  · exact Tp.errB (e := 200) (by omega)

omit hr in
theorem tp_spec {β : Type} {auto : Bool} {l : List Char} {e : Int} {f : Option Char → P β} {d : β → Int}
    (he : 3 * l.length + 1 ≤ e) (h1 : ∀ a, Tp C (e - 3 * l.length - 1 + K) (f (some a)) d)
    (h0 : Tp C (e - 3 * l.length - 1) (f none) d) : Tp C e (trySpecifier auto l >>= f) d := by
  unfold trySpecifier
  refine tp_table (fun x hx => ?_) (by simpa using he) (fun a => Tp.mono0 (h1 a) (by simp)) (Tp.mono0 h0 (by simp))
  simp only [List.mem_map] at hx
  obtain ⟨c, _, rfl⟩ := hx
  cases auto <;> simp

include hrend in
theorem tp_template_argument (auto : Bool) : Tp C 1400 (template_argument rend r auto) (fun _ => K - 1400) := by
  unfold template_argument
  refine Tp.tryStr (by simp) (by omega) (Tp.iteT ?_) (Tp.iteF (Tp.tryStr (by simp) (by omega) (Tp.iteT ?_) (Tp.iteF
    (Tp.tryStr (by simp) (by omega) (Tp.iteT ?_) (Tp.iteF
    (tp_spec (by simp) (fun c => ?_) (Tp.query (by simp) fun _ => Tp.ite ?_ (tp_spec (by simp) (fun c => ?_)
    (Tp.tryStr (by cases auto <;> simp) (by simp) (Tp.iteT ?_) (Tp.iteF ?_))))))))))
  · exact Tp.mono (tp_fqtn hrend hr) (by omega) fun _ => by omega
  · exact Tp.mono (hr.type _) (by omega) fun _ => by omega
  · exact Tp.mono (hr.type _) (by omega) fun _ => by omega
  all_goals simp only [List.length_cons, List.length_nil]
  · exact Tp.mono (tp_template_member_pointer hrend hr c) (by omega) fun _ => by omega
  · refine Tp.expectStr (by simp) (by omega) ?_
    tc hr.parse
    tp
  · exact Tp.mono (tp_template_data_pointer c) (by omega) fun _ => by omega
  · tc tp_number
    tp
  · exact Tp.mono (hr.type _) (by omega) fun _ => by omega

include hrend in
theorem tp_template_list : Tp C 2000 (demangle_template_parameter_list rend r) (fun _ => K + C) := by
  unfold demangle_template_parameter_list
  refine Tp.seq (Tp.loop (eb := fun l : List Handle => 1900 + 5 * l.length) (d := fun l => K + 10 + 5 * l.length) (fun _ => by omega) (fun l => ?_) _)
    (by simp only [List.length_nil]; omega) fun l => Tp.mono Tp.intern0 (by simp only [nodeSize, List.length_nil]; omega) fun _ => by
      simp only [nodeSize, List.length_nil]; omega
  unfold templateListBody
  refine Tp.tryChar (by omega) (Tp.iteT (Tp.pure (by simp only [loopTp]; omega))) (Tp.iteF (tp_table (by simp) (by simp; omega)
    (fun _ => ?_) ?_))
  all_goals simp only [List.length_cons, List.length_nil]
  · exact Tp.pure (by simp only [loopTp]; omega)
  · refine Tp.iteF (Tp.query (by omega) fun _ => Tp.ite (by tp) ?_)
    have ht : ∀ b, Tp C 1010 (whenB b (do let _ ← r.type .Drop)) (fun _ => 0) := fun b =>
      Tp.whenB (Tp.seq (hr.type _) (by omega) fun _ => by tp) (by omega)
    have hk : ∀ b, Tp C (1500 + 5 * l.length) (do
        let node ← template_argument rend r b
        pure (.inl (l ++ [node])) : P (List Handle ⊕ List Handle)) (loopTp (fun l => 1900 + 5 * l.length) fun l => K + 10 + 5 * l.length) := by
      intro b
      tc tp_template_argument hrend hr b
      exact Tp.pure (by simp only [loopTp, List.length_append, List.length_singleton]; omega)
    have hb : ∀ b, Tp C (2600 + 5 * l.length) (do
        whenB b (do let _ ← r.type .Drop)
        let node ← template_argument rend r b
        pure (.inl (l ++ [node])) : P (List Handle ⊕ List Handle)) (loopTp (fun l => 1900 + 5 * l.length) fun l => K + 10 + 5 * l.length) := by
      intro b
      tc ht b
      exact Tp.mono0 (hk _) (by omega)
    refine Tp.tryStr (by simp) (by omega) ?_ ?_
    · exact Tp.mono0 (hb true) (by omega)
    · refine Tp.seq (d1 := fun _ => 0) (e1 := 0) (Tp.pure' (by omega)) (by omega) fun _ => Tp.mono0 (hk false) (by omega)

include hrend in
theorem tp_tmpl (n : NBB) : Tp C 300 (demangle_template_instantiation_name rend r n) (fun _ => K) := by
  unfold demangle_template_instantiation_name
  refine Tp.expectStr (by simp) (by omega) (Tp.get (by omega) fun o => Tp.modify (fun s => ⟨rfl, rfl⟩) (by omega) ?_)
  have := hrend.node
  tc tp_usn hr _
  tc tp_template_list hrend hr
  refine Tp.modifyNode (by omega) (Tp.modify (fun s => ⟨rfl, rfl⟩) (by omega) (Tp.ite (Tp.resolveP (by omega) fun _ => Tp.ite (by tp) ?_)
    (by tp)))
  tc tp_memorize_identifier hrend _
  tp

/-! ### Symbols -/

include hrend in
theorem tp_variable_quals (t : Handle) : Tp C 700 (variable_quals rend r t) (fun _ => 0) := by
  unfold variable_quals
  refine Tp.downcastP (by omega) fun o => ?_
  cases o with
  | none =>
    tc tp_quals
    tp
  | some p =>
    tc tp_ext
    refine Tp.resolveP (by omega) fun n => ?_
    cases n <;> try exact Tp.crash (by omega)
    refine Tp.modifyNode (by omega) ?_
    tc tp_quals
    tc Tp.whenB (e := 510) (d := fun _ => 0) (Tp.seq (tp_fqtn hrend hr) (by omega) fun _ => by tp) (by omega)
    tp

include hrend in
theorem tp_variable (sc : StorageClass) : Tp C 1010 (demangle_variable_encoding rend r sc) (fun _ => C) := by
  unfold demangle_variable_encoding
  tc hr.type _
  tc tp_variable_quals hrend hr _
  tp

omit hr in
theorem tp_thunk (fc : FuncClass) : Tp C 300 (thunk_adjust fc) (fun _ => 0) := by
  unfold thunk_adjust
  refine Tp.ite ?_ (Tp.ite (Tp.ite ?_ ?_) (by tp))
  · tc tp_signed
    tp
  · tc tp_signed
    tc tp_signed
    tc tp_signed
    tc tp_signed
    tp
  · tc tp_signed
    tc tp_signed
    tp

theorem tp_function_encoding : Tp C 500 (demangle_function_encoding r) (fun _ => C) := by
  unfold demangle_function_encoding
  have hk : ∀ (b : Bool), Tp C 480 (do
      let e ← query MStr.is_empty
      if e then SM.err .InvalidFunctionEncoding
      else do
        let fc ← demangle_function_class
        let fc := fc ||| (if b then FuncClass.FC_ExternC else FuncClass.FC_None)
        let ttn ← thunk_adjust fc
        let fsn ← if fc.no_parameter_list then intern (.FunctionSignature {})
          else demangle_function_type r (!fc.intersects (FuncClass.FC_Global ||| FuncClass.FC_Static))
        let signature ← match ttn with
          | some adjust => do
            let f ← resolveP .FunctionSignature fsn
            intern (.ThunkSignature f.asFuncSig adjust)
          | none => pure fsn
        modifyNode .ISignatureNode signature (Node.set_function_class fc)
        intern (.FunctionSymbol none signature) : P Handle) (fun _ => C) := by
    intro b
    refine Tp.query (by omega) fun _ => Tp.ite (by tp) (Tp.seq tp_class (by omega) fun fc => Tp.seq (tp_thunk _) (by omega) fun ttn => ?_)
    have hk2 : ∀ fsn fc, Tp C 100 (do
        let signature ← match ttn with
          | some adjust => do
            let f ← resolveP .FunctionSignature fsn
            intern (.ThunkSignature f.asFuncSig adjust)
          | none => pure fsn
        modifyNode .ISignatureNode signature (Node.set_function_class fc)
        intern (.FunctionSymbol none signature) : P Handle) (fun _ => C) := by
      intro fsn fc
      cases ttn with
      | none => refine Tp.pureB (by omega) ?_; dsimp only; tp
      | some a => refine Tp.resolveP (by omega) fun _ => ?_; tp
    refine Tp.ite ?_ ?_
    · exact Tp.intern (by omega) fun _ => Tp.mono (hk2 _ _) (by omega) fun _ => by omega
    · exact Tp.seq (tp_function_type hr _) (by omega) fun _ => Tp.mono (hk2 _ _) (by omega) fun _ => by omega
  refine Tp.tryStr (by simp) (by omega) (Tp.mono (hk true) (by omega) fun _ => by omega) (Tp.mono (hk false) (by omega) fun _ => by omega)

omit hr in
theorem tp_function_return_type (h : Handle) : Tp C 50 (function_return_type h) (fun _ => 0) := by
  unfold function_return_type
  refine Tp.resolveP (by omega) fun n => ?_
  cases n <;> try exact Tp.crash (by omega)
  refine Tp.resolveP (by omega) fun _ => by tp

include hrend in
theorem tp_encoded (h : Handle) : Tp C 1200 (demangle_encoded_symbol rend r h) (fun _ => C) := by
  unfold demangle_encoded_symbol
  refine Tp.query (by omega) fun _ => Tp.okOr (by omega) fun _ => Tp.ite ?_ ?_
  · tc tp_storage
    exact Tp.mono (tp_variable hrend hr _) (by omega) fun _ => by omega
  · tc tp_function_encoding hr
    tc tp_function_return_type _
    tp

include hrend in
theorem tp_declarator : Tp C 600 (demangle_declarator rend r) (fun _ => C) := by
  unfold demangle_declarator
  tc tp_fqsn hrend hr
  tc tp_encoded hrend hr _
  tp

theorem tp_typeinfo : Tp C 100 (demangle_typeinfo_name r) (fun _ => K + C) := by
  unfold demangle_typeinfo_name
  refine Tp.expectChar (by omega) ?_
  tc hr.type _
  tp

include hrend in
theorem tp_special_table (k : SpecialIntrinsicKind) : Tp C 3000 (demangle_special_table_symbol_node rend r k) (fun _ => C) := by
  unfold demangle_special_table_symbol_node
  refine Tp.okOr (by omega) fun _ => Tp.intern (by omega) fun _ => ?_
  tc tp_chain hrend hr _
  refine Tp.tryIf (by omega) (fun _ => ?_) ?_
  · refine Tp.okOr (by omega) fun _ => ?_
    tc tp_quals
    refine Tp.tryChar (by omega) (Tp.iteT ?_) (Tp.iteF ?_)
    · refine Tp.pureB (by omega) ?_
      dsimp only
      tp
    · tc tp_fqtn hrend hr
      refine Tp.pureB (by omega) ?_
      dsimp only
      tp
  · tp

include hrend in
theorem tp_guard (b : Bool) : Tp C 3000 (demangle_local_static_guard rend r b) (fun _ => C) := by
  unfold demangle_local_static_guard
  have hk : ∀ (l name : Handle) (v : Bool), Tp C 500 (do
      let e ← query MStr.is_empty
      whenB (!e) (do
        let i ← demangle_unsigned
        if i < 2 ^ 32 then modifyNode .LocalStaticGuardIdentifier l (set_scope_index i)
        else SM.err .InvalidLocalStaticGuard)
      intern (.LocalStaticGuardVariable name v) : P Handle) (fun _ => C) := by
    intro l name v
    refine Tp.query (by omega) fun e => ?_
    tc Tp.whenB (e := 100) (d := fun _ => 0) (Tp.seq tp_unsigned (by omega) fun i => by tp) (by omega)
    tp
  refine Tp.intern (by omega) fun l => ?_
  tc tp_chain hrend hr _
  refine Tp.tryStr (by simp) (by omega) (Tp.iteT ?_) (Tp.iteF (Tp.tryChar (by omega) (Tp.iteT ?_) (Tp.iteF ?_)))
  · exact Tp.pureB (by omega) (Tp.mono (hk _ _ _) (by omega) fun _ => by omega)
  · exact Tp.pureB (by omega) (Tp.mono (hk _ _ _) (by omega) fun _ => by omega)
  · tp

include hrend in
theorem tp_untyped (t : Text) : Tp C 3000 (demangle_untyped_variable rend r t) (fun _ => C) := by
  unfold demangle_untyped_variable
  refine Tp.intern (by omega) fun l => ?_
  tc tp_chain hrend hr _
  tp

include hrend in
theorem tp_base_class : Tp C 3000 (demangle_rtti_base_class_descriptor_node rend r) (fun _ => C) := by
  unfold demangle_rtti_base_class_descriptor_node
  have hu : Tp C 100 demangle_rtti_base_class_descriptor_node.u32 (fun _ => 0) := by
    unfold demangle_rtti_base_class_descriptor_node.u32
    tc tp_unsigned
    tp
  tc hu
  tc tp_signed
  refine Tp.ite (by tp) ?_
  tc hu
  tc hu
  refine Tp.intern (by omega) fun _ => ?_
  tc tp_chain hrend hr _
  tp

include hrend in
theorem tp_init_fini (b : Bool) : Tp C 3000 (demangle_init_fini_stub rend r b) (fun _ => C) := by
  unfold demangle_init_fini_stub
  have hk : ∀ (known : Bool), Tp C 2900 (do
      let symbol ← demangle_declarator rend r
      let variable? ← downcastP .ISymbolNode .VariableSymbol symbol
      match variable? with
      | some var => do
        if known then expectStr c!"@@" .InvalidInitFiniStub
        else expectChar '@' .InvalidInitFiniStub
        let fsn ← demangle_function_encoding r
        let dsin ← intern (.DynamicStructorIdentifier none (.Variable var) b)
        let name ← synthesize_from_id dsin
        modifyNode .FunctionSymbol fsn (Node.set_name name)
        pure fsn
      | none => do
        let function? ← downcastP .ISymbolNode .FunctionSymbol symbol
        match function? with
        | some fsn =>
          if known then SM.err .InvalidInitFiniStub
          else do
            let n ← resolveP .FunctionSymbol fsn
            let old ← SM.okOr .InvalidInitFiniStub n.get_name
            let dstn ← intern (.DynamicStructorIdentifier none (.Name old) b)
            let name ← synthesize_from_id dstn
            modifyNode .FunctionSymbol fsn (Node.set_name name)
            pure fsn
        | none => SM.err .InvalidInitFiniStub : P Handle) (fun _ => C) := by
    intro known
    tc tp_declarator hrend hr
    refine Tp.downcastP (by omega) fun v => ?_
    cases v with
    | some v =>
      have h2 : Tp C 1000 (do
          let fsn ← demangle_function_encoding r
          let dsin ← intern (.DynamicStructorIdentifier none (.Variable v) b)
          let name ← synthesize_from_id dsin
          modifyNode .FunctionSymbol fsn (Node.set_name name)
          pure fsn : P Handle) (fun _ => C) := by
        tc tp_function_encoding hr
        refine Tp.intern (by omega) fun _ => ?_
        tc tp_from_id _
        tp
      refine Tp.ite ?_ ?_
      · exact Tp.expectStr (by simp) (by omega) (Tp.mono h2 (by omega) fun _ => by omega)
      · exact Tp.expectChar (by omega) (Tp.mono h2 (by omega) fun _ => by omega)
    | none =>
      refine Tp.downcastP (by omega) fun v => ?_
      cases v with
      | none => tp
      | some v =>
        refine Tp.ite (by tp) (Tp.resolveP (by omega) fun _ => Tp.okOr (by omega) fun _ => Tp.intern (by omega) fun _ => ?_)
        tc tp_from_id _
        tp
  exact Tp.tryChar (by omega) (Tp.mono (hk true) (by omega) fun _ => by omega) (Tp.mono (hk false) (by omega) fun _ => by omega)

include hrend in
theorem tp_vcall : Tp C 3000 (demangle_vcall_thunk_node rend r) (fun _ => C) := by
  unfold demangle_vcall_thunk_node
  refine Tp.intern (by omega) fun _ => ?_
  tc tp_chain hrend hr _
  refine Tp.expectStr (by simp) (by omega) ?_
  tc tp_unsigned
  refine Tp.modifyNode (by omega) (Tp.expectChar (by omega) ?_)
  tc tp_cc
  tp

theorem tp_rtti : Tp C 3000 (demangle_rtti_type_descriptor r) (fun _ => C) := by
  unfold demangle_rtti_type_descriptor
  tc hr.type _
  refine Tp.expectStr (by simp) (by omega) (Tp.query (by omega) fun _ => Tp.ite ?_ (by tp))
  tc tp_from_name _
  tp

include hrend in
theorem tp_special (k : SpecialIntrinsicKind) : Tp C 3000 (special_intrinsic rend r k) (fun _ => C) := by
  unfold special_intrinsic
  cases k
  all_goals first
    | exact Tp.err (by omega)
    | exact Tp.mono tp_string (by omega) fun _ => by omega
    | exact tp_special_table hrend hr _
    | exact tp_vcall hrend hr
    | exact tp_guard hrend hr _
    | exact tp_rtti hr
    | exact tp_untyped hrend hr _
    | exact tp_base_class hrend hr
    | exact tp_init_fini hrend hr _

include hrend in
theorem tp_parse : Tp C 1000 (do_parse rend r) (fun _ => K + C) := by
  unfold do_parse
  refine Tp.query (by omega) fun _ => Tp.ite ?_ (Tp.query (by omega) fun _ => Tp.ite ?_ (Tp.expectChar (by omega)
    (tp_table ?_ (by simp [specialIntrinsics]) (fun k => ?_) ?_)))
  · exact Tp.mono (tp_typeinfo hr) (by omega) fun _ => by omega
  · exact Tp.mono tp_md5 (by omega) fun _ => by omega
  · intro x hx
    simp only [specialIntrinsics, List.mem_cons, List.not_mem_nil, or_false] at hx
    rcases hx with rfl | rfl | rfl | rfl | rfl | rfl | rfl | rfl | rfl | rfl | rfl | rfl | rfl | rfl | rfl | rfl <;> simp
  · exact Tp.mono (tp_special hrend hr k) (by simp [specialIntrinsics]) fun _ => by simp [specialIntrinsics]
  · exact Tp.mono (tp_declarator hrend hr) (by simp [specialIntrinsics]) fun _ => by simp [specialIntrinsics]

end

theorem tp_fns {R C : Nat} {rend : Renderer} (hrend : RendCost R C rend) (n : Nat) : TpFns C (fns rend n) := by
  induction n with
  | zero => exact ⟨fun _ => Tp.crash (by omega), fun _ => Tp.crash (by omega), Tp.crash (by omega)⟩
  | succ n ih => exact ⟨tp_type hrend ih, tp_tmpl hrend ih, tp_parse hrend ih⟩

end Undname.Timed
