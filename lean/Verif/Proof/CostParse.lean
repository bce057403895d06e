/-
  Cost analysis of the parser.
-/
import Verif.Proof.Cost

namespace Undname

/-- The credit after an iteration of a loop: all of it is back unless the loop ends. -/
def loopCr {α β : Type} (e : Nat) (d : α → Nat) : β ⊕ α → Nat
  | .inl _ => e
  | .inr a => d a

namespace Cr
variable {α β γ : Type} {e e1 : Nat} {d : α → Nat} {d2 : β → Nat}

theorem seq {m : P α} {f : α → P β} (h : Cr e1 m d) (he : e1 ≤ e)
    (hf : ∀ a, Cr (e - e1 + d a) (f a) d2) : Cr e (m >>= f) d2 := by
  intro k s hk hs
  rw [run_bind_eq]
  have := h (k - (e - e1)) s (by omega) (by omega)
  cases hm : exec m s with
  | error x => rw [hm] at this; exact this
  | ok x =>
    rw [hm] at this
    exact hf x.1 k x.2 hk (by simp only [Post] at this; omega)

theorem tail {m : P α} {d' : α → Nat} (h : Cr e1 m d) (he : e1 ≤ e) (hd : ∀ a, d' a ≤ e - e1 + d a) :
    Cr e m d' := by
  intro k s hk hs
  have := h (k - (e - e1)) s (by omega) (by omega)
  cases hm : exec m s with
  | error x => rw [hm] at this; exact this
  | ok x => rw [hm] at this; have := hd x.1; simp only [Post] at *; omega

theorem pure {a : α} (h : d a ≤ e) : Cr e (Pure.pure a) d := by
  intro k s hk hs
  simp only [run, Post]; omega

theorem pure' {a : α} (h : d a ≤ e) : Cr e (SM.pure a) d := by
  intro k s hk hs
  simp only [run, Post]; omega

theorem err {x : Error} (h : x ≠ .MaliciousInput := by simp) : Cr e (SM.err x) d := by
  intro k s hk hs
  simpa [run, Post] using h

theorem crash {x : Crash} : Cr e (SM.crash x) d := fun _ _ _ _ => by simp [run, Post]

theorem get {f : St → P β} (h : ∀ s, Cr e (f s) d2) : Cr e (SM.get >>= f) d2 :=
  fun k s hk hs => h s k s hk hs

theorem query {α : Type} {g : MStr → α} {f : α → P β} (h : ∀ a, Cr e (f a) d2) :
    Cr e (query g >>= f) d2 :=
  fun k s hk hs => h _ k s hk hs

theorem lift {α : Type} {x : Except Fail α} {f : α → P β} (hx : x ≠ .error (.err .MaliciousInput))
    (h : ∀ a, Cr e (f a) d2) : Cr e (SM.lift x >>= f) d2 := by
  cases x with
  | ok a => exact h a
  | error y =>
    intro k s hk hs
    simpa [run, Post] using hx

theorem queryE {α : Type} {g : MStr → Except Fail α} {f : α → P β}
    (hx : ∀ m, g m ≠ .error (.err .MaliciousInput)) (h : ∀ a, Cr e (f a) d2) :
    Cr e (queryE g >>= f) d2 := by
  intro k s hk hs
  exact lift (e := e) (hx s.str) h k s hk hs

theorem okOr {α : Type} {x : Error} {o : Option α} {f : α → P β} (h : ∀ a, Cr e (f a) d2)
    (hx : x ≠ .MaliciousInput := by simp) : Cr e (SM.okOr x o >>= f) d2 := by
  cases o with
  | none => intro k s hk hs; simpa [run, Post] using hx
  | some a => exact h a

theorem okOr' {x : Error} {o : Option α} (hd : ∀ a, d a ≤ e)
    (hx : x ≠ .MaliciousInput := by simp) : Cr e (SM.okOr x o) d := by
  cases o with
  | none => exact err hx
  | some a => exact pure' (hd a)

theorem iteT {m m' : P α} (h : Cr e m d) : Cr e (if true = true then m else m') d := h
theorem iteF {m m' : P α} (h : Cr e m' d) : Cr e (if false = true then m else m') d := h
theorem ite {b : Prop} [Decidable b] {m m' : P α} (h1 : Cr e m d) (h0 : Cr e m' d) :
    Cr e (if b then m else m') d := by split <;> assumption

theorem modify {g : St → St} {f : Unit → P β} (hg : ∀ s, pot (g s) ≤ pot s) (h : Cr e (f ()) d2) :
    Cr e (SM.modify g >>= f) d2 :=
  fun k s hk hs => h k (g s) hk (by have := hg s; omega)

theorem modify' {g : St → St} {d : Unit → Nat} (hg : ∀ s, pot (g s) ≤ pot s) (h : d () ≤ e) :
    Cr e (SM.modify g) d :=
  fun k s hk hs => by have := hg s; simp only [run, Post]; omega

theorem intern' {n : Node} {d : Handle → Nat} (he : 0 < e) (hd : ∀ a, d a ≤ e - 1) :
    Cr e (intern n) d := by
  intro k s hk hs
  unfold exec intern
  unfold pot at *
  have : ¬ (s.cache.length + 1 > NODE_LIMIT) := by omega
  simp only [this, if_false, List.length_append, List.length_singleton, Post]
  have := hd s.cache.length
  omega

theorem intern {n : Node} {f : Handle → P β} (he : 0 < e) (h : ∀ a, Cr (e - 1) (f a) d2) :
    Cr e (intern n >>= f) d2 :=
  seq (d := fun _ => e - 1) (intern' he fun _ => Nat.le_refl _) (Nat.le_refl _) fun a =>
    tail (h a) (by omega) fun _ => by omega

theorem modifyNode' {k : Kind} {h : Handle} {g : Node → Node} {d : Unit → Nat} (hd : d () ≤ e) :
    Cr e (modifyNode k h g) d := by
  unfold modifyNode resolveP
  refine seq (e1 := e) (d := fun _ => e) (get fun s => ?_) (Nat.le_refl _) fun n => modify' ?_ (by omega)
  · have := lift (e := e) (d2 := fun _ => e) (f := fun a => (Pure.pure a : P Node)) (x := resolve k s.cache h) resolve_ne
      fun a => pure (Nat.le_refl _)
    intro k' s' hk hs
    have := this k' s' hk hs
    rw [run_bind_eq] at this
    cases hx : exec (SM.lift (resolve k s.cache h) : P Node) s' with
    | error y => rw [hx] at this; exact this
    | ok y => rw [hx] at this; exact this
  · intro s; simp [pot]

theorem modifyNode {k : Kind} {h : Handle} {g : Node → Node} {f : Unit → P β} (hf : Cr e (f ()) d2) :
    Cr e (modifyNode k h g >>= f) d2 :=
  seq (d := fun _ => 0) (modifyNode' (e := 0) (Nat.le_refl _)) (Nat.zero_le _) fun _ => tail hf (by omega) fun _ => by omega

theorem resolveP {k : Kind} {h : Handle} {f : Node → P β} (hf : ∀ a, Cr e (f a) d2) :
    Cr e (resolveP k h >>= f) d2 := by
  intro k' s hk hs
  exact lift (e := e) (resolve_ne (k := k) (c := s.cache) (h := h)) hf k' s hk hs

theorem downcastP {k k1 : Kind} {h : Handle} {f : Option Handle → P β} (hf : ∀ a, Cr e (f a) d2) :
    Cr e (downcastP k k1 h >>= f) d2 := by
  intro k' s hk hs
  exact lift (e := e) (downcast_ne (k := k) (k' := k1) (c := s.cache) (h := h)) hf k' s hk hs

theorem whenB {b : Bool} {m : P Unit} {d : Unit → Nat} (h : Cr e m d) (hd : d () ≤ e) :
    Cr e (whenB b m) d := by
  cases b
  · exact pure' hd
  · exact h

theorem runW {m : W Unit} {t : Text} {f : Text → P β} (hm : NM m) (h : ∀ a, Cr e (f a) d2) :
    Cr e (runW m t >>= f) d2 := by
  refine seq (e1 := 0) (d := fun _ => 0) ?_ (Nat.zero_le _) fun a => tail (h a) (by omega) fun _ => by omega
  intro k s hk hs
  unfold exec Undname.runW
  have := hm t
  unfold exec at this
  cases hx : m t with
  | ok y => simp only [Post]; omega
  | error y => intro he; rw [hx, he] at this; exact this rfl

theorem iterate {n : Nat} {body : β → P (β ⊕ α)} (h : ∀ b, Cr e (body b) (loopCr e d)) (b : β) : Cr e (SM.iterate n body b) d := by
  induction n generalizing b with
  | zero => exact crash
  | succ n ih =>
    refine seq (h b) (Nat.le_refl _) fun x => ?_
    cases x with
    | inl b' => exact tail (ih b') (by simp [loopCr]) fun _ => by simp [loopCr]
    | inr a => exact pure' (by simp [loopCr])

theorem loop {body : β → P (β ⊕ α)} (h : ∀ b, Cr e (body b) (loopCr e d)) (b : β) : Cr e (loopInput body b) d :=
  fun k s hk hs => iterate (n := s.str.string.length + 1) h b k s hk hs

theorem forN {n : Nat} {body : β → P β} (h : ∀ b, Cr e (body b) (fun _ => e)) (b : β) :
    Cr e (SM.forN n body b) (fun _ => e) := by
  induction n generalizing b with
  | zero => exact pure' (Nat.le_refl _)
  | succ n ih => exact seq (h b) (Nat.le_refl _) fun x => tail (ih x) (by omega) fun _ => by omega

/-- Reading the input gives credit. -/
theorem onStr {m : SM MStr α} {d : α → Nat} (h : ∀ x, Post (exec m x) fun y =>
    2 * y.2.string.length + d y.1 ≤ 2 * x.string.length) : Cr 0 (onStr m) d := by
  intro k s hk hs
  have := h s.str
  unfold exec at *
  unfold Undname.onStr
  cases hm : m s.str with
  | error y => rw [hm] at this; exact this
  | ok y =>
    rw [hm] at this
    simp only [pot, Post] at *
    omega

theorem tryIf0 (f : Char → Bool) : Cr 0 (tryIf f) (fun o => if o.isSome then 2 else 0) := by
  refine onStr fun x => ?_
  unfold MStr.try_consume_char_if
  simp only [run]
  cases hx : x.string with
  | nil => simp [run, hx, Post]
  | cons c cs =>
    simp only [run]
    by_cases hf : f c = true
    · simp only [hf, if_true, run]
      by_cases hn : 1 ≤ x.chars
      · simp [hn, run, Post]; omega
      · simp [hn, run, Post]
    · simp [hf, run, hx, Post]

theorem tryStr0 (t : Text) : Cr 0 (tryStr t) (fun b => if b then 2 * t.length else 0) := by
  unfold tryStr
  refine seq (e1 := 0) (d := fun o => if o.isSome then 2 * t.length else 0) (onStr fun x => ?_) (Nat.le_refl _)
    fun o => pure (by simp)
  unfold MStr.try_consume_str
  simp only [run]
  by_cases hp : x.starts_with t = true
  · simp only [hp, if_true, run]
    have := congrArg List.length (isPrefixOf_drop (t := t) (l := x.string) hp)
    simp only [List.length_append] at this
    by_cases hn : t.length ≤ x.chars
    · simp only [hn, run, if_true, Option.isSome_some, Post]
      show 2 * (x.string.drop t.length).length + 2 * t.length ≤ 2 * x.string.length
      omega
    · simp [hn, run, Post]
  · simp [hp, run, Post]

theorem tryBytes0 (n : Nat) : Cr 0 (tryBytes n) (fun o => match o with | some t => 2 * t.length | none => 0) := by
  refine onStr fun x => ?_
  unfold MStr.try_consume_n_bytes
  simp only [run]
  cases hx : splitAtBytes n x.string with
  | none => simp [run, Post]
  | some ab =>
    obtain ⟨a, b⟩ := ab
    have := congrArg List.length (splitAtBytes_append hx)
    simp only [List.length_append] at this
    simp only [run]
    by_cases hn : a.length ≤ x.chars
    · simp only [hn, run, if_true, Post]; omega
    · simp [hn, run, Post]

theorem try2 : Cr 0 (Undname.onStr MStr.try_consume_2_chars) (fun _ => 0) := by
  refine onStr fun x => ?_
  unfold MStr.try_consume_2_chars
  simp only [run]
  rcases hx : x.string with _ | ⟨a, _ | ⟨b, cs⟩⟩
  · simp [run, hx, Post]
  · simp [run, hx, Post]
  · simp only [run]
    by_cases hn : 2 ≤ x.chars
    · simp [hn, run, Post]; omega
    · simp [hn, run, Post]

theorem tryIf {g : Char → Bool} {f : Option Char → P β} (h1 : ∀ c, Cr (e + 2) (f (some c)) d2)
    (h0 : Cr e (f none) d2) : Cr e (tryIf g >>= f) d2 :=
  seq (tryIf0 g) (Nat.zero_le _) fun o => by
    cases o with
    | none => exact tail h0 (by simp) fun _ => by simp
    | some c => exact tail (h1 c) (by simp) fun _ => by simp

theorem tryAny {f : Option Char → P β} (h1 : ∀ c, Cr (e + 2) (f (some c)) d2)
    (h0 : Cr e (f none) d2) : Cr e (tryAny >>= f) d2 := tryIf h1 h0

theorem tryChar {c : Char} {f : Bool → P β} (h1 : Cr (e + 2) (f true) d2)
    (h0 : Cr e (f false) d2) : Cr e (tryChar c >>= f) d2 := by
  refine seq (e1 := 0) (d := fun b => if b then 2 else 0) ?_ (Nat.zero_le _) fun b => ?_
  · exact tryIf (g := fun x => x == c) (f := fun o => Pure.pure o.isSome) (fun c => pure (by simp)) (pure (by simp))
  · cases b with
    | false => exact tail h0 (by simp) fun _ => by simp
    | true => exact tail h1 (by simp) fun _ => by simp

theorem tryStr {t : Text} {f : Bool → P β} (h1 : Cr (e + 2 * t.length) (f true) d2)
    (h0 : Cr e (f false) d2) : Cr e (tryStr t >>= f) d2 :=
  seq (tryStr0 t) (Nat.zero_le _) fun b => by
    cases b with
    | false => exact tail h0 (by simp) fun _ => by simp
    | true => exact tail h1 (by simp) fun _ => by simp

theorem expectAny' {x : Error} {d : Char → Nat} (hd : ∀ a, d a ≤ e + 2) (hx : x ≠ .MaliciousInput := by simp) :
    Cr e (expectAny x) d :=
  tryAny (fun _ => pure' (hd _)) (err hx)

theorem expectAny {x : Error} {f : Char → P β} (h : ∀ c, Cr (e + 2) (f c) d2)
    (hx : x ≠ .MaliciousInput := by simp) : Cr e (expectAny x >>= f) d2 :=
  seq (e1 := e) (d := fun _ => e + 2) (expectAny' (fun _ => Nat.le_refl _) hx) (Nat.le_refl _) fun a =>
    tail (h a) (by omega) fun _ => by omega

theorem expectChar' {c : Char} {x : Error} {d : Unit → Nat} (hd : d () ≤ e + 2)
    (hx : x ≠ .MaliciousInput := by simp) : Cr e (expectChar c x) d :=
  tryChar (iteT (pure hd)) (iteF (err hx))

theorem expectChar {c : Char} {x : Error} {f : Unit → P β} (h : Cr (e + 2) (f ()) d2)
    (hx : x ≠ .MaliciousInput := by simp) : Cr e (expectChar c x >>= f) d2 :=
  seq (e1 := e) (d := fun _ => e + 2) (expectChar' (Nat.le_refl _) hx) (Nat.le_refl _) fun _ =>
    tail h (by omega) fun _ => by omega

theorem expectStr {t : Text} {x : Error} {f : Unit → P β} (h : Cr (e + 2 * t.length) (f ()) d2)
    (hx : x ≠ .MaliciousInput := by simp) : Cr e (expectStr t x >>= f) d2 :=
  seq (e1 := e) (d := fun _ => e + 2 * t.length) (tryStr (iteT (pure (Nat.le_refl _))) (iteF (err hx)))
    (Nat.le_refl _) fun _ => tail h (by omega) fun _ => by omega

theorem firstIs {g : Char → Bool} {f : Bool → P β} (h : ∀ a, Cr e (f a) d2) : Cr e (firstIs g >>= f) d2 :=
  query h

end Cr

/-- The rules of the cost analysis. -/
macro "cr" : tactic => `(tactic| repeat' (first
  | assumption
  | with_reducible exact Cr.crash
  | with_reducible exact Cr.err
  | with_reducible exact Cr.pure (by first | omega | (simp; done) | (simp; omega))
  | with_reducible exact Cr.pure' (by first | omega | (simp; done) | (simp; omega))
  | with_reducible exact Cr.intern' (by omega) (fun _ => by omega)
  | with_reducible refine Cr.iteT ?_ | with_reducible refine Cr.iteF ?_
  | with_reducible refine Cr.intern (by omega) fun _ => ?_
  | with_reducible refine Cr.tryChar ?_ ?_
  | with_reducible refine Cr.tryStr ?_ ?_
  | with_reducible refine Cr.tryIf (fun _ => ?_) ?_
  | with_reducible refine Cr.expectAny (fun _ => ?_)
  | with_reducible refine Cr.expectChar ?_
  | with_reducible refine Cr.expectStr ?_
  | with_reducible refine Cr.okOr fun _ => ?_
  | with_reducible exact Cr.okOr' (fun _ => by omega)
  | with_reducible refine Cr.get fun _ => ?_
  | with_reducible refine Cr.query fun _ => ?_
  | with_reducible refine Cr.firstIs fun _ => ?_
  | with_reducible refine Cr.resolveP fun _ => ?_
  | with_reducible refine Cr.downcastP fun _ => ?_
  | with_reducible refine Cr.modifyNode ?_
  | with_reducible exact Cr.modifyNode' (by omega)
  | with_reducible refine Cr.ite ?_ ?_))

theorem cr_number : Cr 0 demangle_number (fun _ => 2) := by
  unfold demangle_number
  have hb : ∀ c, Cr 2 (loopInput numberBody (0, c)) (fun _ => 2) := fun c => Cr.loop (fun b => by
    unfold numberBody
    cr
    all_goals exact Cr.pure (by simp [loopCr])) (0, c)
  cr
  all_goals exact Cr.seq (hb _) (by omega) fun _ => Cr.pure (by omega)

theorem cr_unsigned : Cr 0 demangle_unsigned (fun _ => 2) := by
  unfold demangle_unsigned
  exact Cr.seq cr_number (by omega) fun _ => by cr

theorem cr_signed : Cr 0 demangle_signed (fun _ => 2) := by
  unfold demangle_signed
  exact Cr.seq cr_number (by omega) fun _ => by cr

theorem cr_quals : Cr 0 demangle_qualifiers (fun _ => 2) := by
  unfold demangle_qualifiers
  refine Cr.expectAny fun c => ?_
  split <;> cr

theorem cr_cv : Cr 0 demangle_pointer_cv_qualifiers (fun _ => 2) := by
  unfold demangle_pointer_cv_qualifiers
  refine Cr.tryStr ?_ ?_
  · cr
  · refine Cr.iteF (Cr.expectAny fun c => ?_)
    split <;> cr

theorem cr_ext : Cr 0 demangle_pointer_ext_qualifiers (fun _ => 0) := by
  unfold demangle_pointer_ext_qualifiers
  cr

theorem cr_ref : Cr 0 demangle_function_ref_qualifier (fun _ => 0) := by
  unfold demangle_function_ref_qualifier
  cr

theorem cr_class : Cr 0 demangle_function_class (fun _ => 2) := by
  unfold demangle_function_class
  cr

theorem cr_cc : Cr 0 demangle_calling_convention (fun _ => 2) := by
  unfold demangle_calling_convention
  cr

theorem cr_storage : Cr 0 demangle_variable_storage_class (fun _ => 2) := by
  unfold demangle_variable_storage_class
  refine Cr.expectAny fun c => ?_
  split <;> cr

theorem cr_throw : Cr 0 demangle_throw_specification (fun _ => 2) := by
  unfold demangle_throw_specification
  cr

theorem cr_prim : Cr 0 demangle_primitive_type (fun _ => 1) := by
  unfold demangle_primitive_type
  have : Cr 0 primitive_kind (fun _ => 2) := by unfold primitive_kind; cr
  exact Cr.seq this (by omega) fun _ => by cr

theorem names_contain_ne {c : Cache} {t : Text} (l : List Handle) :
    memorize_string.names_contain c t l ≠ .error (.err .MaliciousInput) := by
  induction l with
  | nil => simp [memorize_string.names_contain]
  | cons h hs ih =>
    unfold memorize_string.names_contain
    split
    · split
      · simp
      · exact ih
    · simp
    · next h' => intro he; cases he; exact resolve_ne h'

theorem cr_memorize (t : Text) : Cr 1 (memorize_string t) (fun _ => 0) := by
  unfold memorize_string
  refine Cr.get fun s => Cr.lift (names_contain_ne _) fun _ => Cr.ite (Cr.intern (by omega) fun h => ?_) (by cr)
  unfold memorize_string.push_name
  intro k s hk hs
  simp only [run]
  split
  · simp only [Post, pot] at *; omega
  · simp [Post]

theorem splitAtBytes_pos {n : Nat} {t a b : Text} (h : splitAtBytes n t = some (a, b)) (hn : n ≠ 0) :
    a ≠ [] := by
  rintro rfl
  cases t with
  | nil => cases n <;> simp_all [splitAtBytes]
  | cons x xs =>
    cases n with
    | zero => exact hn rfl
    | succ n =>
      unfold splitAtBytes at h
      split at h
      · split at h <;> simp_all
      · simp at h

/-- Taking a positive number of bytes consumes at least one character. -/
theorem cr_bytes_pos {n : Nat} (hn : n ≠ 0) :
    Cr 0 (tryBytes n) (fun o => match o with | some _ => 2 | none => 0) := by
  refine Cr.onStr fun x => ?_
  unfold MStr.try_consume_n_bytes
  simp only [run]
  cases hx : splitAtBytes n x.string with
  | none => simp [run, Post]
  | some ab =>
    obtain ⟨a, b⟩ := ab
    have hp := List.length_pos_iff.2 (splitAtBytes_pos hx hn)
    have := congrArg List.length (splitAtBytes_append hx)
    simp only [List.length_append] at this
    simp only [run]
    by_cases hn : a.length ≤ x.chars
    · simp only [hn, run, if_true, Post]; omega
    · simp [hn, run, Post]

theorem cr_bytes (n : Nat) : Cr 0 (tryBytes n) (fun _ => 0) :=
  Cr.tail (Cr.tryBytes0 n) (by omega) fun _ => by omega

theorem cr_simple_string (b : Bool) : Cr 0 (demangle_simple_string b) (fun _ => 3) := by
  unfold demangle_simple_string
  refine Cr.query fun pos => Cr.okOr fun pos => ?_
  by_cases hp : pos = 0
  · subst hp; exact Cr.err
  · have : ¬ ((pos == 0) = true) := by simpa using hp
    rw [if_neg this]
    refine Cr.seq (cr_bytes_pos hp) (by omega) fun o => ?_
    cases o with
    | none => exact Cr.err
    | some t =>
      refine Cr.okOr fun _ => Cr.expectChar ?_
      refine Cr.seq (Cr.whenB (cr_memorize _) (by omega)) (by omega) fun _ => by cr

theorem cr_simple_name (b : Bool) : Cr 0 (demangle_simple_name b) (fun _ => 2) := by
  unfold demangle_simple_name
  exact Cr.seq (cr_simple_string b) (by omega) fun _ => by cr

theorem cr_anon : Cr 0 demangle_anonymous_namespace_name (fun _ => 2) := by
  unfold demangle_anonymous_namespace_name
  refine Cr.expectStr (Cr.query fun _ => Cr.okOr fun _ => Cr.seq (cr_bytes _) (by omega) fun _ => Cr.okOr fun _ =>
    Cr.seq (cr_memorize _) (by simp) fun _ => ?_)
  simp only [List.length_cons, List.length_nil]
  cr

theorem cr_backref : Cr 0 demangle_back_ref_name (fun _ => 2) := by
  unfold demangle_back_ref_name
  refine Cr.tryIf (fun c => ?_) ?_
  · cr
  · exact Cr.err

theorem cr_from_id (h : Handle) : Cr 2 (synthesize_from_id h) (fun _ => 0) := by
  unfold synthesize_from_id; cr

theorem cr_from_name (t : Text) : Cr 3 (synthesize_from_name t) (fun _ => 0) := by
  unfold synthesize_from_name
  refine Cr.intern (by omega) fun _ => Cr.tail (cr_from_id _) (by omega) fun _ => by omega

theorem cr_md5 : Cr 0 demangle_md5_name (fun _ => 0) := by
  unfold demangle_md5_name
  refine Cr.query fun _ => Cr.expectStr (Cr.query fun _ => Cr.okOr fun _ => Cr.seq (cr_bytes _) (by omega) fun _ =>
    Cr.okOr fun _ => ?_)
  have h : ∀ e, 4 ≤ e → ∀ (n : Nat) (c : Text), Cr e (match splitAtBytes n c with
      | none => SM.crash .panic
      | some (md5, _) => do
        let name ← synthesize_from_name md5
        intern (.Md5Symbol name) : P Handle) (fun _ => 0) := by
    intro e he n c
    split
    · exact Cr.crash
    · exact Cr.seq (cr_from_name _) (by omega) fun _ => by cr
  refine Cr.tryStr (h _ (by simp) _ _) (h _ (by simp) _ _)

theorem cr_fcode_group (g : CodeGroup) : Cr 2 (demangle_function_identifier_code_group g) (fun _ => 2) := by
  unfold demangle_function_identifier_code_group
  refine Cr.expectAny fun c => Cr.ite (by cr) (Cr.ite (by cr) (Cr.ite ?_ ?_))
  · exact Cr.seq (cr_simple_string false) (by omega) fun _ => by cr
  · refine Cr.lift ?_ fun _ => by cr
    unfold translate_intrinsic_function_code
    split
    · simp only; split <;> simp
    · simp

theorem cr_fcode : Cr 0 demangle_function_identifier_code (fun _ => 2) := by
  unfold demangle_function_identifier_code
  cr
  all_goals exact Cr.tail (cr_fcode_group _) (by simp) fun _ => by simp

theorem cr_table0 {α : Type} (l : List (Text × α)) (n : Nat) (hn : ∀ x ∈ l, n ≤ 2 * x.1.length) :
    Cr 0 (tryTable l) (fun o => if o.isSome then n else 0) := by
  induction l with
  | nil => exact Cr.pure (by simp)
  | cons x xs ih =>
    obtain ⟨t, a⟩ := x
    unfold tryTable
    refine Cr.tryStr (Cr.iteT (Cr.pure ?_)) (Cr.iteF (ih fun y hy => hn y (by simp [hy])))
    have := hn (t, a) (by simp)
    simpa using this

theorem cr_table {α β : Type} {l : List (Text × α)} (n : Nat) {e : Nat} {f : Option α → P β} {d : β → Nat}
    (hn : ∀ x ∈ l, n ≤ 2 * x.1.length) (h1 : ∀ a, Cr (e + n) (f (some a)) d) (h0 : Cr e (f none) d) :
    Cr e (tryTable l >>= f) d :=
  Cr.seq (cr_table0 l n hn) (by omega) fun o => by
    cases o with
    | none => exact Cr.tail h0 (by simp) fun _ => by simp
    | some a => exact Cr.tail (h1 a) (by simp) fun _ => by simp

/-! ### String literals -/

theorem cr_char : Cr 0 demangle_char_literal (fun _ => 0) := by
  unfold demangle_char_literal
  have hu : ∀ (o : Option Nat), Cr 4 (demangle_char_literal.unchecked o) (fun _ => 0) := by
    intro o
    unfold demangle_char_literal.unchecked
    split <;> cr
  have h2 := Cr.try2
  cr
  · exact Cr.seq h2 (by omega) fun _ => by cr
  all_goals exact Cr.tail (hu _) (by omega) fun _ => by omega

theorem cr_wchar : Cr 0 demangle_wchar_literal (fun _ => 0) := by
  unfold demangle_wchar_literal
  exact Cr.seq cr_char (by omega) fun _ => Cr.seq cr_char (by omega) fun _ => by cr

theorem nm_escaped {c : Nat} : NM (output_escaped_char c) := by
  unfold output_escaped_char
  split
  · exact nm_write
  · exact NM.crash

theorem cr_runW {m : W Unit} {t : Text} (hm : NM m) : Cr 0 (runW m t) (fun _ => 0) := by
  have := Cr.runW (e := 0) (d2 := fun _ => 0) (f := fun a => (pure a : P Text)) (t := t) hm fun a => Cr.pure (by omega)
  intro k s hk hs
  have := this k s hk hs
  rw [run_bind_eq] at this
  cases hx : exec (runW m t) s with
  | error y => rw [hx] at this; exact this
  | ok y => rw [hx] at this; exact this

theorem cr_wide (b : Bool) (x : Nat × Text) (e : Nat) : Cr e (wideBody b x) (fun _ => e) := by
  unfold wideBody
  have h : ∀ b' w, Cr 0 (if (x.1 != 2 || b') = true then runW (output_escaped_char w) x.2 else pure x.2) (fun _ => 0) :=
    fun b' w => Cr.ite (cr_runW nm_escaped) (by cr)
  cr
  refine Cr.seq cr_wchar (by omega) fun w => Cr.ite ?_ ?_
  · exact Cr.seq (cr_runW nm_escaped) (by omega) fun _ => by cr
  · exact Cr.seq (e1 := 0) (d := fun _ => 0) (Cr.pure (by omega)) (by omega) fun _ => by cr

theorem cr_narrow (x : List Nat) (e : Nat) : Cr e (narrowBody x) (fun _ => e) := by
  unfold narrowBody
  cr
  exact Cr.seq cr_char (by omega) fun w => by cr

theorem cr_decode {bytes n m b} (x : Nat × Text) (e : Nat) : Cr e (decodeBody bytes n m b x) (fun _ => e) := by
  unfold decodeBody
  refine Cr.okOr fun _ => Cr.ite ?_ ?_
  · exact Cr.seq (cr_runW nm_escaped) (by omega) fun _ => by cr
  · exact Cr.seq (e1 := 0) (d := fun _ => 0) (Cr.pure (by omega)) (by omega) fun _ => by cr

theorem inl_inr {β γ : Type} {e : Nat} {m : P (β ⊕ γ)} (h : Cr e m (fun _ => e)) :
    Cr e m (loopCr e fun _ => e) :=
  Cr.tail h (Nat.le_refl _) fun x => by cases x <;> simp [loopCr]

theorem cr_string : Cr 0 demangle_string_literal (fun _ => 0) := by
  unfold demangle_string_literal
  have hk : ∀ b : Bool, Cr 6 (do
      let (string_byte_len, is_negative) ← demangle_number
      if is_negative || string_byte_len < (if b then 2 else 1) then SM.err .InvalidStringLiteral
      else do
        let crc_end_pos ← query fun m => m.find_char '@'
        let crc_end_pos ← SM.okOr .InvalidStringLiteral crc_end_pos
        let crc ← tryBytes (crc_end_pos + 1)
        let _ ← SM.okOr .InvalidStringLiteral crc
        let e ← query MStr.is_empty
        if e then SM.err .InvalidStringLiteral
        else if b then do
          let is_truncated := decide (string_byte_len > 64)
          let t ← loopInput (wideBody is_truncated) (string_byte_len, [])
          intern (.EncodedStringLiteral none t is_truncated .Wchar)
        else do
          let bytes ← loopInput narrowBody []
          let is_truncated := decide (string_byte_len > bytes.length)
          let char_bytes ← SM.okOr .InvalidStringLiteral (guess_char_byte_size bytes string_byte_len)
          let char ← SM.okOr .InvalidStringLiteral (charKindOf char_bytes)
          let num_chars := bytes.length / char_bytes
          let (_, t) ← SM.forN num_chars (decodeBody bytes char_bytes num_chars is_truncated) (0, [])
          intern (.EncodedStringLiteral none t is_truncated char) : P Handle) (fun _ => 0) := by
    intro b
    refine Cr.seq cr_number (by omega) fun x => ?_
    refine Cr.ite Cr.err (Cr.query fun _ => Cr.okOr fun _ => Cr.seq (cr_bytes _) (by omega) fun _ => Cr.okOr fun _ =>
      Cr.query fun _ => Cr.ite Cr.err (Cr.ite ?_ ?_))
    · exact Cr.seq (e1 := 6) (d := fun _ => 6) (Cr.loop (fun b => inl_inr (cr_wide _ b 6)) _) (by omega) fun _ => by cr
    · refine Cr.seq (e1 := 6) (d := fun _ => 6) (Cr.loop (fun b => inl_inr (cr_narrow b 6)) _) (by omega) fun _ =>
        Cr.okOr fun _ => Cr.okOr fun _ => Cr.seq (e1 := 6) (d := fun _ => 6) (Cr.forN (fun b => cr_decode b 6) _) (by omega)
          fun _ => ?_
      exact Cr.intern' (by omega) fun _ => by omega
  refine Cr.expectStr (Cr.expectAny fun c => Cr.ite ?_ (Cr.ite ?_ ?_))
  · exact Cr.seq (e1 := 6) (d := fun _ => 6) (Cr.pure (by omega)) (by simp) fun b => Cr.tail (hk b) (by simp) fun _ => by simp
  · exact Cr.seq (e1 := 6) (d := fun _ => 6) (Cr.pure (by omega)) (by simp) fun b => Cr.tail (hk b) (by simp) fun _ => by simp
  · exact Cr.seq (e1 := 6) (d := fun _ => 6) Cr.err (by simp) fun b => Cr.tail (hk b) (by simp) fun _ => by simp

/-! ### Recursive parsers -/

/-- The recursive functions consume at least what they create. -/
structure CrFns (r : Fns) : Prop where
  type : ∀ q, Cr 0 (r.type q) (fun _ => 1)
  tmpl : ∀ n, Cr 0 (r.tmpl n) (fun _ => 2)
  parse : Cr 0 r.parse (fun _ => 0)

theorem scope_pattern_ne (m : MStr) : MStr.starts_with_local_scope_pattern m ≠ .error (.err .MaliciousInput) := by
  have h1 : ∀ f, NM (MStr.try_consume_char_if f) := by
    intro f
    unfold MStr.try_consume_char_if MStr.advance
    refine NM.bind NM.get fun m => ?_
    split
    · exact NM.pure _
    · refine NM.ite (NM.bind ?_ fun _ => NM.pure _) (NM.pure _)
      intro s; unfold exec; show (if _ then _ else _) ≠ _; split <;> simp
  have h2 : ∀ (m : MStr) n, m.slice_to n ≠ .error (.err .MaliciousInput) := by
    intro m n; unfold MStr.slice_to; split <;> simp
  unfold MStr.starts_with_local_scope_pattern
  split
  · next e he => intro h; cases h; exact h1 _ _ he
  · simp
  · split
    · simp
    · split
      · next e he => intro h; cases h; exact h2 _ _ he
      · split
        · simp
        · split
          · split <;> simp
          · split
            · split
              · next e he => intro h; cases h; exact h2 _ _ he
              · split
                · next e he => intro h; cases h; exact h1 _ _ he
                · simp
                · simp
            · simp

theorem member_pointer_ne (m : MStr) : m.is_member_pointer ≠ .error (.err .MaliciousInput) := by
  have h1 : ∀ f, NM (MStr.try_consume_char_if f) := by
    intro f
    unfold MStr.try_consume_char_if MStr.advance
    refine NM.bind NM.get fun m => ?_
    split
    · exact NM.pure _
    · refine NM.ite (NM.bind ?_ fun _ => NM.pure _) (NM.pure _)
      intro s; unfold exec; show (if _ then _ else _) ≠ _; split <;> simp
  have h2 : NM MStr.member_pointer_probe := by
    unfold MStr.member_pointer_probe
    refine NM.bind (h1 _) fun o => ?_
    cases o with
    | none => exact NM.pure _
    | some c =>
      refine NM.ite (NM.pure _) (NM.ite (NM.bind (h1 _) fun o => ?_) (NM.pure _))
      cases o with
      | some d => exact NM.ite (NM.pure _) (NM.ite (NM.pure _) (NM.pure _))
      | none =>
        refine NM.bind (h1 _) fun _ => NM.bind (h1 _) fun _ => NM.bind (h1 _) fun _ => NM.bind NM.get fun m => ?_
        split
        · exact NM.pure _
        · exact NM.ite (NM.pure _) (NM.ite (NM.pure _) (NM.pure _))
  have := h2 m
  unfold MStr.is_member_pointer
  unfold exec at this
  cases hx : MStr.member_pointer_probe m with
  | ok y => simp [Except.map]
  | error y => rw [hx] at this; simpa [Except.map] using this

theorem unqualified_ne (c : Cache) (h : Handle) : get_unqualified_identifier c h ≠ .error (.err .MaliciousInput) := by
  unfold get_unqualified_identifier
  split
  · next e he => intro h; cases h; exact resolve_ne he
  · split
    · next e he => intro h; cases h; exact resolve_ne he
    · split
      · exact downcast_ne
      · simp
    · simp
  · simp

section
variable {rend : Renderer} {r : Fns} (hrend : ∀ c k h, NM (rend c k h)) (hr : CrFns r)

include hrend in
theorem cr_memorize_identifier (h : Handle) : Cr 1 (memorize_identifier rend h) (fun _ => 0) := by
  unfold memorize_identifier
  exact Cr.get fun _ => Cr.runW (hrend _ _ _) fun t => cr_memorize t

include hr

theorem cr_utn (b : Bool) : Cr 0 (demangle_unqualified_type_name r b) (fun _ => 2) := by
  unfold demangle_unqualified_type_name
  exact Cr.firstIs fun _ => Cr.ite cr_backref (Cr.query fun _ => Cr.ite (hr.tmpl _) (cr_simple_name b))

theorem cr_usn (n : NBB) : Cr 0 (demangle_unqualified_symbol_name r n) (fun _ => 2) := by
  unfold demangle_unqualified_symbol_name
  exact Cr.firstIs fun _ => Cr.ite cr_backref (Cr.query fun _ => Cr.ite (hr.tmpl _)
    (Cr.query fun _ => Cr.ite cr_fcode (cr_simple_name _)))

include hrend

theorem cr_local : Cr 0 (demangle_locally_scoped_name_piece rend r) (fun _ => 2) := by
  unfold demangle_locally_scoped_name_piece
  refine Cr.expectChar (Cr.seq cr_number (by omega) fun _ => Cr.ite Cr.err (Cr.expectChar (Cr.seq hr.parse (by omega) fun _ =>
    Cr.get fun _ => Cr.runW (NM.bind nm_write fun _ => NM.bind (hrend _ _ _) fun _ => nm_write) fun _ => by cr)))

theorem cr_piece : Cr 0 (demangle_name_scope_piece rend r) (fun _ => 2) := by
  unfold demangle_name_scope_piece
  exact Cr.firstIs fun _ => Cr.ite cr_backref (Cr.query fun _ => Cr.ite (hr.tmpl _)
    (Cr.query fun _ => Cr.ite cr_anon (Cr.queryE scope_pattern_ne fun _ => Cr.ite (cr_local hrend hr) (cr_simple_name _))))

theorem cr_chain (h : Handle) : Cr 0 (demangle_name_scope_chain rend r h) (fun _ => 0) := by
  unfold demangle_name_scope_chain
  refine Cr.loop (fun b => ?_) _
  unfold scopeChainBody
  cr
  · exact Cr.pure (by simp [loopCr])
  · exact Cr.seq (cr_piece hrend hr) (by omega) fun _ => Cr.pure (by simp [loopCr])

theorem cr_fqtn : Cr 0 (demangle_fully_qualified_type_name rend r) (fun _ => 2) := by
  unfold demangle_fully_qualified_type_name
  exact Cr.seq (cr_utn hr _) (by omega) fun _ => Cr.tail (cr_chain hrend hr _) (by omega) fun _ => by omega

omit hrend hr in
theorem cr_class_of {e : Nat} (h : Handle) : Cr e (class_of_structor h) (fun _ => e) := by
  unfold class_of_structor
  refine Cr.resolveP fun n => ?_
  cases n <;> try exact Cr.crash
  refine Cr.resolveP fun n => ?_
  cases n <;> try exact Cr.crash
  refine Cr.ite Cr.err ?_
  split
  · exact Cr.downcastP fun _ => Cr.okOr' fun _ => Nat.le_refl _
  · exact Cr.err

theorem cr_fqsn : Cr 0 (demangle_fully_qualified_symbol_name rend r) (fun _ => 2) := by
  unfold demangle_fully_qualified_symbol_name
  refine Cr.seq (cr_usn hr _) (by omega) fun _ => Cr.seq (cr_chain hrend hr _) (by omega) fun _ =>
    Cr.downcastP fun o => ?_
  cases o with
  | none => exact Cr.pure (by omega)
  | some x => exact Cr.seq (cr_class_of (e := 2) _) (by omega) fun _ => by cr

theorem cr_class_type : Cr 0 (demangle_class_type rend r) (fun _ => 3) := by
  unfold demangle_class_type
  refine Cr.expectAny fun c => ?_
  have hk : ∀ (t : TagKind) e, 2 ≤ e → Cr e (do
      let name ← demangle_fully_qualified_type_name rend r
      intern (.TagType Qualifiers.Q_None name t) : P Handle) (fun _ => 3) :=
    fun t e he => Cr.seq (cr_fqtn hrend hr) (by omega) fun _ => by cr
  have hp : ∀ (t : TagKind) e, 2 ≤ e → Cr e (do
      let tag ← (pure t : P TagKind)
      let name ← demangle_fully_qualified_type_name rend r
      intern (.TagType Qualifiers.Q_None name tag) : P Handle) (fun _ => 3) := fun t e he => hk t e he
  have he : ∀ e x, x ≠ Error.MaliciousInput → Cr e (do
      let tag ← (SM.err x : P TagKind)
      let name ← demangle_fully_qualified_type_name rend r
      intern (.TagType Qualifiers.Q_None name tag) : P Handle) (fun _ => 3) := fun e x hx => by
    intro k s hk hs; simpa [run, Post] using hx
  split
  · exact hp _ _ (by omega)
  · exact hp _ _ (by omega)
  · exact hp _ _ (by omega)
  · refine Cr.tryChar (Cr.iteT ?_) (Cr.iteF ?_)
    · exact hp _ _ (by omega)
    · exact he _ _ (by simp)
  · exact he _ _ (by simp)

omit hrend
theorem cr_custom : Cr 0 (demangle_custom_type r) (fun _ => 3) := by
  unfold demangle_custom_type
  refine Cr.expectChar (Cr.seq (cr_utn hr _) (by omega) fun _ => ?_)
  cr

theorem cr_param_body (l : List Handle) (e : Nat) : Cr e (paramListBody r l) (fun _ => e) := by
  unfold paramListBody
  refine Cr.firstIs fun _ => Cr.ite (by cr) (Cr.query fun _ => Cr.ite Cr.err (Cr.tryIf (fun c => ?_) ?_))
  · refine Cr.get fun _ => Cr.okOr fun _ => by cr
  · refine Cr.query fun _ => Cr.seq (hr.type _) (by omega) fun _ => Cr.query fun _ => Cr.ite Cr.crash (Cr.ite Cr.err ?_)
    refine Cr.seq (e1 := 0) (d := fun _ => 0) (Cr.whenB (Cr.modify' (fun s => ?_) (by omega)) (by omega)) (by omega) fun _ => by cr
    split <;> simp [pot]

theorem cr_params : Cr 1 (demangle_function_parameter_list r) (fun _ => 2) := by
  unfold demangle_function_parameter_list
  refine Cr.tryChar (by cr) (Cr.iteF ?_)
  refine Cr.seq (e1 := 1) (d := fun _ => 1) (Cr.loop (fun b => inl_inr (cr_param_body hr b 1)) _) (by omega) fun _ => ?_
  cr

omit hr in
theorem cr_this (b : Bool) : Cr 0 (function_this_quals b) (fun _ => 0) := by
  unfold function_this_quals
  exact Cr.ite (Cr.seq cr_ext (by omega) fun _ => Cr.seq cr_ref (by omega) fun _ => Cr.seq cr_quals (by omega) fun _ => by cr)
    (by cr)

theorem cr_function_type (b : Bool) : Cr 0 (demangle_function_type r b) (fun _ => 5) := by
  unfold demangle_function_type
  refine Cr.seq (cr_this b) (by omega) fun x => Cr.seq cr_cc (by omega) fun _ => ?_
  have hk : ∀ (x : Qualifiers × Option FunctionRefQualifier) y (return_type : Option Handle), Cr 3 (do
      let (params, is_variadic) ← demangle_function_parameter_list r
      let is_noexcept ← demangle_throw_specification
      intern (.FunctionSignature
        { quals := x.1, call_convention := y, ref_qualifier := x.2, return_type := return_type,
          is_variadic := is_variadic, params := params, is_noexcept := is_noexcept }) : P Handle) (fun _ => 5) := by
    intro x y rt
    exact Cr.seq (cr_params hr) (by omega) fun _ => Cr.seq cr_throw (by omega) fun _ => by cr
  refine Cr.tryChar (Cr.iteT ?_) (Cr.iteF ?_)
  · exact Cr.seq (e1 := 0) (d := fun _ => 0) (Cr.pure (by omega)) (by omega) fun rt =>
      Cr.tail (hk x _ rt) (by omega) fun _ => by omega
  · refine Cr.seq (hr.type _) (by omega) fun t => ?_
    exact Cr.seq (e1 := 0) (d := fun _ => 0) (Cr.pure (by omega)) (by omega) fun rt =>
      Cr.tail (hk x _ rt) (by omega) fun _ => by omega

theorem cr_pointer : Cr 0 (demangle_pointer_type r) (fun _ => 2) := by
  unfold demangle_pointer_type
  refine Cr.seq cr_cv (by omega) fun _ => Cr.tryChar (Cr.iteT ?_) (Cr.iteF ?_)
  · exact Cr.seq (cr_function_type hr _) (by omega) fun _ => by cr
  · exact Cr.seq cr_ext (by omega) fun _ => Cr.seq (hr.type _) (by omega) fun _ => by cr

include hrend in
theorem cr_member_pointer : Cr 0 (demangle_member_pointer_type rend r) (fun _ => 2) := by
  unfold demangle_member_pointer_type
  refine Cr.seq cr_cv (by omega) fun _ => Cr.ite Cr.err (Cr.seq cr_ext (by omega) fun _ =>
    Cr.tryChar (Cr.iteT ?_) (Cr.iteF ?_))
  · exact Cr.seq (cr_fqtn hrend hr) (by omega) fun _ => Cr.seq (cr_function_type hr _) (by omega) fun _ => by cr
  · exact Cr.seq cr_quals (by omega) fun _ => Cr.ite Cr.err (Cr.seq (cr_fqtn hrend hr) (by omega) fun _ =>
      Cr.seq (hr.type _) (by omega) fun _ => by cr)

theorem cr_array : Cr 0 (demangle_array_type r) (fun _ => 1) := by
  unfold demangle_array_type
  have hd : ∀ l, Cr 4 (arrayDim l) (fun _ => 4) := by
    intro l
    unfold arrayDim
    exact Cr.seq cr_number (by omega) fun _ => by cr
  refine Cr.expectChar (Cr.seq cr_number (by omega) fun _ => Cr.ite Cr.err (Cr.seq (Cr.forN hd _) (by omega) fun _ =>
    Cr.intern (by omega) fun _ => ?_))
  have hk : ∀ (q : Qualifiers) (d : Handle) e, 1 ≤ e → Cr e (do
      let element_type ← r.type .Drop
      intern (.ArrayType q d element_type) : P Handle) (fun _ => 1) := by
    intro q d e he
    exact Cr.seq (hr.type _) (by omega) fun _ => by cr
  refine Cr.tryStr (Cr.iteT ?_) (Cr.iteF ?_)
  · refine Cr.seq cr_quals (by omega) fun x => Cr.ite ?_ ?_
    · exact Cr.seq (e1 := 0) (d := fun _ => 0) Cr.err (by omega) fun q => hk q _ _ (by omega)
    · exact Cr.seq (e1 := 0) (d := fun _ => 0) (Cr.pure (by omega)) (by omega) fun q => hk q _ _ (by omega)
  · exact Cr.seq (e1 := 0) (d := fun _ => 0) (Cr.pure (by omega)) (by omega) fun q => hk q _ _ (by omega)

omit hr in
theorem cr_type_quals (q : QMM) : Cr 0 (type_quals q) (fun _ => 0) := by
  unfold type_quals
  cases q
  · cr
  · exact Cr.seq cr_quals (by omega) fun _ => by cr
  · exact Cr.tryChar (Cr.iteT (Cr.seq cr_quals (by omega) fun _ => by cr)) (Cr.iteF (by cr))

include hrend in
theorem cr_type_body : Cr 0 (demangle_type_body rend r) (fun _ => 1) := by
  unfold demangle_type_body
  refine Cr.query fun m => Cr.ite ?_ (Cr.ite ?_ (Cr.ite ?_ (Cr.ite ?_ (Cr.ite ?_ ?_))))
  · exact Cr.tail (cr_class_type hrend hr) (by omega) fun _ => by omega
  · refine Cr.queryE member_pointer_ne fun k => ?_
    rcases k with _ | _ | _
    · exact Cr.err
    · exact Cr.tail (cr_pointer hr) (by omega) fun _ => by omega
    · exact Cr.tail (cr_member_pointer hrend hr) (by omega) fun _ => by omega
  · exact cr_array hr
  · refine Cr.tryStr (Cr.iteT ?_) (Cr.iteF (Cr.tryStr (Cr.iteT ?_) (Cr.iteF Cr.err)))
    · exact Cr.tail (cr_function_type hr _) (by omega) fun _ => by omega
    · exact Cr.tail (cr_function_type hr _) (by omega) fun _ => by omega
  · exact Cr.tail (cr_custom hr) (by omega) fun _ => by omega
  · exact cr_prim

include hrend in
theorem cr_type (q : QMM) : Cr 0 (demangle_type rend r q) (fun _ => 1) := by
  unfold demangle_type
  refine Cr.seq (cr_type_quals q) (by omega) fun _ => Cr.query fun _ => Cr.ite Cr.err
    (Cr.seq (cr_type_body hrend hr) (by omega) fun _ => by cr)

omit hr in
theorem cr_offsets (n e : Nat) : Cr e (offsets n) (fun _ => e) := by
  unfold offsets
  exact Cr.forN (fun l => Cr.seq cr_signed (by omega) fun _ => by cr) _

omit hr in
theorem cr_symbol_identifier (h : Handle) (e : Nat) : Cr e (symbol_identifier h) (fun _ => e) := by
  unfold symbol_identifier
  refine Cr.resolveP fun n => ?_
  split
  · exact Cr.err
  · exact Cr.get fun _ => Cr.lift (unqualified_ne _ _) fun _ => Cr.okOr' fun _ => by omega

include hrend in
theorem cr_template_member_pointer (c : Char) : Cr 2 (template_member_pointer rend r c) (fun _ => 0) := by
  unfold template_member_pointer
  have hk : ∀ (s : Option Handle), Cr 1 (do
      let offs ← match c with
        | '1' => offsets 0
        | 'H' => offsets 1
        | 'I' => offsets 2
        | 'J' => offsets 3
        | _ => SM.err .InvalidTemplateParameterList
      intern (.TemplateParameterReference s offs (some .Pointer) true) : P Handle) (fun _ => 0) := by
    intro s
    split
    · exact Cr.seq (cr_offsets _ 1) (by omega) fun _ => by cr
    · exact Cr.seq (cr_offsets _ 1) (by omega) fun _ => by cr
    · exact Cr.seq (cr_offsets _ 1) (by omega) fun _ => by cr
    · exact Cr.seq (cr_offsets _ 1) (by omega) fun _ => by cr
    · exact Cr.seq (e1 := 1) (d := fun _ => 1) Cr.err (by omega) fun _ => by cr
  refine Cr.query fun _ => Cr.ite ?_ ?_
  · refine Cr.seq (e1 := 2) (d := fun _ => 2) (Cr.tail hr.parse (by omega) fun _ => by omega) (by omega) fun _ =>
      Cr.seq (cr_symbol_identifier _ 2) (by omega) fun _ => Cr.seq (cr_memorize_identifier hrend _) (by omega) fun _ => ?_
    exact Cr.seq (e1 := 0) (d := fun _ => 0) (Cr.pure (by omega)) (by omega) fun s => Cr.tail (hk s) (by omega) fun _ => by omega
  · exact Cr.seq (e1 := 0) (d := fun _ => 0) (Cr.pure (by omega)) (by omega) fun s => Cr.tail (hk s) (by omega) fun _ => by omega

omit hr in
theorem cr_template_data_pointer (c : Char) : Cr 2 (template_data_member_pointer c) (fun _ => 0) := by
  unfold template_data_member_pointer
  split
  · exact Cr.seq (e := 2) (cr_offsets _ 1) (by omega) fun _ => by cr
  · exact Cr.seq (e := 2) (cr_offsets _ 1) (by omega) fun _ => by cr
  · exact Cr.seq (e := 2) (e1 := 1) (d := fun _ => 1) Cr.err (by omega) fun _ => by cr

omit hr in
theorem cr_spec {β : Type} {auto : Bool} {l : List Char} {e : Nat} {f : Option Char → P β} {d : β → Nat}
    (h1 : ∀ a, Cr (e + 2) (f (some a)) d) (h0 : Cr e (f none) d) : Cr e (trySpecifier auto l >>= f) d := by
  unfold trySpecifier
  refine cr_table 2 (fun x hx => ?_) h1 h0
  simp only [List.mem_map] at hx
  obtain ⟨c, _, rfl⟩ := hx
  cases auto <;> simp

include hrend in
theorem cr_template_argument (auto : Bool) : Cr 0 (template_argument rend r auto) (fun _ => 0) := by
  unfold template_argument
  refine Cr.tryStr (Cr.iteT ?_) (Cr.iteF (Cr.tryStr (Cr.iteT ?_) (Cr.iteF (Cr.tryStr (Cr.iteT ?_) (Cr.iteF
    (cr_spec (fun c => ?_) (Cr.query fun _ => Cr.ite ?_ (cr_spec (fun c => ?_) (Cr.tryStr (Cr.iteT ?_) (Cr.iteF ?_))))))))))
  · exact Cr.tail (cr_fqtn hrend hr) (by omega) fun _ => by omega
  · exact Cr.tail (hr.type _) (by omega) fun _ => by omega
  · exact Cr.tail (hr.type _) (by omega) fun _ => by omega
  · exact cr_template_member_pointer hrend hr c
  · refine Cr.expectStr (Cr.seq hr.parse (by omega) fun _ => ?_)
    simp only [List.length_cons, List.length_nil]
    cr
  · exact cr_template_data_pointer c
  · exact Cr.seq cr_number (by omega) fun _ => by cr
  · exact Cr.tail (hr.type _) (by omega) fun _ => by omega

include hrend in
theorem cr_template_list : Cr 0 (demangle_template_parameter_list rend r) (fun _ => 1) := by
  unfold demangle_template_parameter_list
  refine Cr.seq (e1 := 0) (d := fun _ => 2) (Cr.loop (fun l => ?_) _) (by omega) fun _ => by cr
  unfold templateListBody
  refine Cr.tryChar (Cr.iteT (Cr.pure (by simp [loopCr]))) (Cr.iteF (cr_table 0 (by simp) (fun _ => ?_) ?_))
  · exact Cr.pure (by simp [loopCr])
  · refine Cr.iteF (Cr.query fun _ => Cr.ite Cr.err ?_)
    have ht : ∀ b, Cr 0 (whenB b (do let _ ← r.type .Drop)) (fun _ => 0) := fun b =>
      Cr.whenB (Cr.seq (hr.type _) (by omega) fun _ => Cr.pure (by omega)) (by omega)
    have hk : ∀ b e, Cr e (do
        let node ← template_argument rend r b
        pure (.inl (l ++ [node])) : P (List Handle ⊕ List Handle)) (loopCr 0 fun _ => 2) := fun b e =>
      Cr.seq (cr_template_argument hrend hr b) (by omega) fun _ => Cr.pure (by simp [loopCr])
    refine Cr.tryStr ?_ ?_
    · exact Cr.seq (ht _) (by omega) fun _ => hk _ _
    · exact Cr.seq (ht _) (by omega) fun _ => hk _ _

include hrend in
theorem cr_tmpl (n : NBB) : Cr 0 (demangle_template_instantiation_name rend r n) (fun _ => 2) := by
  unfold demangle_template_instantiation_name
  refine Cr.expectStr (Cr.get fun o => Cr.modify (fun s => by simp [pot]) (Cr.seq (cr_usn hr _) (by omega) fun _ =>
    Cr.seq (cr_template_list hrend hr) (by omega) fun _ => Cr.modifyNode (Cr.modify (fun s => by simp [pot]) (Cr.ite
    (Cr.resolveP fun _ => Cr.ite Cr.err (Cr.seq (cr_memorize_identifier hrend _) (by simp) fun _ => ?_)) ?_))))
  · exact Cr.pure (by simp)
  · exact Cr.pure (by simp)

/-! ### Symbols -/

include hrend in
theorem cr_variable (sc : StorageClass) : Cr 0 (demangle_variable_encoding rend r sc) (fun _ => 0) := by
  unfold demangle_variable_encoding
  refine Cr.seq (hr.type _) (by omega) fun t => Cr.seq (e1 := 1) (d := fun _ => 1) ?_ (by omega) fun _ => by cr
  unfold variable_quals
  refine Cr.downcastP fun o => ?_
  cases o with
  | none => exact Cr.seq cr_quals (by omega) fun _ => by cr
  | some p =>
    refine Cr.seq cr_ext (by omega) fun _ => Cr.resolveP fun n => ?_
    cases n <;> try exact Cr.crash
    refine Cr.modifyNode (Cr.seq cr_quals (by omega) fun _ => ?_)
    exact Cr.seq (e1 := 1) (d := fun _ => 1) (Cr.whenB (Cr.seq (cr_fqtn hrend hr) (by omega) fun _ => Cr.pure (by omega))
      (by omega)) (by omega) fun _ => by cr

omit hr in
theorem cr_thunk (fc : FuncClass) (e : Nat) : Cr e (thunk_adjust fc) (fun _ => e) := by
  unfold thunk_adjust
  refine Cr.ite ?_ (Cr.ite (Cr.ite ?_ ?_) (by cr))
  · exact Cr.seq cr_signed (by omega) fun _ => by cr
  · exact Cr.seq cr_signed (by omega) fun _ => Cr.seq cr_signed (by omega) fun _ => Cr.seq cr_signed (by omega) fun _ =>
      Cr.seq cr_signed (by omega) fun _ => by cr
  · exact Cr.seq cr_signed (by omega) fun _ => Cr.seq cr_signed (by omega) fun _ => by cr

theorem cr_function_encoding : Cr 1 (demangle_function_encoding r) (fun _ => 0) := by
  unfold demangle_function_encoding
  have hk : ∀ (b : Bool), Cr 1 (do
      let e ← query MStr.is_empty
      if e then SM.err .InvalidFunctionEncoding
      else do
        let fc ← demangle_function_class
        let fc := fc ||| (if b then FuncClass.FC_ExternC else FuncClass.FC_None)
        let ttn ← thunk_adjust fc
        let fsn ← if fc.no_parameter_list then intern (.FunctionSignature {})
          else demangle_function_type r (!fc.intersects (FuncClass.FC_Global ||| FuncClass.FC_Static))
        let signature ← match ttn with
          | some adjust => do
            let f ← resolveP .FunctionSignature fsn
            intern (.ThunkSignature f.asFuncSig adjust)
          | none => pure fsn
        modifyNode .ISignatureNode signature (Node.set_function_class fc)
        intern (.FunctionSymbol none signature) : P Handle) (fun _ => 0) := by
    intro b
    refine Cr.query fun _ => Cr.ite Cr.err (Cr.seq cr_class (by omega) fun fc => Cr.seq (cr_thunk _ 3) (by omega) fun ttn => ?_)
    have hk2 : ∀ fsn fc, Cr 2 (do
        let signature ← match ttn with
          | some adjust => do
            let f ← resolveP .FunctionSignature fsn
            intern (.ThunkSignature f.asFuncSig adjust)
          | none => pure fsn
        modifyNode .ISignatureNode signature (Node.set_function_class fc)
        intern (.FunctionSymbol none signature) : P Handle) (fun _ => 0) := by
      intro fsn fc
      cases ttn with
      | none => exact Cr.seq (e1 := 0) (d := fun _ => 0) (Cr.pure (by omega)) (by omega) fun _ => by cr
      | some a => exact Cr.resolveP fun _ => by cr
    refine Cr.ite ?_ ?_
    · exact Cr.intern (by omega) fun _ => Cr.tail (hk2 _ _) (by omega) fun _ => by omega
    · exact Cr.seq (cr_function_type hr _) (by omega) fun _ => Cr.tail (hk2 _ _) (by omega) fun _ => by omega
  refine Cr.tryStr (Cr.tail (hk true) (by omega) fun _ => by omega) (hk false)

omit hr in
theorem cr_function_return_type (h : Handle) (e : Nat) : Cr e (function_return_type h) (fun _ => e) := by
  unfold function_return_type
  refine Cr.resolveP fun n => ?_
  cases n <;> try exact Cr.crash
  exact Cr.resolveP fun _ => by cr

include hrend in
theorem cr_encoded (h : Handle) : Cr 1 (demangle_encoded_symbol rend r h) (fun _ => 0) := by
  unfold demangle_encoded_symbol
  refine Cr.query fun _ => Cr.okOr fun _ => Cr.ite ?_ ?_
  · exact Cr.seq cr_storage (by omega) fun _ => Cr.tail (cr_variable hrend hr _) (by omega) fun _ => by omega
  · exact Cr.seq (cr_function_encoding hr) (by omega) fun _ => Cr.seq (cr_function_return_type _ 0) (by omega) fun _ =>
      Cr.get fun _ => Cr.lift (unqualified_ne _ _) fun _ => Cr.okOr fun _ => by cr

include hrend in
theorem cr_declarator : Cr 0 (demangle_declarator rend r) (fun _ => 0) := by
  unfold demangle_declarator
  exact Cr.seq (cr_fqsn hrend hr) (by omega) fun _ => Cr.seq (cr_encoded hrend hr _) (by omega) fun _ => Cr.modifyNode
    (Cr.get fun _ => Cr.lift (unqualified_ne _ _) fun _ => Cr.okOr fun _ => Cr.resolveP fun _ => by cr)

theorem cr_typeinfo : Cr 0 (demangle_typeinfo_name r) (fun _ => 0) := by
  unfold demangle_typeinfo_name
  exact Cr.expectChar (Cr.seq (hr.type _) (by omega) fun _ => by cr)

include hrend in
theorem cr_special_table (k : SpecialIntrinsicKind) : Cr 2 (demangle_special_table_symbol_node rend r k) (fun _ => 0) := by
  unfold demangle_special_table_symbol_node
  have hk : ∀ name q t, Cr 1 (intern (.SpecialTableSymbol name t q)) (fun _ => 0) := fun _ _ _ => by cr
  refine Cr.okOr fun _ => Cr.intern (by omega) fun _ => Cr.seq (cr_chain hrend hr _) (by omega) fun _ => ?_
  refine Cr.tryIf (fun _ => ?_) ?_
  · refine Cr.okOr fun _ => Cr.seq cr_quals (by omega) fun _ => Cr.tryChar (Cr.iteT ?_) (Cr.iteF ?_)
    · exact Cr.seq (e1 := 0) (d := fun _ => 0) (Cr.pure (by omega)) (by omega) fun _ => Cr.tail (hk _ _ _) (by omega) fun _ => by omega
    · refine Cr.seq (cr_fqtn hrend hr) (by omega) fun _ => ?_
      exact Cr.seq (e1 := 0) (d := fun _ => 0) (Cr.pure (by omega)) (by omega) fun _ => Cr.tail (hk _ _ _) (by omega) fun _ => by omega
  · exact Cr.err

include hrend in
theorem cr_guard (b : Bool) : Cr 2 (demangle_local_static_guard rend r b) (fun _ => 0) := by
  unfold demangle_local_static_guard
  have hk : ∀ (l name : Handle) (v : Bool), Cr 1 (do
      let e ← query MStr.is_empty
      whenB (!e) (do
        let i ← demangle_unsigned
        if i < 2 ^ 32 then modifyNode .LocalStaticGuardIdentifier l (set_scope_index i)
        else SM.err .InvalidLocalStaticGuard)
      intern (.LocalStaticGuardVariable name v) : P Handle) (fun _ => 0) := by
    intro l name v
    refine Cr.query fun e => Cr.seq (e1 := 1) (d := fun _ => 1) (Cr.whenB (Cr.seq cr_unsigned (by omega) fun i => ?_)
      (by omega)) (by omega) fun _ => by cr
    exact Cr.ite (Cr.modifyNode' (by omega)) Cr.err
  refine Cr.intern (by omega) fun l => Cr.seq (cr_chain hrend hr _) (by omega) fun name =>
    Cr.tryStr (Cr.iteT ?_) (Cr.iteF (Cr.tryChar (Cr.iteT ?_) (Cr.iteF ?_)))
  · exact Cr.seq (e1 := 0) (d := fun _ => 0) (Cr.pure (by omega)) (by omega) fun v => Cr.tail (hk _ _ v) (by omega) fun _ => by omega
  · exact Cr.seq (e1 := 0) (d := fun _ => 0) (Cr.pure (by omega)) (by omega) fun v => Cr.tail (hk _ _ v) (by omega) fun _ => by omega
  · exact Cr.seq (e1 := 0) (d := fun _ => 0) Cr.err (by omega) fun v => Cr.tail (hk _ _ v) (by omega) fun _ => by omega

include hrend in
theorem cr_untyped (t : Text) : Cr 2 (demangle_untyped_variable rend r t) (fun _ => 0) := by
  unfold demangle_untyped_variable
  exact Cr.intern (by omega) fun l => Cr.seq (cr_chain hrend hr _) (by omega) fun name => by cr

include hrend in
theorem cr_base_class : Cr 2 (demangle_rtti_base_class_descriptor_node rend r) (fun _ => 0) := by
  unfold demangle_rtti_base_class_descriptor_node
  have hu : Cr 0 demangle_rtti_base_class_descriptor_node.u32 (fun _ => 2) := by
    unfold demangle_rtti_base_class_descriptor_node.u32
    exact Cr.seq cr_unsigned (by omega) fun i => Cr.ite (Cr.pure (by omega)) Cr.err
  refine Cr.seq hu (by omega) fun _ => Cr.seq cr_signed (by omega) fun _ => Cr.ite Cr.err (Cr.seq hu (by omega) fun _ =>
    Cr.seq hu (by omega) fun _ => Cr.intern (by omega) fun _ => Cr.seq (cr_chain hrend hr _) (by omega) fun _ => ?_)
  cr

include hrend in
theorem cr_init_fini (b : Bool) : Cr 4 (demangle_init_fini_stub rend r b) (fun _ => 0) := by
  unfold demangle_init_fini_stub
  have hk : ∀ (known : Bool), Cr 4 (do
      let symbol ← demangle_declarator rend r
      let variable? ← downcastP .ISymbolNode .VariableSymbol symbol
      match variable? with
      | some var => do
        if known then expectStr c!"@@" .InvalidInitFiniStub
        else expectChar '@' .InvalidInitFiniStub
        let fsn ← demangle_function_encoding r
        let dsin ← intern (.DynamicStructorIdentifier none (.Variable var) b)
        let name ← synthesize_from_id dsin
        modifyNode .FunctionSymbol fsn (Node.set_name name)
        pure fsn
      | none => do
        let function? ← downcastP .ISymbolNode .FunctionSymbol symbol
        match function? with
        | some fsn =>
          if known then SM.err .InvalidInitFiniStub
          else do
            let n ← resolveP .FunctionSymbol fsn
            let old ← SM.okOr .InvalidInitFiniStub n.get_name
            let dstn ← intern (.DynamicStructorIdentifier none (.Name old) b)
            let name ← synthesize_from_id dstn
            modifyNode .FunctionSymbol fsn (Node.set_name name)
            pure fsn
        | none => SM.err .InvalidInitFiniStub : P Handle) (fun _ => 0) := by
    intro known
    refine Cr.seq (cr_declarator hrend hr) (by omega) fun _ => Cr.downcastP fun v => ?_
    cases v with
    | some v =>
      have h2 : Cr 4 (do
          let fsn ← demangle_function_encoding r
          let dsin ← intern (.DynamicStructorIdentifier none (.Variable v) b)
          let name ← synthesize_from_id dsin
          modifyNode .FunctionSymbol fsn (Node.set_name name)
          pure fsn : P Handle) (fun _ => 0) := by
        refine Cr.seq (cr_function_encoding hr) (by omega) fun _ => Cr.intern (by omega) fun _ =>
          Cr.seq (cr_from_id _) (by omega) fun _ => by cr
      refine Cr.ite ?_ ?_
      · exact Cr.expectStr (Cr.tail h2 (by omega) fun _ => by omega)
      · exact Cr.expectChar (Cr.tail h2 (by omega) fun _ => by omega)
    | none =>
      refine Cr.downcastP fun v => ?_
      cases v with
      | none => exact Cr.err
      | some v =>
        exact Cr.ite Cr.err (Cr.resolveP fun _ => Cr.okOr fun _ => Cr.intern (by omega) fun _ =>
          Cr.seq (cr_from_id _) (by omega) fun _ => by cr)
  exact Cr.tryChar (Cr.tail (hk true) (by omega) fun _ => by omega) (hk false)

include hrend in
theorem cr_vcall : Cr 1 (demangle_vcall_thunk_node rend r) (fun _ => 0) := by
  unfold demangle_vcall_thunk_node
  refine Cr.intern (by omega) fun _ => Cr.seq (cr_chain hrend hr _) (by omega) fun _ => Cr.expectStr
    (Cr.seq cr_unsigned (by omega) fun _ => Cr.modifyNode (Cr.expectChar (Cr.seq cr_cc (by omega) fun _ => ?_)))
  cr

theorem cr_rtti : Cr 4 (demangle_rtti_type_descriptor r) (fun _ => 0) := by
  unfold demangle_rtti_type_descriptor
  refine Cr.seq (hr.type _) (by omega) fun _ => Cr.expectStr (Cr.query fun _ => Cr.ite ?_ Cr.err)
  exact Cr.seq (cr_from_name _) (by omega) fun _ => by cr

include hrend in
theorem cr_special (k : SpecialIntrinsicKind) : Cr 4 (special_intrinsic rend r k) (fun _ => 0) := by
  unfold special_intrinsic
  cases k
  all_goals first
    | exact Cr.err
    | exact Cr.tail cr_string (by omega) fun _ => by omega
    | exact Cr.tail (cr_special_table hrend hr _) (by omega) fun _ => by omega
    | exact Cr.tail (cr_vcall hrend hr) (by omega) fun _ => by omega
    | exact Cr.tail (cr_guard hrend hr _) (by omega) fun _ => by omega
    | exact Cr.tail (cr_rtti hr) (by omega) fun _ => by omega
    | exact Cr.tail (cr_untyped hrend hr _) (by omega) fun _ => by omega
    | exact Cr.tail (cr_base_class hrend hr) (by omega) fun _ => by omega
    | exact cr_init_fini hrend hr _

include hrend in
theorem cr_parse : Cr 0 (do_parse rend r) (fun _ => 0) := by
  unfold do_parse
  refine Cr.query fun _ => Cr.ite (cr_typeinfo hr) (Cr.query fun _ => Cr.ite cr_md5 (Cr.expectChar
    (cr_table 6 ?_ (fun k => ?_) ?_)))
  · intro x hx
    simp only [specialIntrinsics, List.mem_cons, List.not_mem_nil, or_false] at hx
    rcases hx with rfl | rfl | rfl | rfl | rfl | rfl | rfl | rfl | rfl | rfl | rfl | rfl | rfl | rfl | rfl | rfl <;> simp
  · exact Cr.tail (cr_special hrend hr k) (by omega) fun _ => by omega
  · exact Cr.tail (cr_declarator hrend hr) (by omega) fun _ => by omega

end

theorem cr_fns {rend : Renderer} (hrend : ∀ c k h, NM (rend c k h)) (n : Nat) : CrFns (fns rend n) := by
  induction n with
  | zero => exact ⟨fun _ => Cr.crash, fun _ => Cr.crash, Cr.crash⟩
  | succ n ih => exact ⟨cr_type hrend ih, cr_tmpl hrend ih, cr_parse hrend ih⟩

/-- A name of at most half as many characters as there may be nodes is never rejected for its size. -/
theorem parse_not_malicious (E : Env) (m : Text) (hm : 2 * m.length ≤ NODE_LIMIT) :
    parse (render E) m ≠ .error (.err .MaliciousInput) := by
  intro h
  have := (cr_fns (rend := render E) (fun _ _ _ => nm_render) (m.length + 1)).parse NODE_LIMIT (initSt m) (Nat.le_refl _)
    (by simpa [pot, initSt, MStr.new] using hm)
  unfold exec at this
  unfold parse at h
  rw [h] at this
  exact this rfl

theorem demangle_not_malicious (E : Env) (m : Text) (hm : 2 * m.length ≤ NODE_LIMIT) :
    demangle E m ≠ .ok (.error .MaliciousInput) := by
  intro h
  unfold demangle demangle_into parse_into at h
  have h1 := parse_not_malicious E m hm
  cases hp : parse (render E) m with
  | error y =>
    rw [hp] at h h1
    cases y with
    | crash c => simp at h
    | err e => simp at h; exact h1 (by rw [h])
  | ok y =>
    rw [hp] at h
    simp only at h
    have h2 := nm_render (E := E) (c := y.2.cache) (k := .ISymbolNode) (h := y.1) (clear [])
    unfold exec at h2
    cases hr : render E y.2.cache .ISymbolNode y.1 (clear []) with
    | ok z => rw [hr] at h; simp at h
    | error z =>
      rw [hr] at h h2
      cases z with
      | crash c => simp at h
      | err e => simp at h; exact h2 (by rw [h])

end Undname
