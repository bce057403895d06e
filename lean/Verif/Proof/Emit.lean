/-
  Writers that produce a known text.
-/
import Verif.Proof.Run
import Verif.Proof.Render

namespace Undname

/-- The result of a call whose text is `t`: the text if it is within the limit, an I/O error otherwise. -/
def bounded (t : Text) : Except Error Text :=
  if utf8Len t < 2 ^ 20 then .ok t else .error (.Io .OutOfMemory)

/-- Started on the text `w`, the writer appends exactly `t`, or fails because the limit is reached. -/
def Emit (m : W Unit) (w t : Text) : Prop :=
  utf8Len w < OUTPUT_LIMIT → exec m w =
    if utf8Len (w ++ t) < OUTPUT_LIMIT then .ok ((), w ++ t) else .error (.err (.Io .OutOfMemory))

namespace Emit
variable {m : W Unit} {f : Unit → W Unit} {w t a b : Text}

theorem utf8Len_append (a b : Text) : utf8Len (a ++ b) = utf8Len a + utf8Len b := Out.utf8Len_append a b

theorem write : Emit (write t) w t := by
  intro _
  show (if utf8Len t + utf8Len w < OUTPUT_LIMIT then _ else _) = _
  rw [utf8Len_append, Nat.add_comm]

theorem pure : Emit (Pure.pure ()) w [] := by
  intro h; simp [h, run]

theorem pure' : Emit (SM.pure ()) w [] := pure

theorem bind (h1 : Emit m w a) (h2 : Emit (f ()) (w ++ a) b) : Emit (m >>= f) w (a ++ b) := by
  intro hw
  rw [run_bind_eq, h1 hw]
  have e : utf8Len (w ++ (a ++ b)) = utf8Len (w ++ a) + utf8Len b := by
    rw [← List.append_assoc, utf8Len_append (w ++ a)]
  by_cases h : utf8Len (w ++ a) < OUTPUT_LIMIT
  · rw [if_pos h, andThen_ok]
    show exec (f ()) (w ++ a) = _
    rw [h2 h, ← List.append_assoc]
  · rw [if_neg h, if_neg (by omega)]
    rfl

theorem bind_eq (h1 : Emit m w a) (h2 : Emit (f ()) (w ++ a) b) (h : t = a ++ b) : Emit (m >>= f) w t :=
  h ▸ bind h1 h2

theorem get {f : Text → W Unit} (h : Emit (f w) w t) : Emit (SM.get >>= f) w t := by
  intro hw; rw [run_bind_eq]; exact h hw

theorem lift {α : Type} {x : Except Fail α} {v : α} {f : α → W Unit} (hx : x = .ok v) (h : Emit (f v) w t) :
    Emit (SM.lift x >>= f) w t := by
  subst hx; intro hw; rw [run_bind_eq]; exact h hw

theorem whenB {c : Bool} (h : c = true → Emit m w t) : Emit (whenB c m) w (if c then t else []) := by
  cases c
  · exact pure
  · exact h rfl

theorem space (E : Env) : Emit (output_space_if_necessary E) w
    (match w.getLast? with
     | some x => if isAlphanumeric E.uni x || x == '>' then c!" " else []
     | none => []) := by
  unfold output_space_if_necessary
  refine get ?_
  cases w.getLast? with
  | none => exact pure
  | some x => exact whenB fun _ => write

/-- Emitting is functional. -/
theorem congr (h : Emit m w t) (e : t = a) : Emit m w a := e ▸ h

end Emit

/-- The outcome of a call, from the outcome of parsing and of rendering. -/
theorem demangle_emit {E : Env} {m t : Text} {h : Handle} {s : St} (hp : parse (render E) m = .ok (h, s))
    (hr : Emit (render E s.cache .ISymbolNode h) [] t) : demangle E m = .ok (bounded t) := by
  have hr' : exec (render E s.cache .ISymbolNode h) [] = _ := hr (by decide)
  have hL : OUTPUT_LIMIT = 2 ^ 20 := rfl
  rw [List.nil_append, hL] at hr'
  unfold exec at hr'
  unfold demangle demangle_into parse_into clear bounded
  rw [hp]
  by_cases hb : utf8Len t < 2 ^ 20
  · rw [if_pos hb] at hr' ⊢
    simp only [hr']
  · rw [if_neg hb] at hr' ⊢
    simp only [hr']

theorem demangle_error {E : Env} {m : Text} {e : Error} (hp : parse (render E) m = .error (.err e)) :
    demangle E m = .ok (.error e) := by
  unfold demangle demangle_into parse_into
  rw [hp]

end Undname
