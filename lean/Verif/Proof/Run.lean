/-
  Symbolic execution of the parser on inputs with a known prefix.
-/
import Verif.Proof.Attr
import Verif.Proof.Leaf

namespace Undname

/-- The parser state with remaining input `t`. -/
def mk (t : Text) (c : Cache) (ns ps : List Handle) : St :=
  { str := MStr.new t, cache := c, names := ns, function_params := ps }

theorem initSt_eq (t : Text) : initSt t = mk t [] [] [] := rfl

/-- Running a computation; a synonym of application that keeps terms well typed for the simplifier. -/
def exec {σ α : Type} (m : SM σ α) (s : σ) : Except Fail (α × σ) := m s

/-- Continues a successful result. -/
def andThen {α β : Type} (r : Except Fail α) (f : α → Except Fail β) : Except Fail β :=
  match r with
  | .ok a => f a
  | .error e => .error e

@[run] theorem andThen_ok {α β : Type} (a : α) (f : α → Except Fail β) : andThen (.ok a) f = f a := rfl
@[run] theorem andThen_error {α β : Type} (e : Fail) (f : α → Except Fail β) :
    andThen (.error e) f = .error e := rfl
@[run] theorem andThen_ite {α β : Type} (b : Prop) [Decidable b] (x y : Except Fail α)
    (f : α → Except Fail β) :
    andThen (if b then x else y) f = if b then andThen x f else andThen y f := by split <;> rfl

section
variable {σ α β : Type}

@[run] theorem run_bind_eq (m : SM σ α) (f : α → SM σ β) (s : σ) :
    exec (m >>= f) s = andThen (exec m s) fun x => exec (f x.1) x.2 := by
  show SM.bind m f s = _
  unfold SM.bind exec andThen
  cases m s <;> rfl

@[run] theorem run_pure (a : α) (s : σ) : exec (pure a : SM σ α) s = .ok (a, s) := rfl
@[run] theorem run_pure' (a : α) (s : σ) : exec (SM.pure a : SM σ α) s = .ok (a, s) := rfl
@[run] theorem run_err (e : Error) (s : σ) : exec (SM.err e : SM σ α) s = .error (.err e) := rfl
@[run] theorem run_crash (e : Crash) (s : σ) : exec (SM.crash e : SM σ α) s = .error (.crash e) := rfl
@[run] theorem run_get (s : σ) : exec (SM.get : SM σ σ) s = .ok (s, s) := rfl
@[run] theorem run_set (s s' : σ) : exec (SM.set s' : SM σ Unit) s = .ok ((), s') := rfl
@[run] theorem run_modify (f : σ → σ) (s : σ) : exec (SM.modify f : SM σ Unit) s = .ok ((), f s) := rfl
@[run] theorem run_okOr_some (e : Error) (a : α) (s : σ) :
    exec (SM.okOr e (some a) : SM σ α) s = .ok (a, s) := rfl
@[run] theorem run_okOr_none (e : Error) (s : σ) :
    exec (SM.okOr e (none : Option α) : SM σ α) s = .error (.err e) := rfl
@[run] theorem run_lift_ok (a : α) (s : σ) : exec (SM.lift (.ok a) : SM σ α) s = .ok (a, s) := rfl
@[run] theorem run_lift_err (e : Fail) (s : σ) : exec (SM.lift (.error e) : SM σ α) s = .error e := rfl
@[run] theorem run_whenB_true (m : SM σ Unit) : whenB true m = m := rfl
@[run] theorem run_whenB_false (m : SM σ Unit) : whenB false m = SM.pure () := rfl
@[run] theorem run_whenSome_some (a : α) (f : α → SM σ Unit) : whenSome (some a) f = f a := rfl
@[run] theorem run_whenSome_none (f : α → SM σ Unit) : whenSome none f = SM.pure () := rfl
@[run] theorem run_ite (b : Prop) [Decidable b] (m m' : SM σ α) (s : σ) :
    exec (if b then m else m') s = if b then exec m s else exec m' s := by split <;> rfl

/-- Chains a successful step. -/
theorem run_bind {m : SM σ α} {f : α → SM σ β} {s s' : σ} {a : α} {r : Except Fail (β × σ)}
    (h1 : exec m s = .ok (a, s')) (h2 : exec (f a) s' = r) : exec (m >>= f) s = r := by
  rw [run_bind_eq, h1]; exact h2

theorem run_bind_error {m : SM σ α} {f : α → SM σ β} {s : σ} {e : Fail}
    (h1 : exec m s = .error e) : exec (m >>= f) s = .error e := by
  rw [run_bind_eq, h1]; rfl

end

section
variable (x y : Char) (t u : Text) (c : Cache) (ns ps : List Handle)

@[run] theorem mk_str : (mk t c ns ps).str = MStr.new t := rfl
@[run] theorem mk_cache : (mk t c ns ps).cache = c := rfl
@[run] theorem mk_names : (mk t c ns ps).names = ns := rfl
@[run] theorem mk_params : (mk t c ns ps).function_params = ps := rfl
@[run] theorem new_string : (MStr.new t).string = t := rfl

@[run] theorem run_advance (m : MStr) (n : Nat) : exec (MStr.advance t n) m =
    if n ≤ m.chars then .ok ((), ⟨t, m.chars - n⟩) else .error (.crash .panic) := rfl

@[run] theorem char_if_cons (f : Char → Bool) :
    exec (MStr.try_consume_char_if f) (MStr.new (x :: t)) =
      if f x then .ok (some x, MStr.new t) else .ok (none, MStr.new (x :: t)) := by
  simp only [MStr.try_consume_char_if, run]
  simp [MStr.new]

@[run] theorem char_if_nil (f : Char → Bool) :
    exec (MStr.try_consume_char_if f) (MStr.new []) = .ok (none, MStr.new []) := rfl

theorem onStr_eq {α : Type} (m : SM MStr α) :
    exec (onStr m) (mk t c ns ps) = andThen (exec m (MStr.new t)) fun x =>
      .ok (x.1, { mk t c ns ps with str := x.2 }) := by
  show onStr m _ = _
  unfold onStr andThen exec
  rw [mk_str]
  cases m (MStr.new t) <;> rfl

@[run] theorem mk_with (t' : Text) : { mk t c ns ps with str := MStr.new t' } = mk t' c ns ps := rfl

@[run] theorem tryIf_cons (f : Char → Bool) :
    exec (tryIf f) (mk (x :: t) c ns ps) =
      if f x then .ok (some x, mk t c ns ps) else .ok (none, mk (x :: t) c ns ps) := by
  simp only [tryIf, onStr_eq, run]
  rfl

@[run] theorem tryIf_nil (f : Char → Bool) :
    exec (tryIf f) (mk [] c ns ps) = .ok (none, mk [] c ns ps) := rfl

@[run] theorem tryAny_cons : exec tryAny (mk (x :: t) c ns ps) = .ok (some x, mk t c ns ps) := by
  show exec (tryIf (fun _ => true)) _ = _
  rw [tryIf_cons]; rfl
@[run] theorem tryAny_nil : exec tryAny (mk [] c ns ps) = .ok (none, mk [] c ns ps) := rfl

@[run] theorem tryChar_cons :
    exec (tryChar y) (mk (x :: t) c ns ps) =
      if x == y then .ok (true, mk t c ns ps) else .ok (false, mk (x :: t) c ns ps) := by
  have : tryChar y = (tryIf (fun c => c == y) >>= fun o => pure o.isSome) := rfl
  rw [this, run_bind_eq, tryIf_cons, andThen_ite]
  rfl
@[run] theorem tryChar_nil : exec (tryChar y) (mk [] c ns ps) = .ok (false, mk [] c ns ps) := rfl

@[run] theorem expectAny_cons (e : Error) :
    exec (expectAny e) (mk (x :: t) c ns ps) = .ok (x, mk t c ns ps) := by
  simp only [expectAny, run]
@[run] theorem expectAny_nil (e : Error) : exec (expectAny e) (mk [] c ns ps) = .error (.err e) := rfl

@[run] theorem expectChar_cons (e : Error) :
    exec (expectChar y e) (mk (x :: t) c ns ps) =
      if x == y then .ok ((), mk t c ns ps) else .error (.err e) := by
  simp only [expectChar, run, if_true, Bool.false_eq_true, if_false]
@[run] theorem expectChar_nil (e : Error) :
    exec (expectChar y e) (mk [] c ns ps) = .error (.err e) := rfl

@[run] theorem query_mk {α : Type} (f : MStr → α) :
    exec (query f) (mk t c ns ps) = .ok (f (MStr.new t), mk t c ns ps) := rfl
@[run] theorem queryE_mk {α : Type} (f : MStr → Except Fail α) :
    exec (queryE f) (mk t c ns ps) = andThen (f (MStr.new t)) fun a => .ok (a, mk t c ns ps) := rfl

@[run] theorem firstIs_cons (f : Char → Bool) :
    exec (firstIs f) (mk (x :: t) c ns ps) = .ok (f x, mk (x :: t) c ns ps) := rfl
@[run] theorem firstIs_nil (f : Char → Bool) :
    exec (firstIs f) (mk [] c ns ps) = .ok (false, mk [] c ns ps) := rfl

theorem tryStr_hit : exec (tryStr u) (mk (u ++ t) c ns ps) = .ok (true, mk t c ns ps) := by
  have : (MStr.new (u ++ t)).starts_with u = true := by
    simp [MStr.starts_with, MStr.new]
  simp only [tryStr, run, onStr_eq, MStr.try_consume_str, this, if_true]
  simp [MStr.new, run, mk]

theorem tryStr_miss (h : u.isPrefixOf t = false) :
    exec (tryStr u) (mk t c ns ps) = .ok (false, mk t c ns ps) := by
  have : (MStr.new t).starts_with u = false := h
  simp [tryStr, run, onStr_eq, MStr.try_consume_str, this]
  rfl

@[run] theorem tryStr_cons_cons :
    exec (tryStr (y :: u)) (mk (x :: t) c ns ps) =
      if y == x then
        (if u.isPrefixOf t then .ok (true, mk (t.drop u.length) c ns ps)
         else .ok (false, mk (x :: t) c ns ps))
      else .ok (false, mk (x :: t) c ns ps) := by
  by_cases h : y = x
  · subst h
    by_cases h2 : u.isPrefixOf t = true
    · simp only [beq_self_eq_true, if_true, h2]
      obtain ⟨t', rfl⟩ := List.isPrefixOf_iff_prefix.mp h2
      have := tryStr_hit t' (y :: u) c ns ps
      simpa using this
    · simp only [beq_self_eq_true, if_true, h2]
      exact tryStr_miss _ _ _ _ _ (by simp [List.isPrefixOf, h2])
  · rw [if_neg (by simpa using h)]
    exact tryStr_miss _ _ _ _ _ (by simp [List.isPrefixOf, h])
@[run] theorem tryStr_cons_nil : exec (tryStr (y :: u)) (mk [] c ns ps) = .ok (false, mk [] c ns ps) := rfl

@[run] theorem expectStr_eq (e : Error) : exec (expectStr u e) (mk t c ns ps) =
    andThen (exec (tryStr u) (mk t c ns ps)) fun x =>
      if x.1 then .ok ((), x.2) else .error (.err e) := by
  simp only [expectStr, run]

theorem tryBytes_hit {n : Nat} {a b : Text} (h : splitAtBytes n t = some (a, b)) (hl : t = a ++ b) :
    exec (tryBytes n) (mk t c ns ps) = .ok (some a, mk b c ns ps) := by
  subst hl
  simp only [tryBytes, onStr_eq, MStr.try_consume_n_bytes, run, h]
  simp [MStr.new, run, mk]

@[run] theorem intern_mk (n : Node) :
    exec (intern n) (mk t c ns ps) = 
      if c.length < 2048 then .ok (c.length, mk t (c ++ [n]) ns ps) else .error (.err .MaliciousInput) := by
  show (if (mk t c ns ps).cache.length + 1 > 2048 then _ else _) = _
  rw [mk_cache]
  by_cases h : c.length < 2048
  · rw [if_neg (by omega), if_pos h]; rfl
  · rw [if_pos (by omega), if_neg h]

@[run] theorem sw_cons_cons : (MStr.new (x :: t)).starts_with (y :: u) =
    (y == x && (MStr.new t).starts_with u) := rfl
@[run] theorem sw_nil : (MStr.new t).starts_with [] = true := by cases t <;> rfl
@[run] theorem sw_cons_nil : (MStr.new []).starts_with (y :: u) = false := rfl
@[run] theorem is_empty_cons : (MStr.new (x :: t)).is_empty = false := rfl
@[run] theorem is_empty_nil : (MStr.new []).is_empty = true := rfl
@[run] theorem first_cons : (MStr.new (x :: t)).first_char = some x := rfl
@[run] theorem first_nil : (MStr.new []).first_char = none := rfl

theorem resolve_get {c : Cache} {k : Kind} {h : Handle} {n : Node} (hn : c[h]? = some n)
    (hk : n.is k = true) : resolve k c h = .ok n := by
  unfold resolve; rw [hn]; simp [hk]

theorem resolveP_mk {k : Kind} {h : Handle} {n : Node} (hn : c[h]? = some n) (hk : n.is k = true) :
    exec (resolveP k h) (mk t c ns ps) = .ok (n, mk t c ns ps) := by
  simp only [resolveP, run, resolve_get hn hk]

theorem downcastP_mk {k k' : Kind} {h : Handle} {n : Node} (hn : c[h]? = some n) (hk : n.is k = true) :
    exec (downcastP k k' h) (mk t c ns ps) = .ok (if n.is k' then some h else none, mk t c ns ps) := by
  simp only [downcastP, run, downcast, resolve_get hn hk]

theorem modifyNode_mk {k : Kind} {h : Handle} {n : Node} {f : Node → Node} (hn : c[h]? = some n)
    (hk : n.is k = true) :
    exec (modifyNode k h f) (mk t c ns ps) = .ok ((), mk t (c.set h (f n)) ns ps) := by
  simp only [modifyNode, run, resolveP_mk t c ns ps hn hk]
  rfl

end

theorem findChar_at {x : Char} {a : Text} (b : Text) (h : x ∉ a) :
    MStr.findChar x (a ++ x :: b) = some (utf8Len a) := by
  induction a with
  | nil => simp [MStr.findChar, utf8Len]
  | cons c cs ih =>
    have hc : (c == x) = false := by
      simp only [beq_eq_false_iff_ne]; rintro rfl; exact h (by simp)
    simp only [List.cons_append, MStr.findChar, hc, Bool.false_eq_true, if_false]
    rw [ih (fun h' => h (by simp [h']))]
    rfl

theorem findChar_none {x : Char} {a : Text} (h : x ∉ a) : MStr.findChar x a = none := by
  induction a with
  | nil => rfl
  | cons c cs ih =>
    have hc : (c == x) = false := by
      simp only [beq_eq_false_iff_ne]; rintro rfl; exact h (by simp)
    simp only [MStr.findChar, hc, Bool.false_eq_true, if_false]
    rw [ih (fun h' => h (by simp [h']))]
    rfl

end Undname
