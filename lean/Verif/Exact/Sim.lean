/-
  Simulation with node counts: running the parser on a phrase builds a representation of the tree the phrase denotes
  and makes the stated number of nodes, or fails because that number exceeds the limit.
-/
import Verif.Proof.Refine
import Verif.Spec.Nodes
import Lean

namespace Undname.Ex
open Spec (CV FnKind Sig Adjust Access T Tbl)

open Lean Meta Elab Tactic in
/-- Adds the equations between the lengths of equal caches. -/
elab "cache_lens" : tactic => withMainContext do
  let mut g ← getMainGoal
  for d in ← getLCtx do
    if d.isImplementationDetail then continue
    let ty ← instantiateMVars d.type
    if let some (α, _, _) := ty.eq? then
      let α ← whnfD α
      if α.isAppOfArity ``List 1 && α.appArg!.isConstOf ``Undname.Node then
        let p ← mkCongrArg (← mkAppOptM ``List.length #[some (mkConst ``Undname.Node)]) d.toExpr
        let (_, g') ← (← g.assert `cache_len (← inferType p) p).intro1P
        g := g'
  replaceMainGoal [g]

/-- Proves (in)equalities between numbers of nodes. -/
macro "nodes" : tactic => `(tactic| first
  | omega
  | (try cache_lens
     try simp only [World.c_length, List.length_append, List.length_set, List.length_cons, List.length_nil] at *
     all_goals omega))

/-! ### Computations that do what they should or give up -/

/-- The computation ends in a state satisfying `Q`, or runs out of nodes (which happens only if `N`, the number of
nodes at the end of it, exceeds the limit), or crashes (which the safety theorems exclude). -/
def Sim {α : Type} (N : Nat) (m : P α) (s : St) (Q : α → St → Prop) : Prop :=
  match exec m s with
  | .ok (a, s') => Q a s'
  | .error (.crash _) => True
  | .error (.err e) => e = .MaliciousInput ∧ 2048 < N

section
variable {α β : Type} {N N' : Nat} {s s' : St} {Q R : α → St → Prop}

theorem Sim.ok {m : P α} {a : α} (h : exec m s = .ok (a, s')) (hq : Q a s') : Sim N m s Q := by
  unfold Sim; rw [h]; exact hq

theorem Sim.pure {a : α} (h : Q a s) : Sim N (Pure.pure a) s Q := h
theorem Sim.pure' {a : α} (h : Q a s) : Sim N (SM.pure a) s Q := h

theorem Sim.crash {m : P α} {c : Crash} (h : exec m s = .error (.crash c)) : Sim N m s Q := by
  unfold Sim; rw [h]; trivial

theorem Sim.mono {m : P α} (h : Sim N m s Q) (hq : ∀ a s', Q a s' → R a s') : Sim N m s R := by
  unfold Sim at *
  revert h
  cases exec m s with
  | ok p => exact hq _ _
  | error e => cases e <;> exact id

theorem Sim.le {m : P α} (h : Sim N m s Q) (hn : N ≤ N') : Sim N' m s Q := by
  unfold Sim at *
  revert h
  cases exec m s with
  | ok p => exact id
  | error e =>
    cases e with
    | crash c => exact id
    | err e => exact fun h => ⟨h.1, Nat.lt_of_lt_of_le h.2 hn⟩

theorem Sim.bind {m : P α} {k : α → P β} {R : β → St → Prop} (h : Sim N m s Q)
    (hk : ∀ a s', Q a s' → Sim N (k a) s' R) : Sim N (m >>= k) s R := by
  unfold Sim at *
  rw [run_bind_eq]
  revert h
  cases exec m s with
  | ok p => exact hk _ _
  | error e => cases e <;> exact id

/-- A first step with a known result. -/
theorem Sim.step {m : P α} {k : α → P β} {R : β → St → Prop} {a : α} (h : exec m s = .ok (a, s'))
    (hk : Sim N (k a) s' R) : Sim N (m >>= k) s R := by
  unfold Sim at *
  rw [run_bind_eq, h]; exact hk

theorem Sim.of_eq {m m' : P α} (e : exec m s = exec m' s') (h : Sim N m' s' Q) : Sim N m s Q := by
  unfold Sim at *; rw [e]; exact h

theorem Sim.assoc {γ : Type} {m : P α} {k : α → P β} {j : β → P γ} {R : γ → St → Prop}
    (h : Sim N ((m >>= k) >>= j) s R) : Sim N (m >>= fun a => k a >>= j) s R := by
  refine Sim.of_eq ?_ h
  simp only [run_bind_eq]
  cases exec m s with
  | ok p => rfl
  | error e => rfl

theorem Sim.get {k : St → P β} {R : β → St → Prop} (h : Sim N (k s) s R) : Sim N (SM.get >>= k) s R :=
  Sim.step rfl h

theorem Sim.query {f : MStr → α} {k : α → P β} {R : β → St → Prop} (h : Sim N (k (f s.str)) s R) :
    Sim N (query f >>= k) s R := Sim.step rfl h

/-- Reading a node. The interface does not matter, because a mismatch is a crash. -/
theorem Sim.resolve {kd : Kind} {h : Handle} {nd : Node} {k : Node → P β} {R : β → St → Prop}
    (e : s.cache[h]? = some nd) (hk : Sim N (k nd) s R) : Sim N (resolveP kd h >>= k) s R := by
  by_cases hn : nd.is kd = true
  · exact Sim.step (m := resolveP kd h) (by simp only [resolveP, run, resolve_get e hn]) hk
  · refine Sim.crash (c := .panic) (run_bind_error ?_)
    simp only [resolveP, run]
    have : Undname.resolve kd s.cache h = .error (.crash .panic) := by
      unfold Undname.resolve; rw [e]; simp [hn]
    rw [this]; rfl

theorem Sim.downcast {src dst : Kind} {h : Handle} {nd : Node} {k : Option Handle → P β} {R : β → St → Prop}
    (e : s.cache[h]? = some nd) (hk : Sim N (k (if nd.is dst then some h else none)) s R) :
    Sim N (downcastP src dst h >>= k) s R := by
  by_cases hn : nd.is src = true
  · exact Sim.step (m := downcastP src dst h) (by simp only [downcastP, run, Undname.downcast, resolve_get e hn]) hk
  · refine Sim.crash (c := .panic) (run_bind_error ?_)
    simp only [downcastP, run]
    have : Undname.downcast src dst s.cache h = .error (.crash .panic) := by
      unfold Undname.downcast Undname.resolve; rw [e]; simp [hn]
    rw [this]; rfl

end

/-! ### Runs -/

/-- What holds after a phrase with `n` nodes has been read. -/
def Reach {α : Type} (w : World) (tb' : Tbl) (rest : Text) (n : Nat) (Q : World → α → Prop) (a : α) (s : St) : Prop :=
  ∃ (w' : World) (ns ps : List Handle), s = mk rest w'.c ns ps ∧ w'.length = w.length + n ∧ w <+: w' ∧ Tab w' tb' ns ps ∧ Q w' a

/-- Reading `x` before `rest` makes `n` nodes, changes the tables from `tb` to `tb'` and yields a result in `Q`. -/
def RunsAt {α : Type} (m : P α) (x rest : Text) (tb tb' : Tbl) (Q : World → World → α → Prop) (n : Nat) : Prop :=
  ∀ w ns ps, Tab w tb ns ps → Sim (w.length + n) m (mk (x ++ rest) w.c ns ps) (Reach w tb' rest n (Q w))

/-- Reading `x` makes `n` nodes, changes the tables from `tb` to `tb'` and yields a result in `Q`. -/
def Runs {α : Type} (m : P α) (x : Text) (tb tb' : Tbl) (Q : World → World → α → Prop) (n : Nat) : Prop :=
  ∀ rest, RunsAt m x rest tb tb' Q n

section
variable {α β : Type} {N : Nat} {w : World} {tb tb' : Tbl} {x rest : Text} {ns ps : List Handle} {n : Nat}

theorem RunsAt.bind {m : P α} {k : α → P β} {Q : World → World → α → Prop} {R : β → St → Prop}
    (h : RunsAt m x rest tb tb' Q n) (ht : Tab w tb ns ps)
    (hk : ∀ a (w' : World) ns' ps', w <+: w' → Tab w' tb' ns' ps' → Q w w' a → {_ : w'.length = w.length + n} →
      Sim N (k a) (mk rest w'.c ns' ps') R) (hn : w.length + n ≤ N := by nodes) :
    Sim N (m >>= k) (mk (x ++ rest) w.c ns ps) R := by
  refine Sim.bind ((h w ns ps ht).le hn) ?_
  rintro a s ⟨w', ns', ps', rfl, hl, hp, ht', hq⟩
  exact @hk a w' ns' ps' hp ht' hq hl

theorem Runs.bind {m : P α} {k : α → P β} {Q : World → World → α → Prop} {R : β → St → Prop}
    (h : Runs m x tb tb' Q n) (ht : Tab w tb ns ps)
    (hk : ∀ a (w' : World) ns' ps', w <+: w' → Tab w' tb' ns' ps' → Q w w' a → {_ : w'.length = w.length + n} →
      Sim N (k a) (mk rest w'.c ns' ps') R) (hn : w.length + n ≤ N := by nodes) :
    Sim N (m >>= k) (mk (x ++ rest) w.c ns ps) R := (h rest).bind ht @hk hn

theorem Runs.mono {m : P α} {Q Q' : World → World → α → Prop} (h : Runs m x tb tb' Q n)
    (hq : ∀ (w w' : World) a, w <+: w' → Q w w' a → Q' w w' a) : Runs m x tb tb' Q' n := by
  intro rest w ns ps ht
  refine Sim.mono (h rest w ns ps ht) ?_
  rintro a s ⟨w', ns', ps', e, hl, hp, ht', hq'⟩
  exact ⟨w', ns', ps', e, hl, hp, ht', hq _ _ _ hp hq'⟩

/-- The postcondition may mark more nodes. -/
theorem Runs.mark {m : P α} {Q Q' : World → World → α → Prop} (h : Runs m x tb tb' Q n)
    (hq : ∀ (w w' : World) a, w <+: w' → Q w w' a → ∃ w'' : World, w''.c = w'.c ∧ w <+: w'' ∧ Vis w' w'' ∧ Q' w w'' a) :
    Runs m x tb tb' Q' n := by
  intro rest w ns ps ht
  refine Sim.mono (h rest w ns ps ht) ?_
  rintro a s ⟨w', ns', ps', e, hl, hp, ht', hq'⟩
  obtain ⟨w'', hc, hp', hv, hq''⟩ := hq _ _ _ hp hq'
  exact ⟨w'', ns', ps', hc ▸ e, by nodes, hp', ht'.mono hv, hq''⟩

theorem Sim.reach {m : P α} {a : α} {w' : World} {ns' ps' : List Handle} {Q : World → α → Prop} {s : St}
    (h : exec m s = .ok (a, mk rest w'.c ns' ps')) (hp : w <+: w') (ht : Tab w' tb' ns' ps') (hq : Q w' a)
    (hl : w'.length = w.length + n := by nodes) :
    Sim N m s (Reach w tb' rest n Q) := Sim.ok h ⟨w', ns', ps', rfl, hl, hp, ht, hq⟩

theorem Sim.done {a : α} {w' : World} {Q : World → α → Prop}
    (hp : w <+: w') (ht : Tab w' tb' ns ps) (hq : Q w' a) (hl : w'.length = w.length + n := by nodes) :
    Sim N (Pure.pure a) (mk rest w'.c ns ps) (Reach w tb' rest n Q) := ⟨w', ns, ps, rfl, hl, hp, ht, hq⟩

/-- Adding a node. -/
theorem Sim.intern (b : Bool) {nd : Node} {k : Handle → P β} {R : β → St → Prop}
    (h : Sim N (k w.length) (mk x (World.c (w ++ [(nd, b)])) ns ps) R) (hn : w.length < N := by nodes) :
    Sim N (intern nd >>= k) (mk x w.c ns ps) R := by
  by_cases hc : w.c.length < 2048
  · refine Sim.step (s' := mk x (World.c (w ++ [(nd, b)])) ns ps) (a := w.length) ?_ h
    rw [intern_mk, if_pos hc, World.c_push, World.c_length]
  · unfold Sim
    rw [run_bind_eq, intern_mk, if_neg hc]
    rw [World.c_length] at hc
    exact ⟨rfl, by omega⟩

theorem Sim.intern_end (b : Bool) {nd : Node} {R : Handle → St → Prop}
    (h : R w.length (mk x (World.c (w ++ [(nd, b)])) ns ps)) (hn : w.length < N := by nodes) :
    Sim N (Undname.intern nd) (mk x w.c ns ps) R := by
  by_cases hc : w.c.length < 2048
  · refine Sim.ok (s' := mk x (World.c (w ++ [(nd, b)])) ns ps) (a := w.length) ?_ h
    rw [intern_mk, if_pos hc, World.c_push, World.c_length]
  · unfold Sim
    rw [intern_mk, if_neg hc]
    rw [World.c_length] at hc
    exact ⟨rfl, by omega⟩

/-- Changing a node. -/
theorem Sim.modify {kd : Kind} {i : Handle} {nd : Node} {b : Bool} (b' : Bool) {f : Node → Node} {k : Unit → P β} {R : β → St → Prop}
    (e : w[i]? = some (nd, b)) (h : Sim N (k ()) (mk x (World.c (w.set i (f nd, b'))) ns ps) R) :
    Sim N (modifyNode kd i f >>= k) (mk x w.c ns ps) R := by
  have : modifyNode kd i f = resolveP kd i >>= fun n => SM.modify fun s => { s with cache := s.cache.set i (f n) } := rfl
  rw [this]
  refine Sim.bind (Q := fun _ s => s = mk x (World.c (w.set i (f nd, b'))) ns ps) ?_ (by rintro ⟨⟩ s rfl; exact h)
  refine Sim.resolve (World.c_get e) ?_
  refine Sim.ok (run_modify _ _) ?_
  rw [World.c_set]
  rfl

/-- Changing nothing. -/
theorem Sim.modify_same {kd : Kind} {i : Handle} {nd : Node} {b : Bool} {f : Node → Node} {k : Unit → P β} {R : β → St → Prop}
    (e : w[i]? = some (nd, b)) (hf : f nd = nd) (h : Sim N (k ()) (mk x w.c ns ps) R) :
    Sim N (modifyNode kd i f >>= k) (mk x w.c ns ps) R := by
  refine Sim.modify (b := b) b e ?_
  rw [hf, World.c_mark e]; exact h

theorem Sim.modify_end {kd : Kind} {i : Handle} {nd : Node} {b : Bool} (b' : Bool) {f : Node → Node} {R : Unit → St → Prop}
    (e : w[i]? = some (nd, b)) (h : R () (mk x (World.c (w.set i (f nd, b'))) ns ps)) :
    Sim N (modifyNode kd i f) (mk x w.c ns ps) R := by
  have := Sim.modify (N := N) (kd := kd) (f := f) (k := fun _ => Pure.pure ()) (R := R) (x := x) (ns := ns) (ps := ps) b' e (Sim.pure h)
  refine Sim.of_eq ?_ this
  rw [run_bind_eq]
  cases exec (modifyNode kd i f) (mk x w.c ns ps) <;> rfl

theorem Sim.res {kd : Kind} {i : Handle} {nd : Node} {b : Bool} {k : Node → P β} {R : β → St → Prop}
    (e : w[i]? = some (nd, b)) (hk : Sim N (k nd) (mk x w.c ns ps) R) :
    Sim N (resolveP kd i >>= k) (mk x w.c ns ps) R := Sim.resolve (World.c_get e) hk

theorem Sim.down {src dst : Kind} {i : Handle} {nd : Node} {b : Bool} {k : Option Handle → P β} {R : β → St → Prop}
    (e : w[i]? = some (nd, b)) (hk : Sim N (k (if nd.is dst then some i else none)) (mk x w.c ns ps) R) :
    Sim N (downcastP src dst i >>= k) (mk x w.c ns ps) R := Sim.downcast (World.c_get e) hk

end

end Undname.Ex
