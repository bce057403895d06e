/-
  Simulation: running the parser on a phrase builds a representation of the tree the phrase denotes.
-/
import Verif.Spec.Grammar
import Verif.Proof.Print
import Verif.Proof.Numbers

namespace Undname
open Spec (CV FnKind Sig Adjust Access T Tbl)

/-! ### Computations that do what they should or give up -/

/-- The computation ends in a state satisfying `Q`, or runs out of nodes, or crashes (which the safety
theorems exclude). -/
def Sim {α : Type} (m : P α) (s : St) (Q : α → St → Prop) : Prop :=
  match exec m s with
  | .ok (a, s') => Q a s'
  | .error (.crash _) => True
  | .error (.err e) => e = .MaliciousInput

section
variable {α β : Type} {s s' : St} {Q R : α → St → Prop}

theorem Sim.ok {m : P α} {a : α} (h : exec m s = .ok (a, s')) (hq : Q a s') : Sim m s Q := by
  unfold Sim; rw [h]; exact hq

theorem Sim.pure {a : α} (h : Q a s) : Sim (Pure.pure a) s Q := h
theorem Sim.pure' {a : α} (h : Q a s) : Sim (SM.pure a) s Q := h

theorem Sim.crash {m : P α} {c : Crash} (h : exec m s = .error (.crash c)) : Sim m s Q := by
  unfold Sim; rw [h]; trivial

theorem Sim.mono {m : P α} (h : Sim m s Q) (hq : ∀ a s', Q a s' → R a s') : Sim m s R := by
  unfold Sim at *
  revert h
  cases exec m s with
  | ok p => exact hq _ _
  | error e => cases e <;> exact id

theorem Sim.bind {m : P α} {k : α → P β} {R : β → St → Prop} (h : Sim m s Q)
    (hk : ∀ a s', Q a s' → Sim (k a) s' R) : Sim (m >>= k) s R := by
  unfold Sim at *
  rw [run_bind_eq]
  revert h
  cases exec m s with
  | ok p => exact hk _ _
  | error e => cases e <;> exact id

/-- A first step with a known result. -/
theorem Sim.step {m : P α} {k : α → P β} {R : β → St → Prop} {a : α} (h : exec m s = .ok (a, s'))
    (hk : Sim (k a) s' R) : Sim (m >>= k) s R := by
  unfold Sim at *
  rw [run_bind_eq, h]; exact hk

theorem Sim.of_eq {m m' : P α} (e : exec m s = exec m' s') (h : Sim m' s' Q) : Sim m s Q := by
  unfold Sim at *; rw [e]; exact h

theorem Sim.assoc {γ : Type} {m : P α} {k : α → P β} {j : β → P γ} {R : γ → St → Prop}
    (h : Sim ((m >>= k) >>= j) s R) : Sim (m >>= fun a => k a >>= j) s R := by
  refine Sim.of_eq ?_ h
  simp only [run_bind_eq]
  cases exec m s with
  | ok p => rfl
  | error e => rfl

theorem Sim.get {k : St → P β} {R : β → St → Prop} (h : Sim (k s) s R) : Sim (SM.get >>= k) s R :=
  Sim.step rfl h

theorem Sim.query {f : MStr → α} {k : α → P β} {R : β → St → Prop} (h : Sim (k (f s.str)) s R) :
    Sim (query f >>= k) s R := Sim.step rfl h

/-- Reading a node. The interface does not matter, because a mismatch is a crash. -/
theorem Sim.resolve {kd : Kind} {h : Handle} {nd : Node} {k : Node → P β} {R : β → St → Prop}
    (e : s.cache[h]? = some nd) (hk : Sim (k nd) s R) : Sim (resolveP kd h >>= k) s R := by
  by_cases hn : nd.is kd = true
  · exact Sim.step (m := resolveP kd h) (by simp only [resolveP, run, resolve_get e hn]) hk
  · refine Sim.crash (c := .panic) (run_bind_error ?_)
    simp only [resolveP, run]
    have : Undname.resolve kd s.cache h = .error (.crash .panic) := by
      unfold Undname.resolve; rw [e]; simp [hn]
    rw [this]; rfl

theorem Sim.downcast {src dst : Kind} {h : Handle} {nd : Node} {k : Option Handle → P β} {R : β → St → Prop}
    (e : s.cache[h]? = some nd) (hk : Sim (k (if nd.is dst then some h else none)) s R) :
    Sim (downcastP src dst h >>= k) s R := by
  by_cases hn : nd.is src = true
  · exact Sim.step (m := downcastP src dst h) (by simp only [downcastP, run, Undname.downcast, resolve_get e hn]) hk
  · refine Sim.crash (c := .panic) (run_bind_error ?_)
    simp only [downcastP, run]
    have : Undname.downcast src dst s.cache h = .error (.crash .panic) := by
      unfold Undname.downcast Undname.resolve; rw [e]; simp [hn]
    rw [this]; rfl

end

/-! ### Worlds -/

namespace World
theorem c_push (w : World) (n : Node) (b : Bool) : World.c (w ++ [(n, b)]) = w.c ++ [n] := by simp [World.c]
theorem c_set (w : World) (h : Handle) (n : Node) (b : Bool) : World.c (w.set h (n, b)) = w.c.set h n := by
  simp [World.c, List.map_set]
theorem c_length (w : World) : w.c.length = w.length := by simp [World.c]
/-- Changing only the mark. -/
theorem c_mark {w : World} {h : Handle} {n : Node} {b : Bool} (e : w[h]? = some (n, b)) (b' : Bool) :
    World.c (w.set h (n, b')) = w.c := by
  rw [c_set]
  exact List.set_getElem?_self' (c_get e)
where
  List.set_getElem?_self' {c : Cache} {h : Handle} {n : Node} (e : c[h]? = some n) : c.set h n = c := by
    apply List.ext_getElem?
    intro i
    rw [List.getElem?_set]
    split
    · next hi => subst hi; split <;> simp_all
    · rfl
end World

theorem prefix_set {w w' : World} (h : w <+: w') {i : Handle} (hi : w.length ≤ i) (x : Node × Bool) :
    w <+: w'.set i x := by
  obtain ⟨t, rfl⟩ := h
  rw [List.set_append_right _ _ hi]
  exact List.prefix_append _ _

theorem prefix_push {w w' : World} (h : w <+: w') (x : Node × Bool) : w <+: w' ++ [x] :=
  h.trans (List.prefix_append _ _)

theorem get_push (w : World) (x : Node × Bool) : (w ++ [x])[w.length]? = some x := by simp

theorem get_prefix {w w' : World} (h : w <+: w') {i : Handle} {x : Node × Bool} (e : w[i]? = some x) :
    w'[i]? = some x := by
  obtain ⟨t, rfl⟩ := h
  obtain ⟨hl, _⟩ := List.getElem?_eq_some_iff.1 e
  rw [List.getElem?_append_left hl]; exact e

theorem get_set {w : World} {i : Handle} {x : Node × Bool} (e : w[i]? = some x) (y : Node × Bool) :
    (w.set i y)[i]? = some y := by
  obtain ⟨hl, _⟩ := List.getElem?_eq_some_iff.1 e
  rw [List.getElem?_set_self hl]

theorem get_set_ne {w : World} {i j : Handle} (h : i ≠ j) (y : Node × Bool) : (w.set i y)[j]? = w[j]? :=
  List.getElem?_set_ne h

theorem lt_of_get {w : World} {i : Handle} {x : Node × Bool} (e : w[i]? = some x) : i < w.length :=
  (List.getElem?_eq_some_iff.1 e).1

/-! ### Back-reference tables -/

/-- Elementwise related lists. -/
inductive All2 {α β : Type} (R : α → β → Prop) : List α → List β → Prop where
  | nil : All2 R [] []
  | cons {a b as bs} : R a b → All2 R as bs → All2 R (a :: as) (b :: bs)

namespace All2
variable {α β : Type} {R R' : α → β → Prop} {as : List α} {bs : List β}

theorem length (h : All2 R as bs) : as.length = bs.length := by
  induction h with
  | nil => rfl
  | cons _ _ ih => simp [ih]

theorem mono (h : All2 R as bs) (hr : ∀ a b, R a b → R' a b) : All2 R' as bs := by
  induction h with
  | nil => exact .nil
  | cons h _ ih => exact .cons (hr _ _ h) ih

theorem snoc (h : All2 R as bs) {a : α} {b : β} (hab : R a b) : All2 R (as ++ [a]) (bs ++ [b]) := by
  induction h with
  | nil => exact .cons hab .nil
  | cons h _ ih => exact .cons h ih

theorem get (h : All2 R as bs) {i : Nat} {a : α} (e : as[i]? = some a) : ∃ b, bs[i]? = some b ∧ R a b := by
  induction h generalizing i with
  | nil => simp at e
  | cons h _ ih =>
    cases i with
    | zero => simp at e; subst e; exact ⟨_, rfl, h⟩
    | succ i => simp at e; simpa using ih e

end All2

/-- The handles stand for the table. -/
structure Tab (w : World) (tb : Tbl) (ns ps : List Handle) : Prop where
  names : All2 (fun s h => w[h]? = some (.NamedIdentifier none s, true)) tb.names ns
  params : All2 (fun t h => Rep w t (.H h)) tb.params ps

theorem Tab.mono {w w' : World} {tb : Tbl} {ns ps : List Handle} (h : Tab w tb ns ps) (hv : Vis w w') :
    Tab w' tb ns ps :=
  ⟨h.names.mono fun _ _ => hv _ _, h.params.mono fun _ _ => Rep.mono hv⟩

theorem Tab.empty (w : World) : Tab w {} [] [] := ⟨.nil, .nil⟩

/-! ### Runs -/

/-- What holds after a phrase has been read. -/
def Reach {α : Type} (w : World) (tb' : Tbl) (rest : Text) (Q : World → α → Prop) (a : α) (s : St) : Prop :=
  ∃ (w' : World) (ns ps : List Handle), s = mk rest w'.c ns ps ∧ w <+: w' ∧ Tab w' tb' ns ps ∧ Q w' a

/-- Reading `x` before `rest` changes the tables from `tb` to `tb'` and yields a result in `Q`. -/
def RunsAt {α : Type} (m : P α) (x rest : Text) (tb tb' : Tbl) (Q : World → World → α → Prop) : Prop :=
  ∀ w ns ps, Tab w tb ns ps → Sim m (mk (x ++ rest) w.c ns ps) (Reach w tb' rest (Q w))

/-- Reading `x` changes the tables from `tb` to `tb'` and yields a result in `Q`. -/
def Runs {α : Type} (m : P α) (x : Text) (tb tb' : Tbl) (Q : World → World → α → Prop) : Prop :=
  ∀ rest, RunsAt m x rest tb tb' Q

section
variable {α β : Type} {w : World} {tb tb' : Tbl} {x rest : Text} {ns ps : List Handle}

theorem RunsAt.bind {m : P α} {k : α → P β} {Q : World → World → α → Prop} {R : β → St → Prop}
    (h : RunsAt m x rest tb tb' Q) (ht : Tab w tb ns ps)
    (hk : ∀ a (w' : World) ns' ps', w <+: w' → Tab w' tb' ns' ps' → Q w w' a → Sim (k a) (mk rest w'.c ns' ps') R) :
    Sim (m >>= k) (mk (x ++ rest) w.c ns ps) R := by
  refine Sim.bind (h w ns ps ht) ?_
  rintro a s ⟨w', ns', ps', rfl, hp, ht', hq⟩
  exact hk a w' ns' ps' hp ht' hq

theorem Runs.bind {m : P α} {k : α → P β} {Q : World → World → α → Prop} {R : β → St → Prop}
    (h : Runs m x tb tb' Q) (ht : Tab w tb ns ps)
    (hk : ∀ a (w' : World) ns' ps', w <+: w' → Tab w' tb' ns' ps' → Q w w' a → Sim (k a) (mk rest w'.c ns' ps') R) :
    Sim (m >>= k) (mk (x ++ rest) w.c ns ps) R := (h rest).bind ht hk

theorem Runs.mono {m : P α} {Q Q' : World → World → α → Prop} (h : Runs m x tb tb' Q)
    (hq : ∀ (w w' : World) a, w <+: w' → Q w w' a → Q' w w' a) : Runs m x tb tb' Q' := by
  intro rest w ns ps ht
  refine Sim.mono (h rest w ns ps ht) ?_
  rintro a s ⟨w', ns', ps', e, hp, ht', hq'⟩
  exact ⟨w', ns', ps', e, hp, ht', hq _ _ _ hp hq'⟩

/-- The postcondition may mark more nodes. -/
theorem Runs.mark {m : P α} {Q Q' : World → World → α → Prop} (h : Runs m x tb tb' Q)
    (hq : ∀ (w w' : World) a, w <+: w' → Q w w' a → ∃ w'' : World, w''.c = w'.c ∧ w <+: w'' ∧ Vis w' w'' ∧ Q' w w'' a) :
    Runs m x tb tb' Q' := by
  intro rest w ns ps ht
  refine Sim.mono (h rest w ns ps ht) ?_
  rintro a s ⟨w', ns', ps', e, hp, ht', hq'⟩
  obtain ⟨w'', hc, hp', hv, hq''⟩ := hq _ _ _ hp hq'
  exact ⟨w'', ns', ps', hc ▸ e, hp', ht'.mono hv, hq''⟩

theorem Sim.reach {m : P α} {a : α} {w' : World} {ns' ps' : List Handle} {Q : World → α → Prop} {s : St}
    (h : exec m s = .ok (a, mk rest w'.c ns' ps')) (hp : w <+: w') (ht : Tab w' tb' ns' ps') (hq : Q w' a) :
    Sim m s (Reach w tb' rest Q) := Sim.ok h ⟨w', ns', ps', rfl, hp, ht, hq⟩

theorem Sim.done {a : α} {w' : World} {Q : World → α → Prop}
    (hp : w <+: w') (ht : Tab w' tb' ns ps) (hq : Q w' a) :
    Sim (Pure.pure a) (mk rest w'.c ns ps) (Reach w tb' rest Q) := ⟨w', ns, ps, rfl, hp, ht, hq⟩

/-- Adding a node. -/
theorem Sim.intern (b : Bool) {nd : Node} {k : Handle → P β} {R : β → St → Prop}
    (h : Sim (k w.length) (mk x (World.c (w ++ [(nd, b)])) ns ps) R) :
    Sim (intern nd >>= k) (mk x w.c ns ps) R := by
  unfold Sim at *
  simp only [run]
  split at h
  all_goals
    by_cases hc : w.c.length < 2048
    · simp only [if_pos hc, run]
      rw [World.c_push] at *
      rw [World.c_length]
      simp_all
    · simp only [if_neg hc, run]

theorem Sim.intern_end (b : Bool) {nd : Node} {R : Handle → St → Prop}
    (h : R w.length (mk x (World.c (w ++ [(nd, b)])) ns ps)) :
    Sim (Undname.intern nd) (mk x w.c ns ps) R := by
  unfold Sim
  simp only [run]
  by_cases hc : w.c.length < 2048
  · simp only [if_pos hc]
    rw [World.c_push] at h
    rw [World.c_length]
    exact h
  · simp only [if_neg hc]

/-- Changing a node. -/
theorem Sim.modify {kd : Kind} {i : Handle} {nd : Node} {b : Bool} (b' : Bool) {f : Node → Node} {k : Unit → P β} {R : β → St → Prop}
    (e : w[i]? = some (nd, b)) (h : Sim (k ()) (mk x (World.c (w.set i (f nd, b'))) ns ps) R) :
    Sim (modifyNode kd i f >>= k) (mk x w.c ns ps) R := by
  have : modifyNode kd i f = resolveP kd i >>= fun n => SM.modify fun s => { s with cache := s.cache.set i (f n) } := rfl
  rw [this]
  refine Sim.bind (Q := fun _ s => s = mk x (World.c (w.set i (f nd, b'))) ns ps) ?_ (by rintro ⟨⟩ s rfl; exact h)
  refine Sim.resolve (World.c_get e) ?_
  refine Sim.ok (run_modify _ _) ?_
  rw [World.c_set]
  rfl

/-- Changing nothing. -/
theorem Sim.modify_same {kd : Kind} {i : Handle} {nd : Node} {b : Bool} {f : Node → Node} {k : Unit → P β} {R : β → St → Prop}
    (e : w[i]? = some (nd, b)) (hf : f nd = nd) (h : Sim (k ()) (mk x w.c ns ps) R) :
    Sim (modifyNode kd i f >>= k) (mk x w.c ns ps) R := by
  refine Sim.modify (b := b) b e ?_
  rw [hf, World.c_mark e]; exact h

theorem Sim.modify_end {kd : Kind} {i : Handle} {nd : Node} {b : Bool} (b' : Bool) {f : Node → Node} {R : Unit → St → Prop}
    (e : w[i]? = some (nd, b)) (h : R () (mk x (World.c (w.set i (f nd, b'))) ns ps)) :
    Sim (modifyNode kd i f) (mk x w.c ns ps) R := by
  have := Sim.modify (kd := kd) (f := f) (k := fun _ => Pure.pure ()) (R := R) (x := x) (ns := ns) (ps := ps) b' e (Sim.pure h)
  refine Sim.of_eq ?_ this
  rw [run_bind_eq]
  cases exec (modifyNode kd i f) (mk x w.c ns ps) <;> rfl

theorem Sim.res {kd : Kind} {i : Handle} {nd : Node} {b : Bool} {k : Node → P β} {R : β → St → Prop}
    (e : w[i]? = some (nd, b)) (hk : Sim (k nd) (mk x w.c ns ps) R) :
    Sim (resolveP kd i >>= k) (mk x w.c ns ps) R := Sim.resolve (World.c_get e) hk

theorem Sim.down {src dst : Kind} {i : Handle} {nd : Node} {b : Bool} {k : Option Handle → P β} {R : β → St → Prop}
    (e : w[i]? = some (nd, b)) (hk : Sim (k (if nd.is dst then some i else none)) (mk x w.c ns ps) R) :
    Sim (downcastP src dst i >>= k) (mk x w.c ns ps) R := Sim.downcast (World.c_get e) hk

end

/-! ### Results -/

/-- The handle stands for the tree. -/
def Seen (t : T) (_ w' : World) (h : Handle) : Prop := Rep w' t (.H h)

/-- The handle is of a new node, which stands for the tree and may still change. -/
def Hole (t : T) (w w' : World) (h : Handle) : Prop :=
  ∃ nd, w'[h]? = some (nd, false) ∧ w.length ≤ h ∧ Rep w' t (.N nd)

/-- The same; if the tree is a pointer then its target may change, too. -/
def TyHole : T → World → World → Handle → Prop
  | .ptr q a cls to, w, w', h => ∃ q' co p, w'[h]? = some (.PointerType q' (some a) co p, false) ∧ w.length ≤ h ∧
      QRel q' q ∧ Rep w' cls (.L (Option.toList co)) ∧ p ≠ h ∧ Hole to w w' p
  | t, w, w', h => Hole t w w' h

theorem Hole.reveal {t : T} {w w' : World} {h : Handle} (H : Hole t w w' h) (hp : w <+: w') :
    ∃ w'' : World, w''.c = w'.c ∧ w <+: w'' ∧ Vis w' w'' ∧ Seen t w w'' h := by
  obtain ⟨nd, e, hl, hr⟩ := H
  refine ⟨w'.set h (nd, true), World.c_mark e true, prefix_set hp hl _, Vis.set e _, ?_⟩
  exact Rep.handle (get_set e _) (hr.mono (Vis.set e _))

theorem TyHole.hole {t : T} {w w' : World} {h : Handle} (H : TyHole t w w' h) (hp : w <+: w') :
    ∃ w'' : World, w''.c = w'.c ∧ w <+: w'' ∧ Vis w' w'' ∧ Hole t w w'' h := by
  cases t
  case ptr q a cls to =>
    obtain ⟨q', co, p, e, hl, hq, hc, hne, nd, e', hl', hr⟩ := H
    have hv := Vis.set e' (nd, true)
    refine ⟨w'.set p (nd, true), World.c_mark e' true, prefix_set hp hl' _, hv, ?_⟩
    exact ⟨_, by rw [get_set_ne hne]; exact e, hl, .ptr hq (hc.mono hv) (.handle (get_set e' _) (hr.mono hv))⟩
  all_goals exact ⟨w', rfl, hp, Vis.refl _, H⟩

theorem TyHole.reveal {t : T} {w w' : World} {h : Handle} (H : TyHole t w w' h) (hp : w <+: w') :
    ∃ w'' : World, w''.c = w'.c ∧ w <+: w'' ∧ Vis w' w'' ∧ Seen t w w'' h := by
  obtain ⟨w1, hc, hp1, hv, H1⟩ := H.hole hp
  obtain ⟨w2, hc2, hp2, hv2, H2⟩ := H1.reveal hp1
  exact ⟨w2, hc2.trans hc, hp2, hv.trans hv2, H2⟩

end Undname
