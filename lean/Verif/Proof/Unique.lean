/-
  A node graph represents one tree: so a name denotes one declaration.
-/
import Verif.Proof.ReadBase
import Verif.Proof.Accept

namespace Undname
open Spec (CV FnKind Sig Adjust T Tbl Gram Denotes)

theorem adjust_inj {a b : Adjust} (h : a.text = b.text) : a = b := by
  have rs : ∀ (i j : Int) (a b : Text), Spec.sint i ++ (c!", " ++ a) = Spec.sint j ++ (c!", " ++ b) → i = j ∧ a = b := by
    intro i j a b e
    obtain ⟨e1, e2⟩ := Spec.Cxx.sint_read (.cons (by decide)) (.cons (by decide)) e
    exact ⟨e1, List.append_cancel_left (as := c!", ") e2⟩
  have rn : ∀ m n : Nat, Spec.nat m ++ c!"}'" = Spec.nat n ++ c!"}'" → m = n := fun m n e =>
    Spec.Cxx.nat_inj (List.append_cancel_right e)
  cases a <;> cases b <;> simp only [Adjust.text, List.append_assoc] at h
  · rfl
  · cases h
  · cases h
  · cases h
  · cases h
  · rw [rn _ _ (List.append_cancel_left h)]
  · simp at h
  · simp at h
  · cases h
  · simp at h
  · obtain ⟨e1, e2⟩ := rs _ _ _ _ (List.append_cancel_left h)
    rw [e1, rn _ _ e2]
  · simp at h
  · cases h
  · simp at h
  · simp at h
  · obtain ⟨e1, e2⟩ := rs _ _ _ _ (List.append_cancel_left h)
    obtain ⟨e3, e4⟩ := rs _ _ _ _ e2
    obtain ⟨e5, e6⟩ := rs _ _ _ _ e4
    rw [e1, e3, e5, rn _ _ e6]

theorem QRel.unique {q : Qualifiers} {a b : CV} (h : QRel q a) (h' : QRel q b) : a = b := by
  obtain ⟨c, v, r, u⟩ := a
  obtain ⟨c', v', r', u'⟩ := b
  have h1 := h.c.symm.trans h'.c
  have h2 := h.v.symm.trans h'.v
  have h3 := h.r.symm.trans h'.r
  have h4 := h.u.symm.trans h'.u
  simp only at h1 h2 h3 h4
  subst h1 h2 h3 h4
  rfl

theorem KRel.unique {q : FuncClass} {a b : FnKind} (h : KRel q a) (h' : KRel q b) : a = b := by
  have h0 : a.access = b.access := by
    have h1 := h.publ.symm.trans h'.publ
    have h2 := h.prot.symm.trans h'.prot
    have h3 := h.priv.symm.trans h'.priv
    revert h1 h2 h3
    cases a.access with
    | none =>
      cases b.access with
      | none => simp
      | some y => cases y <;> simp
    | some x =>
      cases b.access with
      | none => cases x <;> simp
      | some y => cases x <;> cases y <;> simp
  have h1 := h.stat.symm.trans h'.stat
  have h2 := h.virt.symm.trans h'.virt
  have h3 := h.extc.symm.trans h'.extc
  have h4 := h.bare.symm.trans h'.bare
  cases a; cases b
  simp only at h0 h1 h2 h3 h4
  subst h0 h1 h2 h3 h4
  rfl

theorem SRel.unique {n : FuncSig} {a b : Sig} (h : SRel n a) (h' : SRel n b) : a = b := by
  have h1 := h.kind.unique h'.kind
  have h2 := h.cv.unique h'.cv
  have h3 := h.conv.symm.trans h'.conv
  have h4 := h.ref.symm.trans h'.ref
  have h5 := h.variadic.symm.trans h'.variadic
  have h6 := h.noexc.symm.trans h'.noexc
  cases a; cases b
  simp only at h1 h2 h3 h4 h5 h6
  subst h1 h2 h3 h4 h5 h6
  rfl

theorem node_unique {w w' : World} (hw : w.c = w'.c) {h : Handle} {a b : Node} {x y : Bool} (e : w[h]? = some (a, x))
    (e' : w'[h]? = some (b, y)) : a = b := by
  have h1 := World.c_get e
  have h2 := World.c_get e'
  rw [hw, h2] at h1
  exact (Option.some.inj h1).symm

theorem Ints.unique {w w' : World} (hw : w.c = w'.c) : ∀ {ns ms : List Nat} {hs : List Handle}, Ints w ns hs → Ints w' ms hs → ns = ms
  | [], [], [], _, _ => rfl
  | n :: ns, m :: ms, h :: hs, a, b => by
    have := node_unique hw a.1 b.1
    injection this with e
    rw [e, Ints.unique hw a.2 b.2]
  | [], _, _ :: _, h, _ => h.elim
  | _, [], _ :: _, _, h => h.elim
  | _ :: _, _, [], h, _ => h.elim
  | _, _ :: _, [], _, h => h.elim

/-- An object stands for one tree. -/
theorem Rep.unique {w w' : World} (hw : w.c = w'.c) {t t' : T} {o : Obj} (h : Rep w t o) (h' : Rep w' t' o) : t = t' := by
  induction h generalizing t' with
  | nil => cases h'; rfl
  | cons _ _ ih1 ih2 => cases h' with | cons a b => rw [ih1 a, ih2 b]
  | handle e _ ih =>
    cases h' with
    | handle e' a =>
      obtain rfl := node_unique hw e e'
      exact ih a
  | prim q => cases h' with | prim q' => rw [q.unique q']
  | tag q _ ih => cases h' with | tag q' a => rw [q.unique q', ih a]
  | ptr q _ _ ih1 ih2 => cases h' with | ptr q' a b => rw [q.unique q', ih1 a, ih2 b]
  | array q e d _ ih =>
    cases h' with
    | array q' e' d' a =>
      have := node_unique hw e e'
      injection this with this
      subst this
      rw [q.unique q', ih a, d.unique hw d']
  | sig s _ _ ih1 ih2 => cases h' with | sig s' a b => rw [s.unique s', ih1 a, ih2 b]
  | thunk s e _ _ ih1 ih2 => cases h' with | thunk s' e' a b => rw [s.unique s', adjust_inj (e.symm.trans e'), ih1 a, ih2 b]
  | custom _ ih => cases h' with | custom a => rw [ih a]
  | arr _ ih => cases h' with | arr a => rw [ih a]
  | qname e _ ih =>
    cases h' with
    | qname e' a =>
      have := node_unique hw e e'
      injection this with this
      subst this
      rw [ih a]
  | named _ ih => cases h' with | named a => rw [ih a]
  | op _ ih => cases h' with | op a => rw [ih a]
  | lit _ ih => cases h' with | lit a => rw [ih a]
  | conv _ _ ih1 ih2 => cases h' with | conv a b => rw [ih1 a, ih2 b]
  | structor _ _ ih1 ih2 => cases h' with | structor a b => rw [ih1 a, ih2 b]
  | vcall => cases h'; rfl
  | guardId => cases h'; rfl
  | baseDescr => cases h'; rfl
  | dynVar _ ih => cases h' with | dynVar a => rw [ih a]
  | dynFn _ ih => cases h' with | dynFn a => rw [ih a]
  | addr _ ih => cases h' with | addr a => rw [ih a]
  | int => cases h'; rfl
  | var _ _ ih1 ih2 => cases h' with | var a b => rw [ih1 a, ih2 b]
  | typeDescr _ ih => cases h' with | typeDescr a => rw [ih a]
  | fn _ _ ih1 ih2 => cases h' with | fn a b => rw [ih1 a, ih2 b]
  | table q _ _ ih1 ih2 => cases h' with | table q' a b => rw [q.unique q', ih1 a, ih2 b]
  | md5 _ ih => cases h' with | md5 a => rw [ih a]
  | gvar _ ih => cases h' with | gvar a => rw [ih a]
  | str => cases h'; rfl

theorem sim_rep {E : Env} {m rest : Text} {t : T} {Q : World → Handle → Prop} {tb' : Tbl}
    (h : Sim (fns (render E) (m.length + 1)).parse (mk m [] [] []) (Reach [] tb' rest Q)) (hq : ∀ (w : World) h, Q w h → Rep w t (.H h))
    (hm : demangle E m ≠ .ok (.error .MaliciousInput)) :
    ∃ (w : World) (hd : Handle) (ns ps : List Handle), parse (render E) m = .ok (hd, mk rest w.c ns ps) ∧ Rep w t (.H hd) := by
  have hp : parse (render E) m = exec (fns (render E) (m.length + 1)).parse (mk m [] [] []) := rfl
  unfold Sim at h
  rw [← hp] at h
  cases e : parse (render E) m with
  | error f =>
    exfalso
    rw [e] at h
    cases f with
    | crash c =>
      refine (Props.no_crash E m [] c).2 ?_
      unfold demangle demangle_into parse_into
      rw [e]
    | err e' =>
      have h' : e' = .MaliciousInput := h
      subst h'
      exact hm (demangle_error e)
  | ok p =>
    rw [e] at h
    obtain ⟨hd, s⟩ := p
    obtain ⟨w, ns, ps, rfl, _, _, h⟩ := h
    exact ⟨w, hd, ns, ps, rfl, hq w hd h⟩

theorem sym_rep {E : Env} {x : Text} {t : T} {tb' : Tbl} (h : Gram E .sym {} t x tb') (rest : Text)
    (hm : demangle E (x ++ rest) ≠ .ok (.error .MaliciousInput)) :
    ∃ (w : World) (hd : Handle) (ns ps : List Handle), parse (render E) (x ++ rest) = .ok (hd, mk rest w.c ns ps) ∧ Rep w t (.H hd) :=
  sim_rep ((gram_reads h : MSym E {} t x tb').run _ rest [] [] [] (Tab.empty _)) (fun _ _ h => h) hm

/-- A name that denotes `t` is parsed to a representation of `t`, unless it is refused as malicious. -/
theorem denotes_rep {E : Env} {m : Text} {t : T} (h : Denotes E m t) (hm : demangle E m ≠ .ok (.error .MaliciousInput)) :
    ∃ (w : World) (hd : Handle) (rest : Text) (ns ps : List Handle), parse (render E) m = .ok (hd, mk rest w.c ns ps) ∧ Rep w t (.H hd) := by
  rcases h with ⟨x, rest, tb', rfl, h⟩ | ⟨tb', h⟩ | ⟨u, rest, rfl, h1, h2, rfl⟩
  · obtain ⟨w, hd, ns, ps, h⟩ := sym_rep h rest hm
    exact ⟨w, hd, rest, ns, ps, h⟩
  · have := (gram_reads h : MSymEnd E {} t m tb') (m.length + 1) [] [] [] (Tab.empty _)
    rw [List.append_nil] at this
    obtain ⟨w, hd, ns, ps, h⟩ := sim_rep this (fun _ _ h => h) hm
    exact ⟨w, hd, [], ns, ps, h⟩
  · obtain ⟨w, hd, ns, ps, h⟩ := sim_rep (hash_run h1 h2 _ [] [] [] (Tab.empty _)) (fun _ _ h => h) hm
    exact ⟨w, hd, _, ns, ps, h⟩

/-- A name denotes one declaration. -/
theorem denotes_unique {E : Env} {m : Text} {t t' : T} (h : Denotes E m t) (h' : Denotes E m t')
    (hm : demangle E m ≠ .ok (.error .MaliciousInput)) : t = t' := by
  obtain ⟨w, hd, _, _, _, e, r⟩ := denotes_rep h hm
  obtain ⟨w', hd', _, _, _, e', r'⟩ := denotes_rep h' hm
  rw [e] at e'
  have e2 := Prod.mk.inj (Except.ok.inj e')
  obtain rfl := e2.1
  exact r.unique (congrArg St.cache e2.2) r'

end Undname
