/-
  Printing only appends.
-/
import Verif.Spec.Tree

namespace Undname.Spec

/-- The effects append to the text. -/
structure Grow (p : Pr) : Prop where
  out : ∀ w, w <+: p.out w
  pre : ∀ b w, w <+: p.pre b w
  post : ∀ b w, w <+: p.post b w
  seq : ∀ s w, w <+: p.seq s w
  tail : ∀ s w, w <+: p.tail s w

section
variable {E : Env}

theorem pfx_app {w v : Text} (a : Text) (h : w <+: v) : w <+: v ++ a := h.trans (List.prefix_append v a)

theorem sp_grow (w : Text) : w <+: sp E w := by
  unfold sp
  split
  · split
    · exact List.prefix_append _ _
    · exact List.prefix_refl _
  · exact List.prefix_refl _

theorem Grow.ofText {f : Text → Text} (h : ∀ w, w <+: f w) : Grow (.ofText f) :=
  ⟨h, fun _ => h, fun _ _ => List.prefix_refl _, fun _ _ => List.prefix_refl _, fun _ _ => List.prefix_refl _⟩

theorem Grow.ofType {f g : Bool → Text → Text} (hf : ∀ b w, w <+: f b w) (hg : ∀ b w, w <+: g b w) : Grow (.ofType f g) :=
  ⟨fun w => (hf false w).trans (hg false _), hf, hg, fun _ _ => List.prefix_refl _, fun _ _ => List.prefix_refl _⟩

theorem ite_grow {c : Prop} [Decidable c] {w a b : Text} (h : w <+: a) (h' : w <+: b) : w <+: (if c then a else b) := by
  split <;> assumption

theorem targs_grow {a : Pr} (h : Grow a) (w : Text) : w <+: targsOut a w :=
  ite_grow (pfx_app _ ((pfx_app _ (List.prefix_refl _)).trans (h.out _))) (List.prefix_refl _)

theorem sigPre_grow {r : Pr} (h : Grow r) (f : Sig) (b : Bool) (w : Text) : w <+: sigPre E f r b w := by
  unfold sigPre
  dsimp only
  generalize hv : w ++ (if (!E.flags.no_access_specifier && !E.flags.name_only) = true then
    (match f.kind.access with | Option.some a => accessName a | none => []) else []) = v
  generalize hu : v ++ (if (!E.flags.no_member_type && !E.flags.name_only) = true then
    (if f.kind.isStatic then c!"static " else []) ++ (if f.kind.isVirtual then c!"virtual " else []) ++
    (if f.kind.externC then c!"extern \"C\" " else []) else []) = u
  have h1 : w <+: u := by subst hu hv; exact pfx_app _ (pfx_app _ (List.prefix_refl _))
  generalize ht : (if (!E.flags.no_return_type && (b || !E.flags.name_only) && r.some) = true then r.pre false u ++ c!" " else u) = t
  have h2 : w <+: t := by subst ht; exact ite_grow (pfx_app _ (h1.trans (h.pre _ _))) h1
  refine ite_grow ?_ h2
  split
  · exact pfx_app _ (h2.trans (sp_grow _))
  · exact h2

theorem params_grow {p : Pr} (h : Grow p) (f : Sig) (w : Text) : w <+: paramsOut f p w := by
  unfold paramsOut
  dsimp only
  have h0 : w <+: w ++ c!"(" := pfx_app _ (List.prefix_refl _)
  refine pfx_app _ (ite_grow (pfx_app _ (ite_grow ?_ (pfx_app _ ?_))) ?_) <;> exact ite_grow (h0.trans (h.out _)) (pfx_app _ h0)

theorem sigPost_grow {r p : Pr} (hr : Grow r) (hp : Grow p) (f : Sig) (b : Bool) (w : Text) : w <+: sigPost E f r p b w := by
  unfold sigPost
  dsimp only
  refine ite_grow (List.IsPrefix.trans ?_ (hr.post _ _)) ?_ <;>
    exact pfx_app _ (pfx_app _ (pfx_app _ (ite_grow (params_grow hp f w) (List.prefix_refl _))))

theorem open_grow (t : T) (w : Text) : w <+: openParen E t w := by
  have h0 : w <+: w ++ c!"(" := pfx_app _ (List.prefix_refl _)
  unfold openParen
  split
  · exact h0
  · refine ite_grow ?_ h0
    split
    · exact pfx_app _ (pfx_app _ (h0.trans (sp_grow _)))
    · exact h0
  · refine ite_grow ?_ h0
    split
    · exact pfx_app _ (pfx_app _ (h0.trans (sp_grow _)))
    · exact h0
  · exact List.prefix_refl _

theorem addr_grow {s : Pr} (h : Grow s) (amp : Bool) (offs : List Int) (w : Text) : w <+: addrOut amp s offs w := by
  unfold addrOut
  dsimp only
  refine ite_grow (ite_grow ((pfx_app _ (List.prefix_refl _)).trans (h.out _)) (pfx_app _ (List.prefix_refl _))) ?_
  refine pfx_app _ (pfx_app _ (ite_grow (pfx_app _ ((pfx_app _ (List.prefix_refl _)).trans (h.out _))) (pfx_app _ (List.prefix_refl _))))

theorem pr_grow (t : T) : Grow (T.pr E t) := by
  have rfl' : ∀ w : Text, w <+: w := List.prefix_refl
  induction t with
  | nil => exact ⟨rfl', fun _ => rfl', fun _ => rfl', fun _ => rfl', fun _ => rfl'⟩
  | cons a as iha ihas =>
    exact ⟨iha.out, iha.pre, iha.post, fun s w => (iha.out w).trans (ihas.tail _ _),
      fun s w => ((pfx_app _ (rfl' w)).trans (iha.out _)).trans (ihas.tail _ _)⟩
  | prim q k => exact .ofType (fun _ w => pfx_app _ (pfx_app _ (rfl' w))) fun _ => rfl'
  | tag q k n ih => exact .ofType (fun _ w => pfx_app _ ((pfx_app _ (rfl' w)).trans (ih.out _))) fun _ => rfl'
  | ptr q a c t ihc iht =>
    refine .ofType (fun _ w => ?_) fun _ w => (pfx_app _ (rfl' w)).trans (iht.post _ _)
    dsimp only
    generalize hv : sp E ((T.pr E t).pre true w) ++
      (if (!E.flags.no_ms_keywords && q.u) = true then msWord E c!"unaligned" ++ c!" " else []) = v
    have h1 : w <+: v := by subst hv; exact pfx_app _ ((iht.pre true w).trans (sp_grow _))
    have h2 := h1.trans (open_grow (E := E) t v)
    exact pfx_app _ (pfx_app _ (ite_grow (pfx_app _ (h2.trans (ihc.out _))) h2))
  | array q d e ih =>
    exact .ofType (fun _ w => pfx_app _ (ih.pre _ _)) fun _ w => (pfx_app _ (rfl' w)).trans (ih.post _ _)
  | sig f r p ihr ihp => exact .ofType (sigPre_grow ihr f) (sigPost_grow ihr ihp f)
  | thunk f a r p ihr ihp =>
    exact .ofType (fun b w => (pfx_app _ (rfl' w)).trans (sigPre_grow ihr f b _))
      fun b w => (pfx_app _ (rfl' w)).trans (sigPost_grow ihr ihp f b _)
  | custom i ih => exact .ofType (fun _ w => ih.out w) fun _ => rfl'
  | arr i ih => exact .ofText (ih.seq _)
  | qname i ih => exact .ofText (ih.seq _)
  | named s a ih => exact .ofText fun w => (pfx_app _ (rfl' w)).trans (targs_grow ih _)
  | op s a ih => exact .ofText fun w => (pfx_app _ (rfl' w)).trans (targs_grow ih _)
  | lit s a ih => exact .ofText fun w => (pfx_app _ (pfx_app _ (rfl' w))).trans (targs_grow ih _)
  | conv a t iha iht => exact .ofText fun w => (pfx_app _ ((pfx_app _ (rfl' w)).trans (targs_grow iha _))).trans (iht.out _)
  | structor d c a ihc iha => exact .ofText fun w => ((pfx_app _ (rfl' w)).trans (ihc.out _)).trans (targs_grow iha _)
  | vcall | guardId | baseDescr | int | str => exact .ofText fun w => by simp only [List.append_assoc]; exact pfx_app _ (rfl' w)
  | dynVar d v ih => exact .ofText fun w => pfx_app _ ((pfx_app _ (pfx_app _ (rfl' w))).trans (ih.out _))
  | dynFn d v ih => exact .ofText fun w => pfx_app _ ((pfx_app _ (pfx_app _ (rfl' w))).trans (ih.out _))
  | addr a s o ih => exact .ofText (addr_grow ih a o)
  | var sc n ty ihn iht =>
    refine .ofText fun w => ?_
    dsimp only
    have h := pfx_app (storageText E sc) (rfl' w)
    exact ite_grow ((((h.trans (iht.pre _ _)).trans (sp_grow _)).trans (ihn.out _)).trans (iht.post _ _)) (h.trans (ihn.out _))
  | typeDescr ty ih =>
    exact .ofText fun w => ite_grow (ih.out _) (pfx_app _ ((ih.out _).trans (sp_grow _)))
  | fn n sg ihn ihs => exact .ofText fun w => (((ihs.pre _ _).trans (sp_grow _)).trans (ihn.out _)).trans (ihs.post _ _)
  | table q n tg ihn iht =>
    refine .ofText fun w => ?_
    dsimp only
    have h := (pfx_app (if E.flags.name_only = true then [] else q.before E) (rfl' w)).trans (ihn.out _)
    exact ite_grow (pfx_app _ ((pfx_app _ h).trans (iht.out _))) h
  | same n ih => exact .ofText ih.out

end

end Undname.Spec
