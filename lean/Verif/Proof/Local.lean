/-
  What is printed depends on the text so far only through its last character, and what comes after the name of a
  declaration does not depend on it at all.
-/
import Verif.Proof.Grow

namespace Undname.Spec

/-- Appends something that depends on the last character of the text at most. -/
def Loc (f : Text → Text) : Prop := ∀ a w, w ≠ [] → f w ≠ [] ∧ f (a ++ w) = a ++ f w

/-- Appends a fixed text. -/
def App (f : Text → Text) : Prop := ∃ r, ∀ w, f w = w ++ r

theorem Loc.id : Loc id := fun _ _ h => ⟨h, rfl⟩

theorem Loc.comp {f g : Text → Text} (hf : Loc f) (hg : Loc g) : Loc fun w => g (f w) := by
  intro a w h
  obtain ⟨h1, h2⟩ := hf a w h
  refine ⟨(hg a _ h1).1, ?_⟩
  show g (f (a ++ w)) = a ++ g (f w)
  rw [h2]
  exact (hg a _ h1).2

theorem Loc.app (r : Text) : Loc fun w => w ++ r :=
  fun a w h => ⟨by simp [h], List.append_assoc a w r⟩

theorem Loc.ite {c : Prop} [Decidable c] {f g : Text → Text} (hf : Loc f) (hg : Loc g) : Loc fun w => if c then f w else g w := by
  intro a w h
  show (if c then f w else g w) ≠ [] ∧ (if c then f (a ++ w) else g (a ++ w)) = a ++ if c then f w else g w
  split
  · exact hf a w h
  · exact hg a w h

/-- A choice made by the last character. -/
theorem Loc.last {p : Char → Bool} {f g : Text → Text} (hf : Loc f) (hg : Loc g) :
    Loc fun w => if (w.getLast?.any p) = true then f w else g w := by
  intro a w h
  have e : (a ++ w).getLast? = w.getLast? := by
    rw [List.getLast?_append]
    cases e : w.getLast? with
    | none => exact absurd (List.getLast?_eq_none_iff.1 e) h
    | some c => rfl
  show (if (w.getLast?.any p) = true then f w else g w) ≠ [] ∧
    (if ((a ++ w).getLast?.any p) = true then f (a ++ w) else g (a ++ w)) = a ++ if (w.getLast?.any p) = true then f w else g w
  rw [e]
  split
  · exact hf a w h
  · exact hg a w h

theorem Loc.congr {f g : Text → Text} (h : Loc f) (e : ∀ w, f w = g w) : Loc g := by
  obtain rfl : f = g := funext e
  exact h

section
variable {E : Env}

theorem sp_loc : Loc (sp E) := by
  refine (Loc.last (p := isWordEnd E) (Loc.app c!" ") Loc.id).congr fun w => ?_
  unfold sp
  cases w.getLast? <;> rfl

theorem App.loc {f : Text → Text} (h : App f) : Loc f := by
  obtain ⟨r, h⟩ := h
  exact (Loc.app r).congr fun w => (h w).symm

theorem App.id : App id := ⟨[], fun w => (List.append_nil w).symm⟩
theorem App.app (r : Text) : App fun w => w ++ r := ⟨r, fun _ => rfl⟩

theorem App.comp {f g : Text → Text} (hf : App f) (hg : App g) : App fun w => g (f w) := by
  obtain ⟨r, hf⟩ := hf
  obtain ⟨q, hg⟩ := hg
  exact ⟨r ++ q, fun w => by show g (f w) = _; rw [hg, hf, List.append_assoc]⟩

theorem App.ite {c : Prop} [Decidable c] {f g : Text → Text} (hf : App f) (hg : App g) : App fun w => if c then f w else g w := by
  by_cases h : c
  · obtain ⟨r, e⟩ := hf
    exact ⟨r, fun w => by show (if c then f w else g w) = _; rw [if_pos h, e]⟩
  · obtain ⟨r, e⟩ := hg
    exact ⟨r, fun w => by show (if c then f w else g w) = _; rw [if_neg h, e]⟩

/-- After a nonempty text nothing depends on what was before it. -/
theorem App.start {f : Text → Text} {r : Text} (hr : r ≠ []) (h : Loc f) : App fun w => f (w ++ r) :=
  ⟨f r, fun w => (h w r hr).2⟩

/-- The effects depend on the last character at most, and what comes after the name on nothing. -/
structure Lcl (p : Pr) : Prop where
  out : Loc p.out
  pre : ∀ b, Loc (p.pre b)
  post : ∀ b, App (p.post b)
  seq : ∀ s, Loc (p.seq s)
  tail : ∀ s, Loc (p.tail s)

theorem Lcl.ofText {f : Text → Text} (h : Loc f) : Lcl (.ofText f) :=
  ⟨h, fun _ => h, fun _ => App.id, fun _ => Loc.id, fun _ => Loc.id⟩

theorem Lcl.ofType {f g : Bool → Text → Text} (hf : ∀ b, Loc (f b)) (hg : ∀ b, App (g b)) : Lcl (.ofType f g) :=
  ⟨(hf false).comp (hg false).loc, hf, hg, fun _ => Loc.id, fun _ => Loc.id⟩

theorem targs_loc {a : Pr} (h : Lcl a) : Loc (targsOut a) :=
  Loc.ite (((Loc.app c!"<").comp h.out).comp (Loc.app c!">")) Loc.id

theorem sigPre_loc {r : Pr} (h : Lcl r) (f : Sig) (b : Bool) : Loc (sigPre E f r b) := by
  have h1 : Loc fun w : Text => w ++ (if (!E.flags.no_access_specifier && !E.flags.name_only) = true then
    (match f.kind.access with | Option.some a => accessName a | none => []) else []) := Loc.app _
  have h2 : Loc fun w : Text => w ++ (if (!E.flags.no_member_type && !E.flags.name_only) = true then
    (if f.kind.isStatic then c!"static " else []) ++ (if f.kind.isVirtual then c!"virtual " else []) ++
    (if f.kind.externC then c!"extern \"C\" " else []) else []) := Loc.app _
  have h3 : Loc fun w : Text => if (!E.flags.no_return_type && (b || !E.flags.name_only) && r.some) = true then
    r.pre false w ++ c!" " else w := Loc.ite ((h.pre false).comp (Loc.app c!" ")) Loc.id
  have h4 : Loc fun w : Text => if (!b && !E.flags.no_calling_convention && !E.flags.no_ms_keywords && !E.flags.name_only) = true then
    (match f.conv with | Option.some cc => sp E w ++ convName E cc | none => w) else w := by
    refine Loc.ite ?_ Loc.id
    cases f.conv with
    | none => exact Loc.id
    | some cc => exact sp_loc.comp (Loc.app _)
  exact ((h1.comp h2).comp h3).comp h4

theorem params_app {p : Pr} (h : Lcl p) (f : Sig) : App (paramsOut f p) := by
  have h1 : Loc fun w : Text => if p.some then p.out w else w ++ c!"void" := Loc.ite h.out (Loc.app _)
  have h2 : Loc fun w : Text => if f.variadic then
    (if w.getLast? == Option.some '(' then w else w ++ c!", ") ++ c!"..." else w := by
    refine Loc.ite (Loc.comp ?_ (Loc.app c!"...")) Loc.id
    refine (Loc.last (p := (· == '(')) Loc.id (Loc.app c!", ")).congr fun w => ?_
    cases w.getLast? <;> simp
  exact App.start (r := c!"(") (by simp) ((h1.comp h2).comp (Loc.app c!")"))

theorem sigPost_app {r p : Pr} (hr : Lcl r) (hp : Lcl p) (f : Sig) (b : Bool) : App (sigPost E f r p b) := by
  have h1 : App fun w : Text => if ((b || !E.flags.name_only) && !f.kind.bare) = true then paramsOut f p w else w :=
    App.ite (params_app hp f) App.id
  have h5 : App fun w : Text => if (!E.flags.no_return_type && !E.flags.name_only) = true then r.post false w else w :=
    App.ite (hr.post false) App.id
  exact (((h1.comp (App.app _)).comp (App.app _)).comp (App.app _)).comp h5

theorem open_loc (t : T) : Loc (openParen E t) := by
  have key : ∀ f : Sig, Loc fun w : Text => if (!E.flags.no_calling_convention && !E.flags.no_ms_keywords) = true then
      (match f.conv with | some cc => sp E (w ++ c!"(") ++ convName E cc ++ c!" " | none => w ++ c!"(") else w ++ c!"(" := by
    intro f
    refine Loc.ite ?_ (Loc.app _)
    cases f.conv with
    | none => exact Loc.app _
    | some cc => exact (((Loc.app c!"(").comp sp_loc).comp (Loc.app _)).comp (Loc.app _)
  cases t with
  | array q d e => exact Loc.app c!"("
  | sig f r p => exact key f
  | thunk f a r p => exact key f
  | _ => exact Loc.id

theorem addr_loc {s : Pr} (h : Lcl s) (amp : Bool) (offs : List Int) : Loc (addrOut amp s offs) := by
  have h1 : Loc fun w : Text => if s.some then s.out (w ++ (if amp then c!"&" else [])) else w ++ (if amp then c!"&" else []) :=
    Loc.ite ((Loc.app _).comp h.out) (Loc.app _)
  have h2 : Loc fun w : Text => if s.some then s.out (w ++ c!"{") ++ c!", " else w ++ c!"{" :=
    Loc.ite (((Loc.app _).comp h.out).comp (Loc.app _)) (Loc.app _)
  exact Loc.ite h1 ((h2.comp (Loc.app _)).comp (Loc.app _))

theorem pr_local (t : T) : Lcl (T.pr E t) := by
  induction t with
  | nil => exact ⟨Loc.id, fun _ => Loc.id, fun _ => App.id, fun _ => Loc.id, fun _ => Loc.id⟩
  | cons a as iha ihas =>
    exact ⟨iha.out, iha.pre, iha.post, fun s => iha.out.comp (ihas.tail s),
      fun s => ((Loc.app s).comp iha.out).comp (ihas.tail s)⟩
  | prim q k => exact .ofType (fun _ => (Loc.app _).comp (Loc.app _)) fun _ => App.id
  | tag q k n ih => exact .ofType (fun _ => ((Loc.app _).comp ih.out).comp (Loc.app _)) fun _ => App.id
  | ptr q a c t ihc iht =>
    refine .ofType (fun _ => ?_) fun _ => (App.app _).comp (iht.post true)
    have h1 := (((iht.pre true).comp (sp_loc (E := E))).comp
      (Loc.app (if (!E.flags.no_ms_keywords && q.u) = true then msWord E c!"unaligned" ++ c!" " else []))).comp (open_loc (E := E) t)
    exact (h1.comp (Loc.ite (ihc.out.comp (Loc.app c!"::")) Loc.id)).comp ((Loc.app _).comp (Loc.app _))
  | array q d e ih =>
    exact .ofType (fun _ => (ih.pre false).comp (Loc.app _)) fun _ => (App.app _).comp (ih.post false)
  | sig f r p ihr ihp => exact .ofType (sigPre_loc ihr f) (sigPost_app ihr ihp f)
  | thunk f a r p ihr ihp =>
    exact .ofType (fun b => (Loc.app _).comp (sigPre_loc ihr f b)) fun b => (App.app _).comp (sigPost_app ihr ihp f b)
  | custom i ih => exact .ofType (fun _ => ih.out) fun _ => App.id
  | arr i ih => exact .ofText (ih.seq _)
  | qname i ih => exact .ofText (ih.seq _)
  | named s a ih => exact .ofText ((Loc.app _).comp (targs_loc ih))
  | op s a ih => exact .ofText ((Loc.app _).comp (targs_loc ih))
  | lit s a ih => exact .ofText (((Loc.app _).comp (Loc.app _)).comp (targs_loc ih))
  | conv a t iha iht => exact .ofText ((((Loc.app _).comp (targs_loc iha)).comp (Loc.app _)).comp iht.out)
  | structor d c a ihc iha => exact .ofText (((Loc.app _).comp ihc.out).comp (targs_loc iha))
  | vcall | guardId | baseDescr | int | str =>
    exact .ofText (Loc.congr (Loc.app _) fun w => by simp only [List.append_assoc]; rfl)
  | dynVar d v ih => exact .ofText ((((Loc.app _).comp (Loc.app _)).comp ih.out).comp (Loc.app _))
  | dynFn d v ih => exact .ofText ((((Loc.app _).comp (Loc.app _)).comp ih.out).comp (Loc.app _))
  | addr a s o ih => exact .ofText (addr_loc ih a o)
  | var sc n ty ihn iht =>
    exact .ofText ((Loc.app (storageText E sc)).comp (Loc.ite
      ((((iht.pre false).comp (sp_loc (E := E))).comp ihn.out).comp (iht.post false).loc) ihn.out))
  | typeDescr ty ih =>
    exact .ofText (ih.out.comp (Loc.ite Loc.id ((sp_loc (E := E)).comp (Loc.app c!"`RTTI Type Descriptor Name'"))))
  | fn n sg ihn ihs => exact .ofText ((((ihs.pre false).comp (sp_loc (E := E))).comp ihn.out).comp (ihs.post false).loc)
  | table q n tg ihn iht =>
    have h0 := (Loc.app (if E.flags.name_only = true then [] else q.before E)).comp ihn.out
    exact .ofText (h0.comp (Loc.ite (((Loc.app c!"{for `").comp iht.out).comp (Loc.app c!"'}")) Loc.id))
  | same n ih => exact .ofText ih.out

end

end Undname.Spec
