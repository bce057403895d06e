/-
  What a tree prints does not depend on the text before it, unless that ends in a word.
-/
import Verif.Spec.Tree

namespace Undname.Spec

/-- The effects leave the text `u` at the beginning alone. -/
structure Pref (u : Text) (p : Pr) : Prop where
  out : ∀ w, p.out (u ++ w) = u ++ p.out w
  pre : ∀ b w, p.pre b (u ++ w) = u ++ p.pre b w
  post : ∀ b w, p.post b (u ++ w) = u ++ p.post b w
  seq : ∀ s w, p.seq s (u ++ w) = u ++ p.seq s w
  tail : ∀ s w, p.tail s (u ++ w) = u ++ p.tail s w

section
variable {E : Env} {u : Text}

theorem last_cons (u : Text) (c : Char) (w : Text) : (u ++ c :: w).getLast? = (c :: w).getLast? := by
  rw [List.getLast?_append]
  cases h : (c :: w).getLast? with
  | none => simp at h
  | some => rfl

theorem sp_prefix (hu : sp E u = u) (w : Text) : sp E (u ++ w) = u ++ sp E w := by
  cases w with
  | nil => simpa [sp] using hu
  | cons c w =>
    simp only [sp, last_cons]
    split
    · split <;> simp
    · rfl

theorem ite_prefix {c : Prop} [Decidable c] {a b a' b' : Text} (h : a = u ++ a') (h' : b = u ++ b') :
    (if c then a else b) = u ++ (if c then a' else b') := by split <;> assumption

theorem Pref.ofText {f : Text → Text} (h : ∀ w, f (u ++ w) = u ++ f w) : Pref u (.ofText f) :=
  ⟨h, fun _ => h, fun _ _ => rfl, fun _ _ => rfl, fun _ _ => rfl⟩

theorem Pref.ofType {f g : Bool → Text → Text} (hf : ∀ b w, f b (u ++ w) = u ++ f b w)
    (hg : ∀ b w, g b (u ++ w) = u ++ g b w) : Pref u (.ofType f g) :=
  ⟨fun w => by simp [Pr.ofType, hf, hg], hf, hg, fun _ _ => rfl, fun _ _ => rfl⟩

theorem targs_prefix {a : Pr} (h : Pref u a) (w : Text) : targsOut a (u ++ w) = u ++ targsOut a w := by
  unfold targsOut
  refine ite_prefix ?_ rfl
  rw [List.append_assoc, h.out, List.append_assoc]

theorem conv_prefix (hu : sp E u = u) (o : Option CallingConv) {v v' : Text} (h : v = u ++ v') :
    (match o with | Option.some cc => sp E v ++ convName E cc | none => v) =
    u ++ (match o with | Option.some cc => sp E v' ++ convName E cc | none => v') := by
  subst h
  cases o with
  | none => rfl
  | some cc => simp only [sp_prefix hu, List.append_assoc]

theorem sigPre_prefix (hu : sp E u = u) {r : Pr} (h : Pref u r) (f : Sig) (b : Bool) (w : Text) :
    sigPre E f r b (u ++ w) = u ++ sigPre E f r b w := by
  unfold sigPre
  have : ∀ v : Text, (if (!E.flags.no_return_type && (b || !E.flags.name_only) && r.some) = true then r.pre false (u ++ v) ++ c!" " else u ++ v) =
      u ++ (if (!E.flags.no_return_type && (b || !E.flags.name_only) && r.some) = true then r.pre false v ++ c!" " else v) :=
    fun v => ite_prefix (by rw [h.pre, List.append_assoc]) rfl
  simp only [List.append_assoc]
  rw [this]
  exact ite_prefix (conv_prefix hu _ rfl) rfl

theorem params_prefix (hu : u.getLast? ≠ some '(') {p : Pr} (h : Pref u p) (f : Sig) (w : Text) :
    paramsOut f p (u ++ w) = u ++ paramsOut f p w := by
  have key : ∀ v : Text, ((u ++ v).getLast? == some '(') = (v.getLast? == some '(') := by
    intro v
    cases v with
    | nil =>
      rw [List.append_nil]
      have : (u.getLast? == some '(') = false := by simpa using hu
      rw [this]; rfl
    | cons => rw [last_cons]
  have e1 : (if p.some then p.out (u ++ w ++ c!"(") else (u ++ w ++ c!"(") ++ c!"void") =
      u ++ (if p.some then p.out (w ++ c!"(") else (w ++ c!"(") ++ c!"void") :=
    ite_prefix (by rw [List.append_assoc, h.out]) (by simp)
  unfold paramsOut
  simp only [e1, key]
  generalize (if p.some = true then p.out (w ++ c!"(") else w ++ c!"(" ++ c!"void") = v
  split
  · split <;> simp
  · simp

theorem sigPost_prefix (hu : u.getLast? ≠ some '(') {r p : Pr} (hr : Pref u r) (h : Pref u p) (f : Sig) (b : Bool) (w : Text) :
    sigPost E f r p b (u ++ w) = u ++ sigPost E f r p b w := by
  unfold sigPost
  have e1 : (if ((b || !E.flags.name_only) && !f.kind.bare) = true then paramsOut f p (u ++ w) else u ++ w) =
      u ++ (if ((b || !E.flags.name_only) && !f.kind.bare) = true then paramsOut f p w else w) :=
    ite_prefix (params_prefix hu h f w) rfl
  simp only [e1, List.append_assoc]
  exact ite_prefix (hr.post _ _) rfl

theorem open_prefix (hu : sp E u = u) (t : T) (w : Text) : openParen E t (u ++ w) = u ++ openParen E t w := by
  have key : ∀ o : Option CallingConv, (match o with | Option.some cc => sp E (u ++ (w ++ c!"(")) ++ (convName E cc ++ c!" ") | none => u ++ (w ++ c!"(")) =
      u ++ (match o with | Option.some cc => sp E (w ++ c!"(") ++ (convName E cc ++ c!" ") | none => w ++ c!"(") := by
    intro o
    cases o with
    | none => rfl
    | some cc => simp only [sp_prefix hu, List.append_assoc]
  unfold openParen
  split
  · simp
  · simp only [List.append_assoc]
    exact ite_prefix (key _) rfl
  · simp only [List.append_assoc]
    exact ite_prefix (key _) rfl
  · rfl

theorem addr_prefix {s : Pr} (h : Pref u s) (amp : Bool) (offs : List Int) (w : Text) :
    addrOut amp s offs (u ++ w) = u ++ addrOut amp s offs w := by
  unfold addrOut
  refine ite_prefix ?_ ?_
  · simp only [List.append_assoc]
    exact ite_prefix (h.out _) rfl
  · have : (if s.some then s.out (u ++ w ++ c!"{") ++ c!", " else u ++ w ++ c!"{") =
        u ++ (if s.some then s.out (w ++ c!"{") ++ c!", " else w ++ c!"{") :=
      ite_prefix (by rw [List.append_assoc, h.out, List.append_assoc]) (by simp)
    simp only [this]
    simp only [List.append_assoc]

/-- Printing after a text that does not end in a word. -/
theorem pr_prefix (hu : sp E u = u) (hu' : u.getLast? ≠ some '(') (t : T) : Pref u (T.pr E t) := by
  induction t with
  | nil => exact ⟨fun _ => rfl, fun _ _ => rfl, fun _ _ => rfl, fun _ _ => rfl, fun _ _ => rfl⟩
  | cons a as iha ihas =>
    refine ⟨iha.out, iha.pre, iha.post, fun s w => ?_, fun s w => ?_⟩
    · simp only [T.pr, Pr.cons, iha.out, ihas.tail]
    · simp only [T.pr, Pr.cons, List.append_assoc, iha.out, ihas.tail]
  | prim q k => exact .ofType (fun _ w => by simp) fun _ _ => rfl
  | tag q k n ih =>
    refine .ofType (fun _ w => ?_) fun _ _ => rfl
    simp only [List.append_assoc, ih.out]
  | ptr q a c t ihc iht =>
    refine .ofType (fun _ w => ?_) fun _ w => ?_
    · simp only [iht.pre, sp_prefix hu, List.append_assoc, open_prefix hu]
      split
      · rw [ihc.out]; simp
      · simp
    · simp only [List.append_assoc, iht.post]
  | array q d e ih =>
    refine .ofType (fun _ w => ?_) fun _ w => ?_
    · simp only [ih.pre, List.append_assoc]
    · simp only [List.append_assoc, ih.post]
  | sig f r p ihr ihp => exact .ofType (sigPre_prefix hu ihr f) (sigPost_prefix hu' ihr ihp f)
  | thunk f a r p ihr ihp =>
    refine .ofType (fun b w => ?_) fun b w => ?_
    · simp only [List.append_assoc, sigPre_prefix hu ihr]
    · simp only [List.append_assoc, sigPost_prefix hu' ihr ihp]
  | custom i ih => exact .ofType (fun _ w => ih.out w) fun _ _ => rfl
  | arr i ih => exact .ofText (ih.seq _)
  | qname i ih => exact .ofText (ih.seq _)
  | named s a ih => exact .ofText fun w => by simp only [List.append_assoc, targs_prefix ih]
  | op s a ih => exact .ofText fun w => by simp only [List.append_assoc, targs_prefix ih]
  | lit s a ih => exact .ofText fun w => by simp only [List.append_assoc, targs_prefix ih]
  | conv a t iha iht => exact .ofText fun w => by simp only [List.append_assoc, targs_prefix iha, iht.out]
  | structor d c a ihc iha => exact .ofText fun w => by simp only [List.append_assoc, ihc.out, targs_prefix iha]
  | vcall | guardId | baseDescr | int | str => exact .ofText fun w => by simp only [List.append_assoc]
  | dynVar d v ih => exact .ofText fun w => by simp only [List.append_assoc, ih.out]
  | dynFn d v ih => exact .ofText fun w => by simp only [List.append_assoc, ih.out]
  | addr a s o ih => exact .ofText (addr_prefix ih a o)
  | var sc n ty ihn iht =>
    refine .ofText fun w => ?_
    simp only [List.append_assoc]
    refine ite_prefix ?_ (ihn.out _)
    simp only [iht.pre, sp_prefix hu, ihn.out, iht.post]
  | typeDescr ty ih =>
    refine .ofText fun w => ?_
    simp only [ih.out]
    refine ite_prefix rfl ?_
    simp only [sp_prefix hu, List.append_assoc]
  | fn n sg ihn ihs =>
    exact .ofText fun w => by simp only [ihs.pre, sp_prefix hu, ihn.out, ihs.post]
  | table q n tg ihn iht =>
    refine .ofText fun w => ?_
    simp only [List.append_assoc, ihn.out]
    refine ite_prefix ?_ rfl
    simp only [iht.out, List.append_assoc]
  | same n ih => exact .ofText ih.out

end

end Undname.Spec
