/-
  Rendering the representation of a tree writes the text of the tree.
-/
import Verif.Proof.Rep

namespace Undname
open Spec (CV FnKind Sig Adjust Pr Access T isWordEnd)

section
variable (E : Env) (c : Cache)

/-- Rendering the node has the effects `p`. -/
structure NEm (p : Pr) (nd : Node) : Prop where
  out : ∀ n, Em (outNode E c (outFns E c n) nd) p.out
  pre : ∀ n, Em (preNode E c (outFns E c n) nd) (p.pre false)
  post : ∀ n, Em (postNode E c (outFns E c n) nd) (p.post false)
  ppre : ∀ n h, c[h]? = some nd → Em (pointeePre E (outFns E c n) h nd) (p.pre true)
  ppost : ∀ n h, c[h]? = some nd → Em (pointeePost E (outFns E c n) h nd) (p.post true)

/-- Rendering at the handle has the effects `p`. -/
def HEm (p : Pr) (h : Handle) : Prop := ∃ nd, c[h]? = some nd ∧ NEm E c p nd

/-- Rendering the list has the effects `p`. -/
structure LEm (p : Pr) (hs : List Handle) : Prop where
  seq : ∀ n sep, Em (sepBy sep ((outFns E c n).out .INode) hs) (p.seq sep)
  tail : ∀ n sep, Em (sepBy.rest sep ((outFns E c n).out .INode) hs) (p.tail sep)
  none : hs = [] → p.some = false ∧ p.out = id ∧ p.pre = (fun _ => id) ∧ p.post = fun _ => id
  one : ∀ h, hs = [h] → p.some = true ∧ HEm E c p h

variable {E c}

theorem resolve_no_err (k : Kind) (c : Cache) (h : Handle) (e : Error) : resolve k c h ≠ .error (.err e) := by
  unfold resolve
  split
  · split <;> simp
  · simp

theorem resolve_eq {k : Kind} {h : Handle} {nd nd' : Node} (e : c[h]? = some nd) (r : resolve k c h = .ok nd') :
    nd' = nd := by
  unfold resolve at r
  rw [e] at r
  simp only at r
  split at r
  · cases r; rfl
  · cases r

theorem Em.resolve {k : Kind} {h : Handle} {nd : Node} {j : Node → W Unit} {f : Text → Text}
    (e : c[h]? = some nd) (hj : Em (j nd) f) : Em (SM.lift (resolve k c h) >>= j) f :=
  Em.lift (resolve_no_err k c h) hj.grow fun _ hv => resolve_eq e hv ▸ hj

namespace HEm
variable {p : Pr} {h : Handle}

theorem out (H : HEm E c p h) (n : Nat) (k : Kind) : Em ((outFns E c n).out k h) p.out := by
  obtain ⟨nd, e, N⟩ := H
  cases n with
  | zero => exact Em.crash _ (N.out 0).grow
  | succ n => exact Em.resolve e (N.out n)

theorem pre (H : HEm E c p h) (n : Nat) (k : Kind) : Em ((outFns E c n).pre k h) (p.pre false) := by
  obtain ⟨nd, e, N⟩ := H
  cases n with
  | zero => exact Em.crash _ (N.pre 0).grow
  | succ n => exact Em.resolve e (N.pre n)

theorem post (H : HEm E c p h) (n : Nat) (k : Kind) : Em ((outFns E c n).post k h) (p.post false) := by
  obtain ⟨nd, e, N⟩ := H
  cases n with
  | zero => exact Em.crash _ (N.post 0).grow
  | succ n => exact Em.resolve e (N.post n)

end HEm

namespace LEm
variable {p : Pr} {o : Option Handle}

theorem out (H : LEm E c p o.toList) (n : Nat) (k : Kind) :
    Em (whenSome o ((outFns E c n).out k)) p.out := by
  cases o with
  | none => rw [(H.none rfl).2.1]; exact Em.id
  | some h => exact (H.one h rfl).2.out n k

theorem pre (H : LEm E c p o.toList) (n : Nat) (k : Kind) :
    Em (whenSome o ((outFns E c n).pre k)) (p.pre false) := by
  cases o with
  | none => rw [(H.none rfl).2.2.1]; exact Em.id
  | some h => exact (H.one h rfl).2.pre n k

theorem post (H : LEm E c p o.toList) (n : Nat) (k : Kind) :
    Em (whenSome o ((outFns E c n).post k)) (p.post false) := by
  cases o with
  | none => rw [(H.none rfl).2.2.2]; exact Em.id
  | some h => exact (H.one h rfl).2.post n k

/-- An optional part with something around it. -/
theorem opt (H : LEm E c p o.toList) {j : Handle → W Unit} {f : Text → Text}
    (h : ∀ x, o = some x → HEm E c p x → Em (j x) f) : Em (whenSome o j) (fun w => if p.some then f w else w) := by
  cases o with
  | none => rw [(H.none rfl).1]; exact Em.id
  | some x => rw [(H.one x rfl).1]; exact h x rfl (H.one x rfl).2

theorem targs (H : LEm E c p o.toList) (n : Nat) :
    Em (templateParams (outFns E c n) o) (Spec.targsOut p) := by
  refine (H.opt (f := fun w => p.out (w ++ c!"<") ++ c!">") fun x _ hx => ?_).congr fun w => ?_
  · exact Em.bind' (Em.write _) (Em.bind (hx.out n _) (Em.write _)) fun _ => rfl
  · rfl

end LEm

end

/-! ### Qualifiers -/

theorem qrel_none_words {q : Qualifiers} {cv : CV} (E : Env) (h : QRel q cv) (hq : (q != Qualifiers.Q_None) = false) :
    cv.words E = [] := by
  have : q = Qualifiers.Q_None := by simpa using hq
  subst this
  have h1 : cv.c = false := h.c.symm
  have h2 : cv.v = false := h.v.symm
  have h3 : cv.r = false := h.r.symm
  simp [CV.words, h1, h2, h3]

/-- The word for a qualifier. -/
def singleText (E : Env) : Qualifiers.SingleQualifier → Text
  | .Const => c!"const"
  | .Volatile => c!"volatile"
  | .Restrict => if E.flags.no_ms_keywords then [] else Spec.msWord E c!"restrict"

theorem Em.output_single (E : Env) (m : Qualifiers.SingleQualifier) :
    Em (Qualifiers.output_single_qualifier E m) (· ++ singleText E m) := by
  cases m with
  | Const => exact Em.write _
  | Volatile => exact Em.write _
  | Restrict =>
    unfold Qualifiers.output_single_qualifier
    by_cases h : E.flags.no_ms_keywords = true
    · simp only [h, if_true, singleText]; exact Em.id.congr fun w => by simp
    · simp only [h, singleText]
      by_cases h2 : E.flags.no_leading_underscores = true
      · simp only [h2, if_true, Spec.msWord]; exact Em.write _
      · simp only [h2, Spec.msWord]; exact Em.write _

/-- A writer with a result. -/
structure EmB (m : W Bool) (f : Text → Text) (b : Bool) : Prop where
  grow : ∀ w, w <+: f w
  run : ∀ w, utf8Len w < OUTPUT_LIMIT → match exec m w with
    | .ok (b', w') => b' = b ∧ w' = f w ∧ utf8Len (f w) < OUTPUT_LIMIT
    | .error (.crash _) => True
    | .error (.err e) => e = .Io .OutOfMemory ∧ ¬ utf8Len (f w) < OUTPUT_LIMIT

theorem EmB.bind {m : W Bool} {k : Bool → W Unit} {f g : Text → Text} {b : Bool} (h1 : EmB m f b) (h2 : Em (k b) g) :
    Em (m >>= k) (fun w => g (f w)) where
  grow w := (h1.grow w).trans (h2.grow _)
  run w hw := by
    have a := h1.run w hw
    rw [run_bind_eq]
    cases hm : exec m w with
    | ok p =>
      obtain ⟨b', w'⟩ := p
      rw [hm] at a
      obtain ⟨rfl, rfl, ha⟩ := a
      exact h2.run _ ha
    | error e =>
      rw [hm] at a
      cases e with
      | crash c => trivial
      | err e =>
        refine ⟨a.1, fun h => a.2 ?_⟩
        exact Nat.lt_of_le_of_lt (utf8Len_prefix (h2.grow (f w))) h

theorem EmB.of {m : W Unit} {f : Text → Text} {b : Bool} (h : Em m f) : EmB (m >>= fun _ => pure b) f b where
  grow := h.grow
  run w hw := by
    have a := h.run w hw
    rw [run_bind_eq]
    cases hm : exec m w with
    | ok p =>
      obtain ⟨⟨⟩, w'⟩ := p
      rw [hm] at a
      exact ⟨rfl, a⟩
    | error e =>
      rw [hm] at a
      cases e with
      | crash c => trivial
      | err e => exact a

theorem EmB.pure (b : Bool) : EmB (Pure.pure b) (fun w => w) b :=
  ⟨fun _ => List.prefix_refl _, fun _ h => ⟨rfl, rfl, h⟩⟩

theorem EmB.congr {m : W Bool} {f g : Text → Text} {b : Bool} (h : EmB m f b) (e : ∀ w, f w = g w) : EmB m g b := by
  have : f = g := funext e
  exact this ▸ h

theorem SM.bind_assoc' {σ α β γ : Type} (m : SM σ α) (f : α → SM σ β) (g : β → SM σ γ) :
    (m >>= f) >>= g = m >>= fun a => f a >>= g := by
  funext s
  show SM.bind (SM.bind m f) g s = SM.bind m (fun a => SM.bind (f a) g) s
  unfold SM.bind
  cases m s <;> rfl

theorem EmB.present (E : Env) (q : Qualifiers) (m : Qualifiers.SingleQualifier) (sb x : Bool)
    (hx : Qualifiers.has q m.mask = x) :
    EmB (Qualifiers.output_if_present E q m sb)
      (· ++ if x then (if sb then c!" " else []) ++ singleText E m else []) (x || sb) := by
  unfold Qualifiers.output_if_present
  rw [hx]
  cases x with
  | true =>
    have := EmB.of (b := true) (Em.bind (k := fun _ => Qualifiers.output_single_qualifier E m)
      (Em.whenB_text (b := sb) c!" ") (Em.output_single E m))
    rw [SM.bind_assoc'] at this
    exact this.congr fun w => by simp
  | false =>
    exact (EmB.pure sb).congr fun w => by simp

theorem qualsOut (E : Env) {q : Qualifiers} {cv : CV} (h : QRel q cv) (sb sa : Bool) :
    Em (Qualifiers.output E q sb sa) (· ++ ((if sb then cv.after E else cv.sep E) ++
      (if sa && !(if sb then cv.after E else cv.sep E).isEmpty then c!" " else []))) := by
  unfold Qualifiers.output
  by_cases hq : (q != Qualifiers.Q_None) = false
  · have hw := qrel_none_words E h hq
    rw [hq]
    refine Em.id.congr fun w => ?_
    simp [CV.after, CV.sep, hw]
  rw [Bool.not_eq_false] at hq
  rw [hq]
  simp only [run_whenB_true]
  refine Em.get (fun w => List.prefix_append _ _) fun w => ?_
  let txt : Text := if sb then cv.after E else cv.sep E
  refine ⟨fun x => x ++ txt ++ (if sa && utf8Len w < utf8Len (x ++ txt) then c!" " else []), ?_, ?_⟩
  · have : (utf8Len w < utf8Len (w ++ txt)) ↔ ¬ txt.isEmpty = true := by
      rw [Emit.utf8Len_append]
      cases txt with
      | nil => simp [utf8Len]
      | cons a as =>
        have := Char.utf8Size_pos a
        simp [utf8Len]; omega
    simp only [this, txt]
    simp
  · refine Em.congr (EmB.bind (EmB.present E q .Const sb cv.c h.c) (EmB.bind (EmB.present E q .Volatile _ cv.v h.v)
      (EmB.bind (EmB.present E q .Restrict _ cv.r h.r) (g := fun x => x ++ (if sa && utf8Len w < utf8Len x then c!" " else []))
        (Em.get (fun w => List.prefix_append _ _) fun w' => ⟨fun x => x ++ (if sa && utf8Len w < utf8Len w' then c!" " else []), rfl, Em.whenB_text _⟩)))) fun x => ?_
    have : ∀ x : Text, x ++ txt = x ++ (if cv.c then (if sb then c!" " else []) ++ c!"const" else []) ++
      (if cv.v then (if (cv.c || sb) then c!" " else []) ++ c!"volatile" else []) ++
      (if cv.r then (if (cv.v || (cv.c || sb)) then c!" " else []) ++ (if E.flags.no_ms_keywords then [] else Spec.msWord E c!"restrict") else []) := by
      intro x
      simp only [txt, CV.after, CV.sep, CV.words]
      cases cv.c <;> cases cv.v <;> cases cv.r <;> cases sb <;> simp
    simp only [this, singleText]
    rfl

theorem convText (E : Env) (cc : CallingConv) : cc.text E.flags.no_leading_underscores = Spec.convName E cc := by
  unfold CallingConv.text Spec.convName Spec.msWord
  cases cc <;> split <;> rfl

theorem em_conv (E : Env) (cc : CallingConv) : Em (cc.output E) (fun w => Spec.sp E w ++ Spec.convName E cc) := by
  unfold CallingConv.output
  rw [convText]
  exact Em.bind' (Em.sp E) (Em.write _) fun _ => rfl

theorem decInt_eq (i : Int) : decInt i = Spec.sint i := by
  unfold decInt Spec.sint
  cases i with
  | ofNat n => rw [if_neg (by simp)]; rfl
  | negSucc n => rw [if_pos (by omega)]; rfl

section
variable {E : Env} {c : Cache} {n : FuncSig} {f : Sig} {ret ps : Pr}

theorem em_funcPre (S : SRel n f) (R : LEm E c ret n.return_type.toList) (k : Nat) (fp : Bool) :
    Em (funcPre E (outFns E c k) n fp) (Spec.sigPre E f ret fp) := by
  unfold Undname.funcPre
  refine Em.bind' (f := fun w => w ++ (if !E.flags.no_access_specifier && !E.flags.name_only then
      (match f.kind.access with | some a => Spec.accessName a | none => []) else [])) ?_
    (Em.bind (f := fun w => w ++ (if !E.flags.no_member_type && !E.flags.name_only then
      (if f.kind.isStatic then c!"static " else []) ++ (if f.kind.isVirtual then c!"virtual " else []) ++
      (if f.kind.externC then c!"extern \"C\" " else []) else [])) ?_
    (Em.bind (f := fun w => if !E.flags.no_return_type && (fp || !E.flags.name_only) && ret.some then
      ret.pre false w ++ c!" " else w) ?_
      (g := fun w => if !fp && !E.flags.no_calling_convention && !E.flags.no_ms_keywords && !E.flags.name_only then
        (match f.conv with | some cc => Spec.sp E w ++ Spec.convName E cc | none => w) else w) ?_)) fun w => rfl
  · cases hc : (!E.flags.no_access_specifier && !E.flags.name_only) with
    | false => exact Em.id.congr fun w => by simp
    | true =>
      refine Em.bind' (Em.whenB_text _) (Em.bind (Em.whenB_text _) (Em.whenB_text _)) fun w => ?_
      rw [S.kind.publ, S.kind.prot, S.kind.priv]
      cases f.kind.access with
      | none => simp
      | some a => cases a <;> simp [Spec.accessName]
  · cases hc : (!E.flags.no_member_type && !E.flags.name_only) with
    | false => exact Em.id.congr fun w => by simp
    | true =>
      refine Em.bind' (Em.whenB_text _) (Em.bind (Em.whenB_text _) (Em.whenB_text _)) fun w => ?_
      rw [S.kind.stat, S.kind.virt, S.kind.extc]
      simp
  · cases hc : (!E.flags.no_return_type && (fp || !E.flags.name_only)) with
    | false => exact Em.id.congr fun w => by simp
    | true =>
      refine (R.opt fun x _ hx => Em.bind (hx.pre k _) (Em.write _)).congr fun w => ?_
      simp
  · cases hc : (!fp && !E.flags.no_calling_convention && !E.flags.no_ms_keywords && !E.flags.name_only) with
    | false => exact Em.id.congr fun w => by simp
    | true =>
      rw [S.conv]
      cases f.conv with
      | none => exact Em.id.congr fun w => by simp
      | some cc => exact (em_conv E cc).congr fun w => by simp

theorem em_params (S : SRel n f) (R : LEm E c ps n.params.toList) (k : Nat) :
    Em (funcParams (outFns E c k) n) (Spec.paramsOut f ps) := by
  unfold funcParams
  have h2 : Em (whenB n.is_variadic do
      let w ← SM.get
      whenB (match w.getLast? with | some x => x != '(' | none => false) (write c!", ")
      write c!"...") (fun w => if f.variadic then
        (if w = [] ∨ w.getLast? = some '(' then w else w ++ c!", ") ++ c!"..." else w) := by
    rw [S.variadic]
    refine Em.whenB fun _ => Em.get (fun w => ?_) fun w => ?_
    · split
      · exact List.prefix_append _ _
      · simp
    · refine ⟨fun x => x ++ (if (match w.getLast? with | some x => x != '(' | none => false) then c!", " else []) ++ c!"...",
        ?_, Em.bind' (Em.whenB_text _) (Em.write _) fun _ => rfl⟩
      cases hw : w.getLast? with
      | none => simp at hw; subst hw; simp
      | some x =>
        have : w ≠ [] := by rintro rfl; simp at hw
        by_cases hx : x = '('
        · simp [hx]
        · simp [hx, this]
  have h3 := Em.bind (k := fun _ => write c!")") h2 (Em.write _)
  have fin : ∀ x : Text, x ≠ [] → (if f.variadic then (if x = [] ∨ x.getLast? = some '(' then x else x ++ c!", ") ++ c!"..." else x) ++ c!")" =
      (if f.variadic then (if x.getLast? == some '(' then x else x ++ c!", ") ++ c!"..." else x) ++ c!")" := by
    intro x hx
    simp [hx]
  cases hp : n.params with
  | none =>
    rw [hp] at R
    refine Em.bind' (Em.write _) (Em.bind' (Em.write _) h3 fun _ => rfl) fun w => ?_
    unfold Spec.paramsOut
    simp only [(R.none rfl).1, Bool.false_eq_true, if_false]
    exact (fin _ (by simp)).symm
  | some h =>
    rw [hp] at R
    have h1 := (R.one h rfl).2.out k .NodeArray
    refine Em.bind' (Em.write _) (Em.bind' h1 h3 fun _ => rfl) fun w => ?_
    unfold Spec.paramsOut
    simp only [(R.one h rfl).1, if_true]
    refine (fin _ ?_).symm
    have := h1.grow (w ++ c!"(")
    intro h0
    rw [h0] at this
    simp at this

theorem em_quals (E : Env) {q : Qualifiers} {cv : CV} (h : QRel q cv) {g : FuncSig} (hq : g.quals = q) :
    Em (funcQuals E g) (· ++ cv.this E) := by
  unfold funcQuals
  rw [hq]
  refine Em.bind' (Em.whenB_text _) (Em.bind (Em.whenB_text _) (Em.whenB (f := fun w => w ++
    ((if cv.r then ' ' :: Spec.msWord E c!"restrict" else []) ++
     (if cv.u then ' ' :: Spec.msWord E c!"unaligned" else []))) fun _ => ?_)) fun w => ?_
  · rw [h.r, h.u]
    unfold Spec.msWord
    cases E.flags.no_leading_underscores
    · refine Em.bind' (Em.whenB_text _) (Em.whenB_text _) fun w => ?_
      simp
    · refine Em.bind' (Em.whenB_text _) (Em.whenB_text _) fun w => ?_
      simp
  · rw [h.c, h.v]
    unfold CV.this
    cases E.flags.no_ms_keywords <;> simp

theorem refText (o : Option FunctionRefQualifier) : FunctionRefQualifier.text o = Spec.refName o := by
  cases o with
  | none => rfl
  | some x => cases x <;> rfl

theorem em_funcPost (S : SRel n f) (R : LEm E c ret n.return_type.toList) (P : LEm E c ps n.params.toList)
    (k : Nat) (fp : Bool) : Em (funcPost E (outFns E c k) n fp) (Spec.sigPost E f ret ps fp) := by
  unfold funcPost
  refine Em.bind' (Em.whenB fun _ => em_params S P k) (Em.bind (Em.whenB fun _ => em_quals E S.cv rfl)
    (Em.bind (Em.whenB_text _) (Em.bind (Em.whenB_text _) (Em.whenB fun _ => R.post k _)))) fun w => ?_
  unfold Spec.sigPost
  rw [S.kind.bare, S.noexc, refText, S.ref]
  simp only []
  cases (!E.flags.no_this_type && !E.flags.name_only) <;> simp

theorem em_thunkPre (S : SRel n f) (R : LEm E c ret n.return_type.toList) (k : Nat) (fp : Bool) :
    Em (thunkPre E (outFns E c k) n fp) (fun w => Spec.sigPre E f ret fp (w ++ Spec.thunkPrefix E)) := by
  unfold thunkPre
  refine Em.bind' (Em.whenB_text _) (em_funcPre S R k fp) fun w => ?_
  unfold Spec.thunkPrefix
  cases E.flags.name_only <;> rfl

theorem em_thunkPost {adj : Adjust} {a : ThisAdjustor} (S : SRel n f) (A : thunkText n.function_class a = adj.text)
    (R : LEm E c ret n.return_type.toList) (P : LEm E c ps n.params.toList) (k : Nat) (fp : Bool) :
    Em (thunkPost E (outFns E c k) n a fp) (fun w => Spec.sigPost E f ret ps fp (w ++ adj.text)) := by
  unfold thunkPost
  rw [A]
  exact Em.bind' (Em.write _) (em_funcPost S R P k fp) fun _ => rfl

end

/-! ### All nodes -/

section
variable {E : Env} {w : World}

/-- The effect of rendering an object. -/
def OEm (E : Env) (c : Cache) (p : Pr) : Obj → Prop
  | .N nd => NEm E c p nd
  | .H h => HEm E c p h
  | .L hs => LEm E c p hs

theorem NEm.text {c : Cache} {f : Text → Text} {nd : Node} (h : ∀ n, Em (outNode E c (outFns E c n) nd) f)
    (ht : nd.isType = false) : NEm E c (.ofText f) nd := by
  have grow := (h 0).grow
  have pid : ∀ b, (fun w => w <+: (Pr.ofText f).post b w) = fun w => w <+: w := fun _ => rfl
  refine ⟨h, fun n => ?_, fun n => ?_, fun n x hx => ?_, fun n x hx => ?_⟩
  · cases nd <;> first | exact Em.crash _ grow | cases ht
  · cases nd <;> first | exact Em.crash _ (fun w => List.prefix_refl w) | cases ht
  · cases n with
    | zero => cases nd <;> first | exact Em.crash _ grow | cases ht
    | succ n =>
      cases nd <;> first | exact Em.resolve hx (Em.crash _ grow) | cases ht
  · cases n with
    | zero => cases nd <;> first | exact Em.crash _ (fun w => List.prefix_refl w) | cases ht
    | succ n =>
      cases nd <;> first | exact Em.resolve hx (Em.crash _ (fun w => List.prefix_refl w)) | cases ht

/-- Types other than signatures. -/
theorem NEm.type {c : Cache} {f g : Text → Text} {nd : Node} (h : ∀ n, Em (preNode E c (outFns E c n) nd) f)
    (h' : ∀ n, Em (postNode E c (outFns E c n) nd) g)
    (ht : nd.isType = true) (hs : nd.isSignature = false) : NEm E c (.ofType (fun _ => f) (fun _ => g)) nd := by
  refine ⟨fun n => ?_, h, h', fun n x hx => ?_, fun n x hx => ?_⟩
  · have := Em.bind (k := fun _ => postNode E c (outFns E c n) nd) (h n) (h' n)
    cases nd <;> first | exact this | cases ht
  · have : Em ((outFns E c n).pre .ITypeNode x) f := by
      cases n with
      | zero => exact Em.crash _ (h 0).grow
      | succ n => exact Em.resolve hx (h n)
    cases nd <;> first | exact this | cases hs | cases ht
  · have : Em ((outFns E c n).post .ITypeNode x) g := by
      cases n with
      | zero => exact Em.crash _ (h' 0).grow
      | succ n => exact Em.resolve hx (h' n)
    cases nd <;> first | exact this | cases hs | cases ht

theorem em_paren {to : T} {nd : Node} (h : Rep w to (.N nd)) :
    Em (pointeeParen E nd) (Spec.openParen E to) ∧ nd.isArrayOrSig = Spec.needsParens to := by
  have sg : ∀ {n : FuncSig} {f : Sig}, SRel n f → Em (do
      write c!"("
      whenB (!E.flags.no_calling_convention && !E.flags.no_ms_keywords) do
        whenSome n.call_convention fun cc => do
          cc.output E
          write c!" ") (fun w =>
      let w := w ++ c!"("
      if !E.flags.no_calling_convention && !E.flags.no_ms_keywords then
        match f.conv with
        | some cc => Spec.sp E w ++ Spec.convName E cc ++ c!" "
        | none => w
      else w) := by
    intro n f S
    refine Em.bind' (Em.write _) (Em.whenB (f := fun w => match f.conv with
        | some cc => Spec.sp E w ++ Spec.convName E cc ++ c!" "
        | none => w) fun _ => ?_) fun w => rfl
    rw [S.conv]
    cases f.conv with
    | none => exact Em.id
    | some cc => exact Em.bind' (em_conv E cc) (Em.write _) fun _ => rfl
  cases h with
  | array => exact ⟨Em.write _, rfl⟩
  | sig S => exact ⟨sg S, rfl⟩
  | thunk S => exact ⟨sg S, rfl⟩
  | _ => exact ⟨Em.id, rfl⟩

theorem em_dims {ns : List Nat} {hs : List Handle} (h : Ints w ns hs) :
    Em (sepBy.rest c!"][" (output_one_dimension w.c) hs)
      (· ++ ns.flatMap fun d => c!"][" ++ Spec.bounds.one d) ∧
    Em (sepBy c!"][" (output_one_dimension w.c) hs) (· ++ match ns with
      | [] => []
      | d :: ds => Spec.bounds.one d ++ ds.flatMap fun d => c!"][" ++ Spec.bounds.one d) := by
  have one : ∀ {d : Nat} {x : Handle}, w[x]? = some (.IntegerLiteral d false, true) →
      Em (output_one_dimension w.c x) (· ++ Spec.bounds.one d) := by
    intro d x hx
    refine Em.resolve (World.c_get hx) ?_
    refine (Em.whenB_text _).congr fun w => ?_
    unfold Spec.bounds.one integerText
    by_cases hd : d = 0
    · simp [hd]
    · simp [hd]; rfl
  induction hs generalizing ns with
  | nil =>
    cases ns with
    | nil => exact ⟨Em.id.congr fun w => by simp, Em.id.congr fun w => by simp⟩
    | cons => exact h.elim
  | cons x hs ih =>
    cases ns with
    | nil => exact h.elim
    | cons d ds =>
      obtain ⟨h1, h2⟩ := h
      refine ⟨?_, ?_⟩
      · exact Em.bind' (Em.write _) (Em.bind (one h1) (ih h2).1) fun w => by simp
      · exact Em.bind' (one h1) (ih h2).1 fun w => by simp

theorem offsetsText_eq (l : List Int) (h : l ≠ []) :
    offsetsText l = (List.intersperse c!", " (l.map Spec.sint)).flatten ++ c!"}" := by
  cases l with
  | nil => exact (h rfl).elim
  | cons a l =>
    unfold offsetsText
    have : ∀ (a : Int) (l : List Int), decInt a ++ (l.map fun o => c!", " ++ decInt o).flatten =
        (List.intersperse c!", " ((a :: l).map Spec.sint)).flatten := by
      intro a l
      induction l generalizing a with
      | nil => simp [decInt_eq]
      | cons b l ih =>
        have := ih b
        simp only [List.map_cons, List.intersperse_cons_cons, List.flatten_cons] at this ⊢
        rw [← this, decInt_eq]
        simp
    exact congrArg (· ++ c!"}") (this a l)

theorem em_storage (sc : Option StorageClass) (j : W Unit) {f : Text → Text} (h : Em j f) :
    Em (do
      whenB (!E.flags.no_access_specifier && !E.flags.name_only) (write (StorageClass.accessText sc))
      whenB (!E.flags.no_member_type && !E.flags.name_only && StorageClass.isStatic sc) (write c!"static ")
      j) (fun w => f (w ++ Spec.storageText E sc)) := by
  refine Em.bind' (Em.whenB_text _) (Em.bind (Em.whenB_text _) h) fun w => ?_
  congr 1
  rw [List.append_assoc]
  congr 1
  unfold Spec.storageText
  cases sc with
  | none => simp [Spec.storageAccess, StorageClass.accessText, StorageClass.isStatic]
  | some x => cases x <;> simp [Spec.storageAccess, StorageClass.accessText, StorageClass.isStatic, Spec.accessName]

theorem rep_em {t : T} {o : Obj} (h : Rep w t o) : OEm E w.c (T.pr E t) o := by
  induction h with
  | nil => exact ⟨fun _ _ => Em.id, fun _ _ => Em.id, fun _ => ⟨rfl, rfl, rfl, rfl⟩, fun _ h => by cases h⟩
  | cons _ _ a b =>
    refine ⟨fun n sep => ?_, fun n sep => ?_, fun h => by (cases h), fun h e => ?_⟩
    · exact Em.bind' (HEm.out a n _) (b.tail n sep) fun _ => rfl
    · exact Em.bind' (Em.write _) (Em.bind (HEm.out a n _) (b.tail n sep)) fun _ => rfl
    · cases e
      obtain ⟨nd, e, N⟩ := a
      exact ⟨rfl, nd, e, N.out, N.pre, N.post, N.ppre, N.ppost⟩
  | handle e _ a => exact ⟨_, World.c_get e, a⟩
  | @prim q cv k h =>
    refine NEm.type (fun n => ?_) (fun n => Em.id) rfl rfl
    have : k.text = Spec.primName k := by cases k <;> rfl
    exact Em.bind' (Em.write _) (qualsOut E h true false) fun w => by simp [this]
  | @tag q cv k n h hq _ a =>
    refine NEm.type (fun n => ?_) (fun n => Em.id) rfl rfl
    have : k.text = Spec.tagName k := by cases k <;> rfl
    exact Em.bind' (Em.whenB_text _) (Em.bind (HEm.out a n _) (qualsOut E hq true false)) fun w => by simp [this]
  | @ptr q cv a cls to co h hq _ hto ihc iht =>
    cases hto with
    | @handle _ _ nd e hn =>
    have e' := World.c_get e
    obtain ⟨nd', e'', N⟩ := iht
    rw [e'] at e''
    cases e''
    obtain ⟨p1, p2⟩ := em_paren (E := E) hn
    refine NEm.type (fun n => ?_) (fun n => ?_) rfl rfl
    · unfold preNode pointerPre
      refine Em.resolve e' ?_
      have hu : Em (whenB (!E.flags.no_ms_keywords && q.is_unaligned)
          (if E.flags.no_leading_underscores then write c!"unaligned " else write c!"__unaligned "))
          (fun w => w ++ (if !E.flags.no_ms_keywords && cv.u then Spec.msWord E c!"unaligned" ++ c!" " else [])) := by
        rw [hq.u]
        unfold Spec.msWord
        cases E.flags.no_leading_underscores
        · exact Em.whenB_text _
        · exact Em.whenB_text _
      refine Em.bind' (N.ppre n h e') (Em.bind (Em.sp E) (Em.bind hu (Em.bind p1 (Em.bind
        (ihc.opt fun x _ hx => Em.bind' (hx.out n _) (Em.write _) fun _ => rfl)
        (Em.bind' (Em.write _) (qualsOut E hq false false) fun _ => rfl))))) fun w => ?_
      have : a.text = Spec.affName a := by cases a <;> rfl
      simp [this]
    · refine Em.resolve e' ?_
      refine Em.bind' (Em.whenB_text _) (N.ppost n h e') fun w => ?_
      rw [p2]
  | @array q cv dims el d h hs hq e f _ a =>
    refine NEm.type (fun n => ?_) (fun n => ?_) rfl rfl
    · exact Em.bind' (HEm.pre a n _) (qualsOut E hq true false) fun w => by simp
    · refine Em.bind' (Em.write _) (Em.bind (Em.resolve (World.c_get e) (em_dims f).2)
        (Em.bind (Em.write _) (HEm.post a n _))) fun w => ?_
      congr 1
      unfold Spec.bounds
      cases dims <;> simp
  | @sig n f ret ps S _ _ a b =>
    refine ⟨fun k => ?_, fun k => em_funcPre S a k false, fun k => em_funcPost S a b k false,
      fun k _ _ => em_funcPre S a k true, fun k _ _ => em_funcPost S a b k true⟩
    exact Em.bind' (em_funcPre S a k false) (em_funcPost S a b k false) fun _ => rfl
  | @thunk n f adj ad ret ps S A _ _ a b =>
    refine ⟨fun k => ?_, fun k => em_thunkPre S a k false, fun k => em_thunkPost S A a b k false,
      fun k _ _ => em_thunkPre S a k true, fun k _ _ => em_thunkPost S A a b k true⟩
    exact Em.bind' (em_thunkPre S a k false) (em_thunkPost S A a b k false) fun _ => rfl
  | custom _ a => exact NEm.type (fun n => HEm.out a n _) (fun n => Em.id) rfl rfl
  | arr _ a => exact NEm.text (fun n => a.seq n _) rfl
  | qname e _ a => exact NEm.text (fun n => Em.resolve (World.c_get e) (a.seq n _)) rfl
  | named _ a => exact NEm.text (fun n => Em.bind' (Em.write _) (a.targs n) fun _ => rfl) rfl
  | @op k ta o _ a =>
    refine NEm.text (fun n => ?_) rfl
    have : ∀ k : IFK, k.text = Spec.opName k := by intro k; cases k <;> rfl
    cases k with
    | none => exact Em.bind' Em.id (a.targs n) fun w => by simp
    | some k => exact Em.bind' (Em.write _) (a.targs n) fun w => by rw [this]
  | lit _ a => exact NEm.text (fun n => Em.bind' (Em.write _) (a.targs n) fun w => by simp) rfl
  | conv _ _ a b =>
    refine NEm.text (fun n => ?_) rfl
    exact Em.bind' (Em.write _) (Em.bind (a.targs n) (Em.bind (Em.write _) (b.out n _))) fun _ => rfl
  | structor _ _ a b =>
    refine NEm.text (fun n => ?_) rfl
    exact Em.bind' (Em.whenB_text _) (Em.bind (a.out n _) (b.targs n)) fun _ => rfl
  | @vcall k =>
    refine NEm.text (fun n => ?_) rfl
    unfold outNode
    cases E.flags.name_only
    · exact (Em.write _).congr fun w => by simp [decNat, Spec.nat]
    · exact (Em.write _).congr fun w => by simp [decNat, Spec.nat]
  | @guardId t i =>
    refine NEm.text (fun n => ?_) rfl
    unfold outNode
    cases t
    · refine Em.bind' (Em.write _) (Em.whenB_text _) fun w => ?_
      cases i <;> simp [decNat, Spec.nat]
    · refine Em.bind' (Em.write _) (Em.whenB_text _) fun w => ?_
      cases i <;> simp [decNat, Spec.nat]
  | baseDescr =>
    refine NEm.text (fun n => (Em.write _).congr fun w => ?_) rfl
    simp [decInt_eq, decNat, Spec.nat]
  | @dynVar d v h _ a =>
    refine NEm.text (fun n => ?_) rfl
    exact Em.bind' (Em.write _) (Em.bind (Em.write _) (Em.bind (HEm.out a n _) (Em.write _))) fun _ => rfl
  | dynFn _ a =>
    refine NEm.text (fun n => ?_) rfl
    exact Em.bind' (Em.write _) (Em.bind (Em.write _) (Em.bind (HEm.out a n _) (Em.write _))) fun _ => rfl
  | @addr s offs o aff m _ a =>
    refine NEm.text (fun n => ?_) rfl
    unfold outNode
    by_cases ho : offs = []
    · subst ho
      refine Em.bind' (Em.whenB_text _) (Em.bind (a.opt (f := (T.pr E s).out) fun x _ hx => ?_) (Em.write _)) fun w => ?_
      · exact Em.bind' (hx.out n _) Em.id fun _ => rfl
      · simp [Spec.addrOut, offsetsText]
    · have : offs.isEmpty = false := by simp [ho]
      simp only [this]
      refine Em.bind' (Em.write _) (Em.bind (a.opt (f := fun w => (T.pr E s).out w ++ c!", ") fun x _ hx => ?_)
        (Em.write _)) fun w => ?_
      · exact Em.bind' (hx.out n _) (Em.write _) fun _ => rfl
      · simp [Spec.addrOut, offsetsText_eq _ ho, ho]
  | int =>
    refine NEm.text (fun n => (Em.write _).congr fun w => ?_) rfl
    simp [integerText, decNat, Spec.nat]
  | @var sc n ty h o _ _ a b =>
    refine NEm.text (fun n => ?_) rfl
    refine em_storage sc _ (f := fun w => if !E.flags.no_variable_type && !E.flags.name_only && (T.pr E ty).some then
        (T.pr E ty).post false ((T.pr E _).out (Spec.sp E ((T.pr E ty).pre false w)))
      else (T.pr E _).out w) ?_
    cases hc : (!E.flags.no_variable_type && !E.flags.name_only)
    · simp only [Bool.false_eq_true, if_false, Bool.false_and]
      exact Em.bind' Em.id (Em.bind' (HEm.out a n _) Em.id fun _ => rfl) fun _ => rfl
    · simp only [if_true, Bool.true_and]
      cases o with
      | none =>
        rw [(b.none rfl).1]
        exact Em.bind' Em.id (Em.bind' (HEm.out a n _) Em.id fun _ => rfl) fun _ => rfl
      | some x =>
        rw [(b.one x rfl).1]
        have hx := (b.one x rfl).2
        exact Em.bind' (Em.bind' (hx.pre n _) (Em.sp E) fun _ => rfl)
          (Em.bind (HEm.out a n _) (hx.post n _)) fun _ => rfl
  | @typeDescr ty _ _ a =>
    refine NEm.text (fun n => ?_) rfl
    refine Em.congr (em_storage none _ (f := fun w => if E.flags.name_only then (T.pr E ty).out w else
      Spec.sp E ((T.pr E ty).out w) ++ c!"`RTTI Type Descriptor Name'") ?_) fun w => ?_
    · cases E.flags.name_only
      · exact Em.bind' (HEm.out a n _) (Em.bind' (Em.sp E) (Em.write _) fun _ => rfl) fun _ => rfl
      · exact Em.bind' (HEm.out a n _) Em.id fun _ => rfl
    · simp [Spec.storageText, Spec.storageAccess]
  | fn _ _ a b =>
    refine NEm.text (fun n => ?_) rfl
    exact Em.bind' (HEm.pre b n _) (Em.bind (Em.sp E) (Em.bind (HEm.out a n _) (HEm.post b n _))) fun _ => rfl
  | @table q cv n tg h o hq _ _ a b =>
    refine NEm.text (fun n => ?_) rfl
    refine Em.bind' (Em.whenB fun _ => qualsOut E hq false true) (Em.bind (HEm.out a n _) (b.opt fun x _ hx =>
      Em.bind' (Em.write _) (Em.bind (hx.out n _) (Em.write _)) fun _ => rfl)) fun w => ?_
    cases E.flags.name_only
    · simp only [Bool.not_false, if_true, Bool.false_eq_true, if_false, CV.before, Bool.true_and]
      cases hs : cv.sep E <;> simp
    · simp
  | md5 _ a => exact NEm.text (fun n => HEm.out a n _) rfl
  | gvar _ a => exact NEm.text (fun n => HEm.out a n _) rfl
  | @str k s b =>
    refine NEm.text (fun n => (Em.write _).congr fun w => ?_) rfl
    cases k <;> simp [CharKind.prefixText, Spec.charPrefix]

end

end Undname
