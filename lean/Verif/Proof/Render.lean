/-
  Rendering a well-formed tree never crashes, stays below the output limit and writes only permitted
  text.
-/
import Verif.Proof.Good

namespace Undname

/-! ### Texts -/

/-- The open brackets after a text, innermost first, if every closing bracket closes the innermost one. -/
def stackAfter : List Char → Text → Option (List Char)
  | s, [] => some s
  | s, c :: cs =>
    if c!"([{<".contains c then stackAfter (c :: s) cs
    else if c!")]}>".contains c then match s with
      | [] => none
      | o :: s => if brackets.contains (o, c) then stackAfter s cs else none
    else stackAfter s cs

variable {T : TSpec}

/-- Printable and not `@`. -/
def noAt (c : Char) : Bool := isPrintable c && c != '@'

theorem opens_pair {o : Char} (h : c!"([{<".contains o = true) : ∃ c, (o, c) ∈ brackets := by
  simp at h
  rcases h with rfl | rfl | rfl | rfl <;> simp [brackets]

theorem TSpec.run_of_stack {t : Text} {d e : List Char} (hp : t.all noAt = true)
    (h : stackAfter d t = some e) : T.run d t e := by
  induction t generalizing d with
  | nil => simp [stackAfter] at h; subst h; exact T.nil d
  | cons c cs ih =>
    simp only [List.all_cons, Bool.and_eq_true] at hp
    unfold stackAfter at h
    have happ : c :: cs = [c] ++ cs := rfl
    rw [happ]
    split at h
    · next hc =>
      obtain ⟨c', hb⟩ := opens_pair hc
      exact T.append (T.opn hb d) (ih hp.2 h)
    · next hc =>
      split at h
      · next hc' =>
        cases d with
        | nil => simp at h
        | cons o d =>
          dsimp only at h
          split at h
          · next hb => exact T.append (T.cls (List.contains_iff_mem.1 hb) d) (ih hp.2 h)
          · cases h
      · next hc' =>
        refine T.append (T.plain ?_ d) (ih hp.2 h)
        intro x hx
        simp only [List.mem_singleton] at hx
        subst hx
        simp at hc hc'
        have hp1 := hp.1
        simp [noAt] at hp1
        simp [isPlain, hp1, hc, hc']

theorem paren : ('(', ')') ∈ brackets := by decide

/-- Literal texts: printable and balanced. -/
def litOK (t : Text) : Bool := t.all noAt && (stackAfter [] t == some [])

theorem TSpec.name_of_lit {t : Text} (h : litOK t = true) : T.name t := by
  intro d
  simp only [litOK, Bool.and_eq_true, beq_iff_eq] at h
  have := T.shift d (T.run_of_stack h.1 h.2)
  simpa using this

/-- Literal texts that open or close brackets. -/
def litRun (s : List Char) (t : Text) (e : List Char) : Bool := t.all noAt && (stackAfter s t == some e)

theorem TSpec.run_of_lit {s e : List Char} {t : Text} (h : litRun s t e = true) (d : List Char) : T.run (s ++ d) t (e ++ d) := by
  simp only [litRun, Bool.and_eq_true, beq_iff_eq] at h
  exact T.shift d (T.run_of_stack h.1 h.2)

theorem TSpec.name_nil : T.name [] := fun d => T.nil d

theorem TSpec.name_append {a b : Text} (ha : T.name a) (hb : T.name b) : T.name (a ++ b) :=
  fun d => T.append (ha d) (hb d)

theorem isPlain_of_isDigit {c : Char} (h : c.isDigit = true) : isPlain c = true := by
  simp only [Char.isDigit, Bool.and_eq_true, decide_eq_true_eq, ge_iff_le] at h
  have h1 : 48 ≤ c.toNat := h.1
  have h2 : c.toNat ≤ 57 := h.2
  have key : ∀ d ∈ c!"()[]{}<>@", c ≠ d := by
    rintro d hd rfl
    revert h1 h2
    simp at hd
    rcases hd with rfl | rfl | rfl | rfl | rfl | rfl | rfl | rfl | rfl <;> simp
  have hn : c!"()[]{}<>@".contains c = false := by
    rw [Bool.eq_false_iff]
    intro hc
    exact key c (List.contains_iff_mem.1 hc) rfl
  simp only [isPlain, isPrintable, hn, Bool.not_false, Bool.and_true, Bool.and_eq_true, decide_eq_true_eq]
  omega

theorem decNat_plain (n : Nat) : ∀ c ∈ decNat n, isPlain c = true := by
  intro c hc
  exact isPlain_of_isDigit (Nat.isDigit_of_mem_toDigits (by omega) (by omega) hc)

theorem decInt_plain (n : Int) : ∀ c ∈ decInt n, isPlain c = true := by
  intro c hc
  unfold decInt at hc
  split at hc
  · rcases List.mem_cons.1 hc with rfl | hc
    · decide
    · exact decNat_plain _ c hc
  · exact decNat_plain _ c hc

theorem TSpec.name_decNat (n : Nat) : T.name (decNat n) := fun d => T.plain (decNat_plain n) d
theorem TSpec.name_decInt (n : Int) : T.name (decInt n) := fun d => T.plain (decInt_plain n) d

theorem TSpec.name_wrap {a m z : Text} (o : Char) (ha : litRun [] a [o] = true) (hm : T.name m) (hz : litRun [o] z [] = true) :
    T.name (a ++ m ++ z) := fun d =>
  T.append (T.append (T.run_of_lit (s := []) (e := [o]) ha d) (hm (o :: d))) (T.run_of_lit (s := [o]) (e := []) hz d)

/-! ### Writers -/

/-- `m` appends a text that takes the open brackets from `d` to `e`. -/
def Out (T : TSpec) (d e : List Char) (m : W Unit) : Prop :=
  ∀ t, utf8Len t < OUTPUT_LIMIT →
    wp m (fun _ t' => utf8Len t' < OUTPUT_LIMIT ∧ ∃ u, t' = t ++ u ∧ T.run d u e) t

namespace Out
variable {d e f : List Char} {m m' : W Unit}

theorem pure (d : List Char) : Out T d d (Pure.pure ()) := fun t ht =>
  wp.pure ⟨ht, [], by simp, T.nil d⟩

theorem pure' (d : List Char) : Out T d d (SM.pure ()) := pure d

theorem seq {k : Unit → W Unit} (h1 : Out T d e m) (h2 : Out T e f (k ())) : Out T d f (m >>= k) := by
  intro t ht
  refine wp.bind (wp.mono (h1 t ht) ?_)
  rintro _ t1 ⟨ht1, u, rfl, hu⟩
  refine wp.mono (h2 _ ht1) ?_
  rintro _ t2 ⟨ht2, v, rfl, hv⟩
  exact ⟨ht2, u ++ v, by simp, T.append hu hv⟩

theorem utf8Len_append (a b : Text) : utf8Len (a ++ b) = utf8Len a + utf8Len b := by
  induction a with
  | nil => simp [utf8Len]
  | cons c cs ih => simp [utf8Len, ih]; omega

theorem wr {t : Text} (h : T.run d t e) : Out T d e (write t) := by
  intro s hs
  unfold wp Undname.write
  split
  · next heq =>
    split at heq
    · next hlt =>
      simp only [Except.ok.injEq, Prod.mk.injEq] at heq
      obtain ⟨_, rfl⟩ := heq
      refine ⟨by rw [utf8Len_append]; omega, t, rfl, h⟩
    · simp at heq
  · next heq =>
    split at heq
    · simp at heq
    · simp only [Except.error.injEq, Fail.err.injEq] at heq
      subst heq; trivial
  · next heq => split at heq <;> simp_all

theorem name {t : Text} (h : T.name t) : Out T d d (Undname.write t) := wr (h d)

theorem lit {t : Text} (h : litOK t = true) : Out T d d (Undname.write t) := name (T.name_of_lit h)

/-- A literal that opens or closes brackets. -/
theorem litR (s e : List Char) {t : Text} (h : litRun s t e = true) (d : List Char) : Out T (s ++ d) (e ++ d) (Undname.write t) := wr (T.run_of_lit h d)

theorem when {b : Bool} (h : b = true → Out T d d m) : Out T d d (whenB b m) := by
  cases b with
  | true => exact h rfl
  | false => exact pure d

theorem whenS {α : Type} {o : Option α} {k : α → W Unit} (h : ∀ a, o = some a → Out T d d (k a)) :
    Out T d d (whenSome o k) := by
  cases o with
  | none => exact pure d
  | some a => exact h a rfl

theorem get {k : Text → W Unit} (h : ∀ s, Out T d e (k s)) : Out T d e (SM.get >>= k) := fun t ht =>
  wp.bind (wp.get (h t t ht))

theorem ite {b : Bool} (h1 : b = true → Out T d e m) (h0 : b = false → Out T d e m') :
    Out T d e (if b then m else m') := by
  cases b with
  | true => exact h1 rfl
  | false => exact h0 rfl

theorem lift {α : Type} {x : Except Fail α} {a : α} {k : α → W Unit} (hx : x = .ok a)
    (h : Out T d e (k a)) : Out T d e (SM.lift x >>= k) := fun t ht =>
  wp.bind (wp.lift_ok hx (h t ht))

theorem shift (k : List Char) (h : Out T d e m) : Out T (d ++ k) (e ++ k) m := by
  intro t ht
  refine wp.mono (h t ht) ?_
  rintro _ t1 ⟨ht1, u, rfl, hu⟩
  exact ⟨ht1, u, rfl, T.shift k hu⟩

theorem at' (k : List Char) (h : Out T [] [] m) : Out T k k m := by simpa using h.shift k

theorem free (hN : ∀ d u d' e e', T.run d u d' → T.run e u e') (h : Out T d e m) (d' e' : List Char) :
    Out T d' e' m := by
  intro t ht
  refine wp.mono (h t ht) ?_
  rintro _ t1 ⟨ht1, u, rfl, hu⟩
  exact ⟨ht1, u, rfl, hN _ _ _ _ _ hu⟩

theorem space (E : Env) (d : List Char) : Out T d d (output_space_if_necessary E) := by
  unfold output_space_if_necessary
  refine get fun s => ?_
  split
  · exact when fun _ => lit (by decide)
  · exact pure d

end Out

open Out

theorem Out.single (E : Env) (q : Qualifiers.SingleQualifier) (d : List Char) :
    Out T d d (Qualifiers.output_single_qualifier E q) := by
  cases q <;> unfold Qualifiers.output_single_qualifier
  · exact lit (by decide)
  · exact lit (by decide)
  · exact ite (fun _ => Out.pure d) fun _ => ite (fun _ => lit (by decide)) fun _ => lit (by decide)

theorem Out.present (E : Env) (q : Qualifiers) (m : Qualifiers.SingleQualifier) (b : Bool) (d : List Char)
    {k : Bool → W Unit} (hk : ∀ b, Out T d d (k b)) :
    Out T d d (Qualifiers.output_if_present E q m b >>= k) := by
  unfold Qualifiers.output_if_present
  intro t ht
  split
  · refine wp.bind (wp.bind (wp.mono (Out.when (T := T) (d := d)
      (fun _ => lit (by decide)) t ht) ?_))
    rintro _ t1 ⟨ht1, u, rfl, hu⟩
    refine wp.bind (wp.mono (Out.single (T := T) E m d _ ht1) ?_)
    rintro _ t2 ⟨ht2, v, rfl, hv⟩
    refine wp.pure (wp.mono (hk true _ ht2) ?_)
    rintro _ t3 ⟨ht3, w, rfl, hw⟩
    exact ⟨ht3, u ++ v ++ w, by simp, T.append (T.append hu hv) hw⟩
  · exact wp.bind (wp.pure (hk b t ht))

theorem Out.quals (E : Env) (q : Qualifiers) (sb sa : Bool) (d : List Char) :
    Out T d d (Qualifiers.output E q sb sa) := by
  unfold Qualifiers.output
  refine when fun _ => get fun s => ?_
  refine Out.present E q _ _ d fun b1 => ?_
  refine Out.present E q _ _ d fun b2 => ?_
  refine Out.present E q _ _ d fun b3 => ?_
  exact get fun s => when fun _ => lit (by decide)

theorem CallingConv.text_lit (b : Bool) (cc : CallingConv) : litOK (cc.text b) = true := by
  cases b <;> cases cc <;> decide

theorem PrimitiveKind.text_lit (k : PrimitiveKind) : litOK k.text = true := by cases k <;> decide
theorem TagKind.text_lit (k : TagKind) : litOK (k.text ++ c!" ") = true := by cases k <;> decide
theorem PointerAffinity.text_lit (k : PointerAffinity) : litOK k.text = true := by cases k <;> decide
theorem CharKind.prefix_lit (k : CharKind) : litOK k.prefixText = true := by cases k <;> decide
theorem StorageClass.access_lit (k : Option StorageClass) : litOK (StorageClass.accessText k) = true := by
  cases k with
  | none => decide
  | some k => cases k <;> decide
theorem FunctionRefQualifier.text_lit (k : Option FunctionRefQualifier) :
    litOK (FunctionRefQualifier.text k) = true := by
  cases k with
  | none => decide
  | some k => cases k <;> decide

theorem Out.conv (E : Env) (cc : CallingConv) (d : List Char) : Out T d d (cc.output E) := by
  unfold CallingConv.output
  exact seq (space E d) (lit (CallingConv.text_lit _ _))

/-! ### Nodes -/

/-- Rendering the handles that are good for `A` behaves well. -/
structure RendOK (T : TSpec) (c : Cache) (A : Handle → Prop) (r : OutFns) : Prop where
  out : ∀ {kd h}, Good T c A (.k kd) h → Out T [] [] (r.out kd h)
  type : ∀ {kd h}, Good T c A (.k kd) h → (kd = .ITypeNode ∨ kd = .ISignatureNode) →
    ∃ d, Out T [] d (r.pre kd h) ∧ Out T d [] (r.post kd h)

section
variable {c : Cache} {A : Handle → Prop} {r : OutFns} (E : Env) (hr : RendOK T c A r)
  (hN : E.flags.name_only = true → ∀ d u d' e e', T.run d u d' → T.run e u e')
include hr
set_option linter.unusedSectionVars false

theorem RendOK.at {kd h} (hg : Good T c A (.k kd) h) (d : List Char) : Out T d d (r.out kd h) :=
  (hr.out hg).at' d

omit hr in
theorem Good.resolve {kd h} (hg : Good T c A (.k kd) h) : ∃ nd, resolve kd c h = .ok nd ∧
    c[h]? = some nd ∧ nd.is kd = true ∧ nodeOK T nd ∧ ∀ p ∈ kidsOf nd, Good T c A p.1 p.2 := by
  obtain ⟨_, nd, h1, h2, h3, h4⟩ := hg.elim
  refine ⟨nd, ?_, h1, h2, h3, h4⟩
  unfold Undname.resolve
  simp only [GK.ok] at h2
  simp [h1, h2]

omit hr in
theorem optKid_mem {g : GK} {o : Option Handle} {h : Handle} (ho : o = some h) : (g, h) ∈ optKid g o := by
  subst ho; simp [optKid]

/-- The part of `funcPre` before the return type. -/
theorem funcPre_ok (f : FuncSig) (b : Bool) {d : List Char}
    (hrt : (!E.flags.no_return_type && (b || !E.flags.name_only)) = true →
      ∀ rt, f.return_type = some rt → Out T [] d (r.pre .ITypeNode rt))
    (h0 : ((!E.flags.no_return_type && (b || !E.flags.name_only)) = true → f.return_type = none) →
      d = []) : Out T [] d (funcPre E r f b) := by
  unfold funcPre
  refine seq (e := []) (when fun _ => ?_) ?_
  · refine seq (e := []) (when fun _ => lit (by decide)) ?_
    refine seq (e := []) (when fun _ => lit (by decide)) ?_
    exact when fun _ => lit (by decide)
  refine seq (e := []) (when fun _ => ?_) ?_
  · refine seq (e := []) (when fun _ => lit (by decide)) ?_
    refine seq (e := []) (when fun _ => lit (by decide)) ?_
    exact when fun _ => lit (by decide)
  refine seq (e := d) ?_ (when fun _ => whenS fun cc _ => Out.conv E cc d)
  by_cases hc : (!E.flags.no_return_type && (b || !E.flags.name_only)) = true
  · cases hret : f.return_type with
    | none =>
      have := h0 (fun _ => hret)
      subst this
      exact when fun _ => whenS fun a ha => by simp at ha
    | some rt =>
      rw [hc]
      exact seq (hrt hc rt hret) (lit (by decide))
  · have := h0 (fun h => absurd h hc)
    subst this
    exact when fun h => absurd h hc

theorem funcParams_ok (f : FuncSig) (hk : ∀ p ∈ sigKids f, Good T c A p.1 p.2) (d : List Char) :
    Out T d d (funcParams r f) := by
  unfold funcParams
  refine seq (e := '(' :: d) (wr (T.opn paren d)) ?_
  have hend : Out T ('(' :: d) d (do
      Undname.whenB f.is_variadic (do
        let w ← SM.get
        Undname.whenB (match w.getLast? with | some x => x != '(' | none => false) (write c!", ")
        write c!"...")
      write c!")") := by
    refine seq (e := '(' :: d) (when fun _ => ?_) (wr (T.cls paren d))
    exact get fun s => seq (when fun _ => lit (by decide)) (lit (by decide))
  simp only
  split
  · next p hp => exact seq (e := '(' :: d) (hr.at (hk (.arr, p) (by simp [sigKids, optKid_mem hp])) _) hend
  · exact seq (e := '(' :: d) (lit (by decide)) hend

omit hr in
theorem funcQuals_ok (f : FuncSig) (d : List Char) : Out T d d (funcQuals E f) := by
  unfold funcQuals
  refine seq (e := d) (when fun _ => lit (by decide)) ?_
  refine seq (e := d) (when fun _ => lit (by decide)) ?_
  refine when fun _ => ?_
  refine seq (e := d) (when fun _ => ite (fun _ => lit (by decide)) (fun _ => lit (by decide))) ?_
  exact when fun _ => ite (fun _ => lit (by decide)) (fun _ => lit (by decide))

theorem funcPost_ok (f : FuncSig) (b : Bool) (hk : ∀ p ∈ sigKids f, Good T c A p.1 p.2) {d : List Char}
    (hrt : (!E.flags.no_return_type && !E.flags.name_only) = true →
      ∀ rt, f.return_type = some rt → Out T d [] (r.post .ITypeNode rt))
    (h0 : ((!E.flags.no_return_type && !E.flags.name_only) = true → f.return_type = none) →
      d = []) : Out T d [] (funcPost E r f b) := by
  unfold funcPost
  refine seq (e := d) (when fun _ => funcParams_ok hr f hk d) ?_
  refine seq (e := d) (when fun _ => funcQuals_ok E f d) ?_
  refine seq (e := d) (when fun _ => lit (by decide)) ?_
  refine seq (e := d) (when fun _ => lit (FunctionRefQualifier.text_lit _)) ?_
  by_cases hc : (!E.flags.no_return_type && !E.flags.name_only) = true
  · cases hret : f.return_type with
    | none =>
      have := h0 (fun _ => hret)
      subst this
      exact when fun _ => whenS fun a ha => by simp at ha
    | some rt =>
      rw [hc]
      exact hrt hc rt hret
  · have := h0 (fun h => absurd h hc)
    subst this
    exact when fun h => absurd h hc

include hN

theorem func_ok (f : FuncSig) (b : Bool) (hk : ∀ p ∈ sigKids f, Good T c A p.1 p.2) :
    ∃ d, Out T [] d (funcPre E r f b) ∧ Out T d [] (funcPost E r f b) := by
  have hkid : ∀ rt, f.return_type = some rt → Good T c A .type rt := fun rt h =>
    hk (.type, rt) (by simp [sigKids, optKid_mem h])
  cases hret : f.return_type with
  | none =>
    exact ⟨[], funcPre_ok E hr f b (fun _ rt h => by simp [hret] at h) (fun _ => rfl),
      funcPost_ok E hr f b hk (fun _ rt h => by simp [hret] at h) (fun _ => rfl)⟩
  | some rt =>
    obtain ⟨d, hpre, hpost⟩ := hr.type (hkid rt hret) (Or.inl rfl)
    by_cases hn : E.flags.name_only = true
    · refine ⟨[], funcPre_ok E hr f b (fun _ rt' h => ?_) (fun _ => rfl),
        funcPost_ok E hr f b hk (fun _ rt' h => ?_) (fun _ => rfl)⟩
      · rw [hret] at h; cases h; exact hpre.free (hN hn) _ _
      · rw [hret] at h; cases h; exact hpost.free (hN hn) _ _
    · by_cases hc : E.flags.no_return_type = true
      · exact ⟨[], funcPre_ok E hr f b (fun h => by simp [hc] at h) (fun _ => rfl),
          funcPost_ok E hr f b hk (fun h => by simp [hc] at h) (fun _ => rfl)⟩
      · refine ⟨d, funcPre_ok E hr f b (fun _ rt' h => ?_) (fun h => ?_),
          funcPost_ok E hr f b hk (fun _ rt' h => ?_) (fun h => ?_)⟩
        · rw [hret] at h; cases h; exact hpre
        · have := h (by simp [hc, hn]); simp [hret] at this
        · rw [hret] at h; cases h; exact hpost
        · have := h (by simp [hc, hn]); simp [hret] at this

omit hN hr in
theorem thunkText_name (fc : FuncClass) (a : ThisAdjustor) : T.name (thunkText fc a) := by
  have hl : ∀ {t}, litOK t = true → T.name t := fun h => T.name_of_lit h
  unfold thunkText
  split
  · exact T.name_wrap '{' (by decide) (T.name_decNat _) (by decide)
  · split
    · split
      · intro d
        refine T.append (e := '{' :: d) (T.append (e := '{' :: d) (T.append (e := '{' :: d) (T.append (e := '{' :: d) (T.append (e := '{' :: d)
          (T.append (e := '{' :: d) (T.append (e := '{' :: d) (T.append (e := '{' :: d) ?_ ?_) ?_) ?_) ?_) ?_) ?_) ?_) ?_ <;>
          first | exact T.name_decInt _ _ | exact T.name_decNat _ _ | exact hl (by decide) _ | exact T.run_of_lit (s := []) (e := ['{']) (by decide) d | exact T.run_of_lit (s := ['{']) (e := []) (by decide) d
      · intro d
        refine T.append (e := '{' :: d) (T.append (e := '{' :: d) (T.append (e := '{' :: d) (T.append (e := '{' :: d) ?_ ?_) ?_) ?_) ?_ <;>
          first | exact T.name_decInt _ _ | exact T.name_decNat _ _ | exact hl (by decide) _ | exact T.run_of_lit (s := []) (e := ['{']) (by decide) d | exact T.run_of_lit (s := ['{']) (e := []) (by decide) d
    · exact T.name_nil

theorem thunk_ok (f : FuncSig) (a : ThisAdjustor) (b : Bool)
    (hk : ∀ p ∈ sigKids f, Good T c A p.1 p.2) :
    ∃ d, Out T [] d (thunkPre E r f b) ∧ Out T d [] (thunkPost E r f a b) := by
  obtain ⟨d, h1, h2⟩ := func_ok E hr hN f b hk
  refine ⟨d, ?_, ?_⟩
  · exact seq (e := []) (when fun _ => lit (by decide)) h1
  · exact seq (e := d) (name (thunkText_name _ _)) h2

omit hN hr in
theorem pointeeParen_ok (nd : Node) (d : List Char) :
    Out T d (if nd.isArrayOrSig then '(' :: d else d) (pointeeParen E nd) := by
  have hs : ∀ f : FuncSig, Out T d ('(' :: d) (do
      Undname.write c!"("
      Undname.whenB (!E.flags.no_calling_convention && !E.flags.no_ms_keywords) do
        Undname.whenSome f.call_convention fun cc => do
          cc.output E
          Undname.write c!" ") := fun f =>
    seq (wr (T.opn paren d)) (when fun _ => whenS fun cc _ => seq (Out.conv E cc _) (lit (by decide)))
  cases nd
  all_goals first
    | exact hs _
    | exact wr (T.opn paren d)
    | exact Out.pure d

theorem pointee_ok (p : Handle) {nd : Node} (hg : Good T c A .type p) (h1 : c[p]? = some nd) :
    ∃ d, Out T [] d (pointeePre E r p nd) ∧ Out T d [] (pointeePost E r p nd) := by
  obtain ⟨_, nd', h1', h2, h3, h4⟩ := hg.elim
  rw [h1] at h1'
  cases h1'
  cases nd
  case FunctionSignature f => exact func_ok E hr hN f true h4
  case ThunkSignature f a => exact thunk_ok E hr hN f a true h4
  all_goals exact hr.type hg (Or.inl rfl)

theorem pointer_ok (quals : Qualifiers) (a : Option PointerAffinity) (cp : Option Handle) (p : Handle)
    (ha : a.isSome) (hcp : ∀ h, cp = some h → Good T c A .qn h) (hp : Good T c A .type p) :
    ∃ d, Out T [] d (pointerPre E c r quals a cp p) ∧ Out T d [] (pointerPost E c r p) := by
  obtain ⟨nd, hres, hc, _⟩ := hp.resolve
  obtain ⟨d, hpre, hpost⟩ := pointee_ok E hr hN p hp hc
  refine ⟨if nd.isArrayOrSig then '(' :: d else d, ?_, ?_⟩
  · unfold pointerPre
    refine lift hres ?_
    refine seq (e := d) hpre ?_
    refine seq (e := d) (space E d) ?_
    refine seq (e := d) (when fun _ => ite (fun _ => lit (by decide)) (fun _ => lit (by decide))) ?_
    refine seq (pointeeParen_ok E nd d) ?_
    refine seq (whenS fun h hh => seq (hr.at (hcp h hh) _) (lit (by decide))) ?_
    cases a with
    | none => simp at ha
    | some a => exact seq (lit (PointerAffinity.text_lit a)) (Out.quals E quals _ _ _)
  · unfold pointerPost
    refine lift hres ?_
    refine seq (e := d) ?_ hpost
    by_cases hs : nd.isArrayOrSig = true
    · rw [hs]; exact wr (T.cls paren d)
    · simp only [Bool.not_eq_true] at hs
      rw [hs]; exact Out.pure d

omit hN hr in
theorem sepBy_ok {sep : Text} {f : Handle → W Unit} {l : List Handle} {d : List Char} (hs : Out T d d (write sep))
    (hf : ∀ h ∈ l, Out T d d (f h)) : Out T d d (sepBy sep f l) := by
  have hrest : ∀ l, (∀ h ∈ l, Out T d d (f h)) → Out T d d (sepBy.rest sep f l) := by
    intro l
    induction l with
    | nil => intro _; exact Out.pure' d
    | cons x xs ih =>
      intro h
      exact seq hs (seq (h x (by simp)) (ih fun y hy => h y (by simp [hy])))
  cases l with
  | nil => exact Out.pure' d
  | cons x xs => exact seq (hf x (by simp)) (hrest xs fun y hy => hf y (by simp [hy]))

omit hN hr in
theorem dims_ok {h : Handle} (hg : Good T c A .dims h) (d : List Char) :
    Out T ('[' :: d) ('[' :: d) (output_dimensions_impl c h) := by
  obtain ⟨_, nd, h1, h2, h3, h4⟩ := hg.elim
  unfold output_dimensions_impl
  cases nd <;> simp [GK.ok, Node.is] at h2
  case NodeArray nodes =>
    refine lift (a := .NodeArray nodes) (by simp [resolve, h1, Node.is]) ?_
    refine sepBy_ok (litR ['['] ['['] (by decide) d) ?_
    intro x hx
    have hgx := h4 (.intLit, x) (by simp [kids]; exact hx)
    obtain ⟨_, ndx, hx1, hx2, hx3⟩ := hgx.elim
    unfold output_one_dimension
    cases ndx <;> simp [GK.ok] at hx2
    case IntegerLiteral v n =>
      refine lift (a := .IntegerLiteral v n) (by simp [resolve, hx1, Node.is]) ?_
      refine when fun _ => name ?_
      unfold integerText
      refine T.name_append ?_ (T.name_decNat _)
      split
      · exact T.name_of_lit (by decide)
      · exact T.name_nil

theorem typeNode_ok (nd : Node) (ht : nd.isType = true) (hok : nodeOK T nd)
    (hk : ∀ p ∈ kidsOf nd, Good T c A p.1 p.2) :
    ∃ d, Out T [] d (preNode E c r nd) ∧ Out T d [] (postNode E c r nd) := by
  cases nd <;> simp [Node.isType] at ht
  case PrimitiveType q k =>
    exact ⟨[], seq (lit (PrimitiveKind.text_lit k)) (Out.quals E q _ _ _), Out.pure []⟩
  case FunctionSignature f => exact func_ok E hr hN f false hk
  case ThunkSignature f a => exact thunk_ok E hr hN f a false hk
  case PointerType q a cp p =>
    exact pointer_ok E hr hN q a cp p hok
      (fun h hh => hk (.qn, h) (by simp [kidsOf, optKid_mem hh]))
      (hk (.type, p) (by simp [kidsOf]))
  case TagType q n t =>
    refine ⟨[], ?_, Out.pure []⟩
    refine seq (e := []) (when fun _ => lit (TagKind.text_lit t)) ?_
    exact seq (hr.out (hk (.qn, n) (by simp [kidsOf]))) (Out.quals E q _ _ _)
  case ArrayType q dm e =>
    obtain ⟨d, h1, h2⟩ := hr.type (hk (.type, e) (by simp [kidsOf])) (Or.inl rfl)
    refine ⟨d, seq h1 (Out.quals E q _ _ _), ?_⟩
    refine seq (e := '[' :: d) (litR [] ['['] (by decide) d) ?_
    refine seq (e := '[' :: d) (dims_ok (hk (.dims, dm) (by simp [kidsOf])) d) ?_
    exact seq (litR ['['] [] (by decide) d) h2
  case CustomType q i => exact ⟨[], hr.out (hk (.ident, i) (by simp [kidsOf])), Out.pure []⟩

omit hN in
theorem templateParams_ok (tp : Option Handle) (hk : ∀ h, tp = some h → Good T c A .arr h) (d : List Char) :
    Out T d d (templateParams r tp) := by
  unfold templateParams
  exact whenS fun h hh => seq (litR [] ['<'] (by decide) d) (seq (hr.at (hk h hh) ('<' :: d)) (litR ['<'] [] (by decide) d))

omit hr hN in
theorem offsetsText_run (x : Int) (xs : List Int) (d : List Char) : T.run ('{' :: d) (offsetsText (x :: xs)) d := by
    refine T.append (T.name_append (T.name_decInt x) ?_ ('{' :: d)) (T.run_of_lit (s := ['{']) (e := []) (by decide) d)
    induction xs with
    | nil => exact T.name_nil
    | cons y ys ih =>
      simp only [List.map_cons, List.flatten_cons]
      exact T.name_append (T.name_append (T.name_of_lit (by decide)) (T.name_decInt y)) ih

theorem variable_ok (n : Option VariableSymbolName) (sc : Option StorageClass) (t : Option Handle)
    (hn : n.isSome) (hk : ∀ p ∈ kidsOf (.VariableSymbol n sc t), Good T c A p.1 p.2) :
    Out T [] [] (variableOut E r n sc t) := by
  unfold variableOut
  refine seq (e := []) (when fun _ => lit (StorageClass.access_lit sc)) ?_
  refine seq (e := []) (when fun _ => lit (by decide)) ?_
  cases n with
  | none => simp at hn
  | some n =>
    cases n with
    | Qualified q =>
      have hq : Good T c A .qn q := hk (.qn, q) (by simp [kidsOf])
      have ht : ∀ x, t = some x → Good T c A .type x := fun x hx =>
        hk (.type, x) (by simp [kidsOf, optKid_mem hx])
      simp only
      generalize hty : (if (!E.flags.no_variable_type && !E.flags.name_only) = true then t else none) = ty
      have hty' : ∀ x, ty = some x → Good T c A .type x := by
        intro x hx
        subst hty
        split at hx
        · exact ht x hx
        · simp at hx
      cases ty with
      | none =>
        refine seq (e := []) (Out.pure' []) ?_
        exact seq (e := []) (hr.out hq) (Out.pure' [])
      | some x =>
        obtain ⟨d, h1, h2⟩ := hr.type (hty' x rfl) (Or.inl rfl)
        refine seq (e := d) (seq (e := d) h1 (space E d)) ?_
        exact seq (e := d) (hr.at hq d) h2
    | TypeDescriptor =>
      refine seq (e := []) (whenS fun x hx => hr.out (hk (.type, x) (by simp [kidsOf, optKid_mem hx]))) ?_
      exact when fun _ => seq (space E []) (lit (by decide))

theorem outNode_ok (nd : Node) (hok : nodeOK T nd) (hk : ∀ p ∈ kidsOf nd, Good T c A p.1 p.2) :
    Out T [] [] (outNode E c r nd) := by
  have htype : nd.isType = true → Out T [] [] (do preNode E c r nd; postNode E c r nd) := by
    intro ht
    obtain ⟨d, h1, h2⟩ := typeNode_ok E hr hN nd ht hok hk
    exact seq h1 h2
  cases nd
  case VcallThunkIdentifier tp off =>
    unfold outNode
    exact ite (fun _ => name (T.name_wrap '{' (by decide) (T.name_decNat _) (by decide)))
      (fun _ => name (T.name_wrap '{' (by decide) (T.name_decNat _) (by decide)))
  case DynamicStructorIdentifier tp i dd =>
    unfold outNode
    refine seq (e := []) (lit (by cases dd <;> decide)) ?_
    cases i with
    | Variable v =>
      exact seq (e := []) (lit (by decide)) (seq (e := []) (hr.out (hk (.var, v) (by simp [kidsOf])))
        (lit (by decide)))
    | Name n =>
      exact seq (e := []) (lit (by decide)) (seq (e := []) (hr.out (hk (.qn, n) (by simp [kidsOf])))
        (lit (by decide)))
  case NamedIdentifier tp t =>
    unfold outNode
    exact seq (e := []) (name hok) (templateParams_ok hr tp
      (fun h hh => hk (.arr, h) (by simp [kidsOf, optKid_mem hh])) [])
  case IntrinsicFunctionIdentifier tp op =>
    unfold outNode
    exact seq (e := []) (whenS fun o ho => name (hok o ho)) (templateParams_ok hr tp
      (fun h hh => hk (.arr, h) (by simp [kidsOf, optKid_mem hh])) [])
  case LiteralOperatorIdentifier tp t =>
    unfold outNode
    exact seq (e := []) (name (T.name_append (T.name_of_lit (by decide)) hok)) (templateParams_ok hr tp
      (fun h hh => hk (.arr, h) (by simp [kidsOf, optKid_mem hh])) [])
  case LocalStaticGuardIdentifier tp th idx =>
    unfold outNode
    refine seq (e := []) (lit (by cases th <;> decide)) (when fun _ => name ?_)
    exact T.name_wrap '{' (by decide) (T.name_decNat _) (by decide)
  case ConversionOperatorIdentifier tp t =>
    unfold outNode
    refine seq (e := []) (lit (by decide)) ?_
    refine seq (e := []) (templateParams_ok hr tp
      (fun h hh => hk (.arr, h) (by simp [kidsOf, optKid_mem hh])) []) ?_
    refine seq (e := []) (lit (by decide)) ?_
    exact whenS fun x hx => hr.out (hk (.type, x) (by simp [kidsOf, optKid_mem hx]))
  case StructorIdentifier tp cl dd =>
    unfold outNode
    refine seq (e := []) (when fun _ => lit (by decide)) ?_
    refine seq (e := []) (whenS fun x hx =>
      hr.out (hk (.ident, x) (by simp [kidsOf, optKid_mem hx]))) ?_
    exact templateParams_ok hr tp (fun h hh => hk (.arr, h) (by simp [kidsOf, optKid_mem hh])) []
  case RttiBaseClassDescriptor tp nv vb vt fl =>
    unfold outNode
    have e1 : (c!"`RTTI Base Class Descriptor at (" : Text) =
        c!"`RTTI Base Class Descriptor at " ++ ['('] := by decide
    have e2 : (c!")'" : Text) = [')'] ++ c!"'" := by decide
    rw [e1, e2]
    refine wr ?_
    have hl : ∀ {t}, litOK t = true → ∀ d, T.run d t d := fun h d => T.name_of_lit h d
    refine T.append (e := ['(']) (T.append (e := ['(']) (T.append (e := ['(']) (T.append (e := ['(']) (T.append (e := ['('])
      (T.append (e := ['(']) (T.append (e := ['(']) (T.append (e := ['(']) ?_ ?_) ?_) ?_) ?_) ?_) ?_) ?_) ?_
    · exact T.append (hl (by decide) []) (T.opn paren [])
    · exact T.name_decNat _ _
    · exact hl (by decide) _
    · exact T.name_decInt _ _
    · exact hl (by decide) _
    · exact T.name_decNat _ _
    · exact hl (by decide) _
    · exact T.name_decNat _ _
    · exact T.append (T.cls paren []) (hl (by decide) [])
  case NodeArray nodes =>
    unfold outNode
    exact sepBy_ok (lit (by decide)) fun x hx => hr.out (hk (.any, x) (by simp [kidsOf]; exact hx))
  case QualifiedName comps =>
    unfold outNode
    obtain ⟨nd, hres, hc, his, _, hkk⟩ := (hk (.comps, comps) (by simp [kidsOf])).comps_arr.resolve
    refine lift hres ?_
    cases nd <;> simp [Node.is] at his
    case NodeArray nodes =>
      exact sepBy_ok (lit (by decide)) fun x hx => hr.out (hkk (.any, x) (by simp [kidsOf]; exact hx))
  case TemplateParameterReference s offs a mp =>
    unfold outNode
    have hsym : ∀ d, Out T d d (Undname.whenSome s (fun s => do
          r.out .ISymbolNode s
          Undname.whenB (!offs.isEmpty) (write c!", "))) := fun d =>
      whenS fun x hx => seq (e := d) (hr.at (hk (.sym, x) (by simp [kidsOf, optKid_mem hx])) d) (when fun _ => lit (by decide))
    cases offs with
    | nil => exact seq (e := []) (when fun _ => lit (by decide)) (seq (e := []) (hsym []) (wr (T.nil [])))
    | cons x xs => exact seq (e := ['{']) (litR [] ['{'] (by decide) []) (seq (e := ['{']) (hsym ['{']) (wr (offsetsText_run x xs [])))
  case IntegerLiteral v n =>
    unfold outNode integerText
    refine name (T.name_append ?_ (T.name_decNat _))
    split
    · exact T.name_of_lit (by decide)
    · exact T.name_nil
  case Md5Symbol n => exact hr.out (hk (.qn, n) (by simp [kidsOf]))
  case SpecialTableSymbol n t q =>
    unfold outNode
    refine seq (e := []) (when fun _ => Out.quals E q _ _ _) ?_
    refine seq (e := []) (hr.out (hk (.qn, n) (by simp [kidsOf]))) ?_
    refine whenS fun x hx => seq (e := ['{']) (litR [] ['{'] (by decide) []) (seq (e := ['{']) ?_ (litR ['{'] [] (by decide) []))
    exact hr.at (hk (.qn, x) (by simp [kidsOf, optKid_mem hx])) ['{']
  case LocalStaticGuardVariable n v => exact hr.out (hk (.qn, n) (by simp [kidsOf]))
  case EncodedStringLiteral n t tr ch =>
    unfold outNode
    refine name (T.name_append (T.name_append (T.name_append (T.name_of_lit (CharKind.prefix_lit ch))
      (fun d => T.lit_run hok d)) (T.name_of_lit (by decide))) ?_)
    cases tr
    · exact T.name_nil
    · exact T.name_of_lit (by decide)
  case VariableSymbol n sc t => exact variable_ok E hr hN n sc t hok hk
  case FunctionSymbol n s =>
    unfold outNode
    obtain ⟨d, h1, h2⟩ := hr.type (hk (.sig, s) (by simp [kidsOf])) (Or.inr rfl)
    refine seq (e := d) h1 (seq (e := d) (space E d) (seq (e := d) (whenS fun x hx => ?_) h2))
    exact hr.at (hk (.qn, x) (by simp [kidsOf, optKid_mem hx])) d
  all_goals exact htype rfl

end

/-! ### The budget suffices -/

/-- If `A` has at most `n` members, rendering needs no more than `n` levels. -/
theorem outFns_ok (E : Env) (c : Cache)
    (hN : E.flags.name_only = true → ∀ d u d' e e', T.run d u d' → T.run e u e') (n : Nat) :
    ∀ (l : List Handle), l.length ≤ n → RendOK T c (fun i => i ∈ l) (outFns E c n) := by
  induction n with
  | zero =>
    intro l hl
    have : l = [] := List.length_eq_zero_iff.1 (by omega)
    subst this
    constructor
    · intro kd h hg; exact absurd hg.elim.1 (by simp)
    · intro kd h hg; exact absurd hg.elim.1 (by simp)
  | succ n ih =>
    intro l hl
    have key : ∀ {kd h}, Good T c (fun i => i ∈ l) (.k kd) h →
        ∃ nd, resolve kd c h = .ok nd ∧ nd.is kd = true ∧ nodeOK T nd ∧
          RendOK T c (fun i => i ∈ l.filter (· ≠ h)) (outFns E c n) ∧
          ∀ p ∈ kidsOf nd, Good T c (fun i => i ∈ l.filter (· ≠ h)) p.1 p.2 := by
      intro kd h hg
      obtain ⟨hl', nd, h1, h2, h3, h4⟩ := hg.kids_avoid
      refine ⟨nd, ?_, h2, h3, ih _ ?_, ?_⟩
      · unfold resolve
        simp only [GK.ok] at h2
        simp [h1, h2]
      · have : (l.filter (· ≠ h)).length < l.length := by
          rw [← Nat.not_le]
          intro hle
          have := (List.length_filter_eq_length_iff.1 (Nat.le_antisymm (List.length_filter_le _ _) hle)) h hl'
          simp at this
        omega
      · intro p hp
        exact (h4 p hp).mono fun i hi => by simp [hi.1, hi.2]
    constructor
    · intro kd h hg
      obtain ⟨nd, hres, _, hok, hr, hk⟩ := key hg
      exact lift hres (outNode_ok E hr hN nd hok hk)
    · intro kd h hg hkd
      obtain ⟨nd, hres, his, hok, hr, hk⟩ := key hg
      have ht : nd.isType = true := by
        rcases hkd with rfl | rfl
        · exact his
        · revert his
          cases nd <;> simp [Node.is, Node.isSignature, Node.isType]
      obtain ⟨d, h1, h2⟩ := typeNode_ok E hr hN nd ht hok hk
      exact ⟨d, lift hres h1, lift hres h2⟩

/-- Rendering a good handle. -/
theorem render_ok (E : Env) (c : Cache) {A : Handle → Prop} {kd : Kind} {h : Handle}
    (hN : E.flags.name_only = true → ∀ d u d' e e', T.run d u d' → T.run e u e')
    (hg : Good T c A (.k kd) h) : Out T [] [] (render E c kd h) := by
  have hg' : Good T c (fun i => i ∈ List.range c.length) (.k kd) h :=
    hg.bound.mono fun i hi => by simp [hi.2]
  exact (outFns_ok E c hN (c.length + 1) (List.range c.length) (by simp)).out hg'

end Undname
