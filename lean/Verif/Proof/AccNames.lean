/-
  What the text must have been when a name is read.
-/
import Verif.Proof.AccLeaf

namespace Undname
open Spec (CV FnKind Sig Adjust AdjKind Access T Tbl Ext Name Fits Cat Gram cvCodes memberCvCodes hashed locator hashT)

/-! ### More rules -/

section
variable {α β : Type} {w : World} {c : Cache} {tb tb' : Tbl} {t x rest : Text} {ns ps : List Handle} {R : β → St → Prop}

theorem After.firstIs {f : Char → Bool} {k : Bool → P β} (h1 : ∀ y u, t = y :: u → f y = true → After (k true) (mk t c ns ps) R)
    (h0 : (∀ y u, t = y :: u → f y = false) → After (k false) (mk t c ns ps) R) :
    After (Undname.firstIs f >>= k) (mk t c ns ps) R := by
  cases t with
  | nil => exact After.step rfl (h0 (by intro y u h; cases h))
  | cons z u =>
    refine After.step (firstIs_cons z u c ns ps f) ?_
    cases h : f z with
    | true => exact h1 z u rfl h
    | false => exact h0 (by intro y v e; cases e; exact h)

theorem After.queryE {f : MStr → Except Fail α} {k : α → P β} (h : ∀ a, f (MStr.new t) = .ok a → After (k a) (mk t c ns ps) R) :
    After (Undname.queryE f >>= k) (mk t c ns ps) R := by
  cases e : f (MStr.new t) with
  | error f' => exact After.bind_error (by rw [queryE_mk, e]; rfl)
  | ok a => exact After.step (by rw [queryE_mk, e]; rfl) (h a e)

theorem After.res {kd : Kind} {i : Handle} {nd : Node} {b : Bool} {k : Node → P β}
    (e : w[i]? = some (nd, b)) (hk : After (k nd) (mk x w.c ns ps) R) : After (resolveP kd i >>= k) (mk x w.c ns ps) R := by
  by_cases hn : nd.is kd = true
  · exact After.step (m := resolveP kd i) (by simp only [resolveP, run, resolve_get (World.c_get e) hn]) hk
  · refine After.bind_error (f := .crash .panic) ?_
    simp only [resolveP, run]
    have : Undname.resolve kd w.c i = .error (.crash .panic) := by
      unfold Undname.resolve; rw [World.c_get e]; simp [hn]
    rw [this]; rfl

theorem After.down {src dst : Kind} {i : Handle} {nd : Node} {b : Bool} {k : Option Handle → P β}
    (e : w[i]? = some (nd, b)) (hk : After (k (if nd.is dst then some i else none)) (mk x w.c ns ps) R) :
    After (downcastP src dst i >>= k) (mk x w.c ns ps) R := by
  by_cases hn : nd.is src = true
  · exact After.step (m := downcastP src dst i) (by simp only [downcastP, run, Undname.downcast, resolve_get (World.c_get e) hn]) hk
  · refine After.bind_error (f := .crash .panic) ?_
    simp only [downcastP, run]
    have : Undname.downcast src dst w.c i = .error (.crash .panic) := by
      unfold Undname.downcast Undname.resolve; rw [World.c_get e]; simp [hn]
    rw [this]; rfl

theorem After.modify {kd : Kind} {i : Handle} {nd : Node} {b : Bool} (b' : Bool) {f : Node → Node} {k : Unit → P β}
    (e : w[i]? = some (nd, b)) (h : After (k ()) (mk x (World.c (w.set i (f nd, b'))) ns ps) R) :
    After (modifyNode kd i f >>= k) (mk x w.c ns ps) R := by
  refine After.simB (Q := fun _ s => s = mk x (World.c (w.set i (f nd, b'))) ns ps) (Sim.modify_end b' e rfl) ?_
  rintro ⟨⟩ s rfl
  exact h

/-- Printing into a fresh buffer succeeds only if the text fits. -/
theorem After.runW {m : W Unit} {f : Text → Text} {k : Text → P β} {s : St} (hm : Em m f) (hk : Fits (f []) → After (k (f [])) s R) :
    After (Undname.runW m [] >>= k) s R := by
  have h := hm.run [] (by decide)
  have e : exec (Undname.runW m []) s = match exec m [] with | .ok (_, t') => .ok (t', s) | .error e => .error e := rfl
  revert h
  cases h' : exec m [] with
  | error f' => intro _; exact After.bind_error (by rw [e, h'])
  | ok p =>
    obtain ⟨⟨⟩, t⟩ := p
    rintro ⟨rfl, hf⟩
    exact After.step (by rw [e, h']) (hk hf)

theorem After.memo {s : Text} {k : Unit → P β} (ht : Tab w tb ns ps)
    (hk : ∀ (w' : World) ns', w <+: w' → Tab w' (tb.note s) ns' ps → After (k ()) (mk x w'.c ns' ps) R) :
    After (memorize_string s >>= k) (mk x w.c ns ps) R := by
  refine After.bind (Q := fun _ s' => ∃ w' : World, ∃ ns', s' = mk x w'.c ns' ps ∧ w <+: w' ∧ Tab w' (tb.note s) ns' ps) (After.sim ?_) ?_
  · refine Sim.of_eq (m' := memorize_string s >>= fun _ => Pure.pure ()) (s' := mk x w.c ns ps) ?_ (sim_memo ht fun w' ns' hp ht' => Sim.pure ⟨w', ns', rfl, hp, ht'⟩)
    rw [run_bind_eq]
    cases exec (memorize_string s) (mk x w.c ns ps) <;> rfl
  · rintro ⟨⟩ s ⟨w', ns', rfl, hp, ht'⟩
    exact hk w' ns' hp ht'

theorem After.memoId {E : Env} {t : T} {k : Unit → P β} {h : Handle} (ht : Tab w tb ns ps) (H : Rep w t (.H h))
    (hk : Fits (t.text E) → ∀ (w' : World) ns', w <+: w' → Tab w' (tb.note (t.text E)) ns' ps → After (k ()) (mk x w'.c ns' ps) R) :
    After (memorize_identifier (render E) h >>= k) (mk x w.c ns ps) R := by
  unfold memorize_identifier
  refine After.of_eq (s' := mk x w.c ns ps) (m' := Undname.runW (render E w.c .IIdentifierNode h) [] >>= fun t => memorize_string t >>= k) ?_ ?_
  · simp only [run]
    cases exec (Undname.runW (render E w.c .IIdentifierNode h) []) (mk x w.c ns ps) <;> rfl
  · exact After.runW (render_em H _) fun hf => After.memo ht (hk hf)

/-- A loop over the input. -/
theorem After.loop {δ γ : Type} {body : γ → P (γ ⊕ δ)} {b : γ} {Q : δ → St → Prop} (h : ∀ k, After (SM.iterate k body b) (mk x c ns ps) Q) :
    After (loopInput body b) (mk x c ns ps) Q := After.of_eq (run_loop body b x) (h _)

end

theorem Runs.loop {γ δ : Type} {body : γ → P (γ ⊕ δ)} {b : γ} {x : Text} {tb tb' : Tbl} {Q : World → World → δ → Prop}
    (h : ∀ k, Runs (SM.iterate k body b) x tb tb' Q) : Runs (loopInput body b) x tb tb' Q :=
  fun rest w ns ps ht => Sim.loop fun k => h k rest w ns ps ht

/-! ### What the recursive calls read -/

/-- A symbol, a symbol up to the end of the input, or a hashed name. -/
def ParseOk (E : Env) (tb : Tbl) (s : Text) : Prop :=
  Took E .sym tb s ∨ (∃ t tb', Gram E .symEnd tb t s tb') ∨ ∃ u R, s = hashed u ++ R ∧ '@' ∉ u ∧ ¬ locator <+: R

structure AccN (E : Env) (n : Nat) : Prop where
  drop : Acc E .ty ((fns (render E) n).type .Drop)
  result : Acc E .tyR ((fns (render E) n).type .Result)
  mangle : ∀ {tb : Tbl} {s : Text} {w : World} {ns ps : List Handle}, Tab w tb ns ps →
    Wh ((fns (render E) n).type .Mangle) (mk s w.c ns ps) (∃ ch q s', (ch, q) ∈ cvCodes ++ memberCvCodes ∧ s = ch :: s' ∧ Took E .ty tb s')
  simple : Acc E .tmpl ((fns (render E) n).tmpl .Simple)
  template : Acc E .uname ((fns (render E) n).tmpl .Template)
  parse : ∀ {tb : Tbl} {s : Text} {w : World} {ns ps : List Handle}, Tab w tb ns ps →
    Wh (fns (render E) n).parse (mk s w.c ns ps) (ParseOk E tb s)

theorem accN_zero (E : Env) : AccN E 0 :=
  ⟨fun _ => After.crash, fun _ => After.crash, fun _ => After.crash, fun _ => After.crash, fun _ => After.crash, fun _ => After.crash⟩

section
variable {E : Env} {n : Nat} {tb : Tbl} {s : Text} {w : World} {ns ps : List Handle}

/-- A nested symbol. -/
def Nested (E : Env) (tb : Tbl) (s R : Text) (t : T) (tb' : Tbl) : Prop :=
  (∃ x, s = x ++ R ∧ Gram E .sym tb t x tb') ∨ R = [] ∨ ∃ u, s = hashed u ++ R ∧ '@' ∉ u ∧ ¬ locator <+: R ∧ t = hashT (hashed u) ∧ tb' = tb

theorem nested_of (hn : AccN E n) {β : Type} {k : Handle → P β} {Q : β → St → Prop} (ht : Tab w tb ns ps)
    (hk : ∀ R t tb', Nested E tb s R t tb' → ∀ a (w' : World) ns' ps', w <+: w' → Tab w' tb' ns' ps' → Seen t w w' a → (∀ i, t.ident = some i → T.isIdNode i = true) →
      After (k a) (mk R w'.c ns' ps') Q) : After ((fns (render E) n).parse >>= k) (mk s w.c ns ps) Q := by
  refine After.know (hn.parse ht) ?_
  rintro (⟨x, R, t, tb', rfl, hg⟩ | ⟨t, tb', hg⟩ | ⟨u, R, rfl, h1, h2⟩)
  · have hm : MSym E tb t x tb' := gram_reads hg
    exact Runs.post (hm.run n) ht fun a w' ns' ps' hp ht' hq => hk R t tb' (.inl ⟨x, rfl, hg⟩) a w' ns' ps' hp ht' hq hm.ident
  · have hm : MSymEnd E tb t s tb' := gram_reads hg
    have := RunsAt.post (k := k) (R := Q) (hm n) ht fun a w' ns' ps' hp ht' hq => hk [] t tb' (.inr (.inl rfl)) a w' ns' ps' hp ht' hq ?_
    · rwa [List.append_nil] at this
    · cases hg with
      | guardEnd th vis _ => intro i hi; have := hi.symm.trans (last_snoc _ _); cases this; rfl
      | typeinfo _ => intro i hi; cases hi
      | rttiType _ => intro i hi; cases hi; rfl
  · exact RunsAt.post (hash_run h1 h2 n) ht fun a w' ns' ps' hp ht' hq =>
      hk R _ tb (.inr (.inr ⟨u, rfl, h1, h2, rfl, rfl⟩)) a w' ns' ps' hp ht' hq (by intro i hi; cases hi; rfl)

/-! ### Names of types -/

/-- A name that begins with `?`. -/
def OddName (s : Text) : Prop := ∃ u R, s = '?' :: u ++ '@' :: R ∧ '@' ∉ u ∧ u.head? ≠ some '$'

theorem simple_inv (b : Bool) : Wh (demangle_simple_name b) (mk s w.c ns ps) (∃ x u, s = x ++ '@' :: u ∧ x ≠ [] ∧ '@' ∉ x) := by
  unfold demangle_simple_name
  exact After.know (sstring_inv b) fun h => After.now h

theorem uname_back (ht : Tab w tb ns ps) : Wh demangle_back_ref_name (mk s w.c ns ps)
    (∃ i u t, i < 10 ∧ s = Spec.digit i ++ u ∧ tb.names[i]? = some t) := by
  refine After.mono backref_inv ?_
  rintro _ _ ⟨i, u, hi, rfl, h, hh⟩
  obtain ⟨t, h1, _⟩ := ht.names.get' hh
  exact ⟨i, u, t, hi, rfl, h1⟩

theorem name_of {x : Text} (h0 : x ≠ []) (h : '@' ∉ x) (hd : ∀ y u, x = y :: u → isDigit y = false) (hq : x.head? ≠ some '?') : Name x := by
  refine ⟨h0, h, ?_⟩
  intro c hc
  cases x with
  | nil => cases hc
  | cons z u =>
    cases hc
    exact ⟨by rw [← isDigit_eq]; exact hd _ _ rfl, fun e => hq (by rw [e]; rfl)⟩

theorem uname_inv (hn : AccN E n) (ht : Tab w tb ns ps) : Wh (demangle_unqualified_type_name (fns (render E) n) true) (mk s w.c ns ps)
    (Took E .uname tb s ∨ OddName s) := by
  unfold demangle_unqualified_type_name
  refine After.firstIs (fun y u e hy => ?_) fun hd => ?_
  · refine After.mono (uname_back ht) ?_
    rintro _ _ ⟨i, u, t, hi, rfl, h⟩
    exact .inl ⟨_, _, _, _, rfl, .uBack hi h⟩
  refine After.query ?_
  refine After.iteB (fun h => ?_) fun h => ?_
  · exact After.mono (hn.template ht) fun _ _ h => .inl h
  · refine After.mono (simple_inv true) ?_
    rintro _ _ ⟨x, u, rfl, h0, hat⟩
    by_cases hq : x.head? = some '?'
    · cases x with
      | nil => cases hq
      | cons z x =>
        cases hq
        refine .inr ⟨x, u, rfl, fun hm => hat (List.mem_cons_of_mem _ hm), ?_⟩
        intro hx
        cases x with
        | nil => cases hx
        | cons z x => cases hx; simp [run] at h
    · refine .inl ⟨x ++ c!"@", u, _, _, by simp, .uName (name_of h0 hat ?_ hq)⟩
      rintro y v rfl
      exact hd _ _ rfl

/-! ### Names of symbols -/

theorem code_char {c : Char} {g : CodeGroup} {o : Option IFK} (h : translate_intrinsic_function_code c g = .ok o) :
    isDigit c = true ∨ isUpper c = true := by
  unfold translate_intrinsic_function_code at h
  split at h
  · next h' => simpa using h'
  · cases h

theorem isUpper_of {c : Char} (hd : isUpper c = true) : ∃ d, d < 26 ∧ c = Char.ofNat ('A'.toNat + d) := by
  unfold isUpper at hd
  simp only [Bool.and_eq_true, decide_eq_true_eq] at hd
  have h0 : 'A'.toNat = 65 := rfl
  have h9 : 'Z'.toNat = 90 := rfl
  refine ⟨c.toNat - 65, by omega, ?_⟩
  have : 'A'.toNat + (c.toNat - 65) = c.toNat := by omega
  rw [this, Char.ofNat_toNat]

/-- The characters of codes. -/
def codeChars : List Char := c!"0123456789ABCDEFGHIJKLMNOPQRSTUVWXYZ"

theorem code_mem {c : Char} (h : isDigit c = true ∨ isUpper c = true) : c ∈ codeChars := by
  rcases h with h | h
  · obtain ⟨d, hd, rfl⟩ := isDigit_of h
    exact (by decide : ∀ d, d < 10 → Char.ofNat ('0'.toNat + d) ∈ codeChars) d hd
  · obtain ⟨d, hd, rfl⟩ := isUpper_of h
    exact (by decide : ∀ d, d < 26 → Char.ofNat ('A'.toNat + d) ∈ codeChars) d hd

theorem basic_codes : ∀ c ∈ codeChars, c = '0' ∨ c = '1' ∨ c = 'B' ∨ c ∈ Spec.basicOps.map (·.1) := by decide
theorem under_codes : ∀ c ∈ codeChars, c ∈ Spec.underOps.map (·.1) ∨ c ∈ Spec.underNone := by decide
theorem dunder_codes : ∀ c ∈ codeChars, c = 'K' ∨ c ∈ Spec.dunderOps.map (·.1) ∨ c ∈ Spec.dunderNone := by decide

theorem fid_inv : Wh demangle_function_identifier_code (mk s w.c ns ps) (∀ tb, Took E .fid tb s) := by
  unfold demangle_function_identifier_code
  refine After.expectChar fun s e => ?_
  subst e
  have mem : ∀ {c : Char} {l : List (Char × IFK)}, c ∈ l.map (·.1) → ∃ k, (c, k) ∈ l := by
    intro c l h
    obtain ⟨⟨a, k⟩, h1, rfl⟩ := List.mem_map.1 h
    exact ⟨k, h1⟩
  refine After.tryStr (fun u e => ?_) fun _ => ?_
  · subst e
    refine After.iteB (fun _ => ?_) (by simp)
    unfold demangle_function_identifier_code_group
    refine After.expectAny fun y u e => ?_
    subst e
    refine After.iteB (by simp) fun _ => After.iteB (by simp) fun _ => ?_
    refine After.iteB (fun h => ?_) fun hK => ?_
    · have : y = 'K' := by simpa using h
      subst this
      unfold demangle_literal_operator_identifier
      refine After.know (sstring_inv false) ?_
      rintro ⟨x, v, rfl, h0, hat⟩
      exact After.now fun tb => ⟨c!"?__K" ++ x ++ c!"@", v, _, _, by simp, .fLit h0 hat⟩
    · refine After.lift fun o ho => ?_
      refine After.now fun tb => ?_
      have hK : y ≠ 'K' := by simpa using hK
      rcases dunder_codes y (code_mem (code_char ho)) with h | h | h
      · exact (hK h).elim
      · obtain ⟨k, hk⟩ := mem h
        exact ⟨_, u, _, _, rfl, .fOpDunder hk⟩
      · exact ⟨_, u, _, _, rfl, .fOpNone2 h⟩
  · refine After.iteB (by simp) fun _ => ?_
    refine After.tryChar (fun u e => ?_) fun _ => ?_
    · subst e
      refine After.iteB (fun _ => ?_) (by simp)
      unfold demangle_function_identifier_code_group
      refine After.expectAny fun y u e => ?_
      subst e
      refine After.iteB (by simp) fun _ => After.iteB (by simp) fun _ => After.iteB (by simp) fun _ => ?_
      refine After.lift fun o ho => ?_
      refine After.now fun tb => ?_
      rcases under_codes y (code_mem (code_char ho)) with h | h
      · obtain ⟨k, hk⟩ := mem h
        exact ⟨_, u, _, _, rfl, .fOpUnder hk⟩
      · exact ⟨_, u, _, _, rfl, .fOpNone h⟩
    · refine After.iteB (by simp) fun _ => ?_
      unfold demangle_function_identifier_code_group
      refine After.expectAny fun y u e => ?_
      subst e
      refine After.iteB (fun h => ?_) fun h0 => After.iteB (fun h => ?_) fun hB => After.iteB (by simp) fun _ => ?_
      · refine After.now fun tb => ?_
        have : y = '0' ∨ y = '1' := by simpa using h
        rcases this with rfl | rfl
        · exact ⟨_, u, _, _, rfl, .fCtor⟩
        · exact ⟨_, u, _, _, rfl, .fDtor⟩
      · refine After.now fun tb => ?_
        have : y = 'B' := by simpa using h
        subst this
        exact ⟨_, u, _, _, rfl, .fConv⟩
      · refine After.lift fun o ho => ?_
        refine After.now fun tb => ?_
        have h0 : ¬ (y = '0' ∨ y = '1') := by simpa using h0
        have hB : y ≠ 'B' := by simpa using hB
        rcases basic_codes y (code_mem (code_char ho)) with h | h | h | h
        · exact (h0 (.inl h)).elim
        · exact (h0 (.inr h)).elim
        · exact (hB h).elim
        · obtain ⟨k, hk⟩ := mem h
          exact ⟨_, u, _, _, rfl, .fOp hk⟩

theorem sname_inv (hn : AccN E n) : Acc E .sname (demangle_unqualified_symbol_name (fns (render E) n) .Simple) := by
  intro tb s w ns ps ht
  unfold demangle_unqualified_symbol_name
  refine After.firstIs (fun y u e hy => ?_) fun hd => ?_
  · refine After.mono (uname_back ht) ?_
    rintro _ _ ⟨i, u, t, hi, rfl, h⟩
    exact ⟨_, _, _, _, rfl, .sBack hi h⟩
  refine After.query ?_
  refine After.iteB (fun h => ?_) fun h => ?_
  · refine After.mono (hn.simple ht) ?_
    rintro _ _ ⟨x, R, t, tb', rfl, hg⟩
    exact ⟨x, R, t, tb', rfl, .sTmpl hg⟩
  refine After.query ?_
  refine After.iteB (fun h => ?_) fun h => ?_
  · refine After.mono (fid_inv (E := E)) ?_
    intro _ _ h
    obtain ⟨x, R, t, tb', rfl, hg⟩ := h tb
    exact ⟨x, R, t, tb', rfl, .sFull hg⟩
  · refine After.mono (simple_inv true) ?_
    rintro _ _ ⟨x, u, rfl, h0, hat⟩
    refine ⟨x ++ c!"@", u, _, _, by simp, .sFull (.fName (name_of h0 hat ?_ ?_))⟩
    · rintro y v rfl
      exact hd _ _ rfl
    · intro hq
      cases x with
      | nil => cases hq
      | cons z x => cases hq; simp [run] at h

end

end Undname
