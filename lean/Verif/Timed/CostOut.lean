/-
  How many steps rendering takes: linear in the depth of the tree for every character written, for trees
  as the parser builds them (Proof/Good.lean).
-/
import Verif.Timed.Erase
import Verif.Proof.Good

namespace Undname.Timed
open Undname (Fail Error Crash Text Handle Cache Kind Node)

/-- The unit of the account: as many steps as it takes to validate a full buffer, plus one. -/
local notation "U" => (1048577 : Nat)

/-- The account after a computation on `w`: `e` units of credit, plus `K` units for every character written, leave `d`
units of credit on success; a failure overdraws it by at most `F` and what could still have been written. -/
def TcRes {α : Type} (K F e d : Nat) (w : Text) : Except Fail (α × Text) × Nat → Prop
  | (.ok (_, w'), t) => w'.length ≤ OUTPUT_LIMIT ∧ t + U * d + U * (K * w.length) ≤ U * e + U * (K * w'.length)
  | (.error _, t) => t + U * (K * w.length) ≤ U * e + U * F + U * (K * OUTPUT_LIMIT) + U * OUTPUT_LIMIT + U

/-- `m`, started with `e` units of credit, earning `K` units for every character written, succeeds with `d` units of
credit left, or fails having overdrawn the account by at most `F` and what could still have been written. -/
def Tc {α : Type} (K F e : Nat) (m : W α) (d : Nat) : Prop := ∀ w, w.length ≤ OUTPUT_LIMIT → TcRes K F e d w (m w)

namespace Tc
variable {α β : Type} {K F F' e e1 d d1 : Nat}

theorem short {w : Text} (h : w.length ≤ OUTPUT_LIMIT) : K * w.length ≤ K * OUTPUT_LIMIT := Nat.mul_le_mul_left _ h

theorem seq {m : W α} {f : α → W β} (h : Tc K F e1 m d1) (he : e1 + 1 ≤ e) (hf : ∀ a, Tc K F (e - e1 - 1 + d1) (f a) d) :
    Tc K F e (m >>= f) d := by
  intro w hw
  have h1 := h w hw
  show TcRes K F e d w (SM.bind m f w)
  unfold SM.bind
  rcases hm : m w with ⟨r, t⟩
  rw [hm] at h1
  cases r with
  | error x => simp only [TcRes] at h1 ⊢; omega
  | ok x =>
    have h2 := hf x.1 x.2 h1.1
    show TcRes K F e d w ((f x.1 x.2).1, t + (f x.1 x.2).2 + 1)
    rcases hn : f x.1 x.2 with ⟨r, t'⟩
    rw [hn] at h2
    cases r with
    | error y => simp only [TcRes] at h1 h2 ⊢; omega
    | ok y => simp only [TcRes] at h1 h2 ⊢; omega

theorem weaken {m : W α} (h : Tc K F e1 m d1) (he : e1 ≤ e) (hd : d ≤ e - e1 + d1) (hF : F ≤ F') : Tc K F' e m d := by
  intro w hw
  have h1 := h w hw
  rcases hm : m w with ⟨r, t⟩
  rw [hm] at h1
  cases r <;> simp only [TcRes] at h1 ⊢ <;> omega

theorem mono {m : W α} (h : Tc K F e1 m d1) (he : e1 ≤ e) (hd : d ≤ e - e1 + d1) : Tc K F e m d := h.weaken he hd (Nat.le_refl _)

/-- Credit that is paid back on success can be borrowed. -/
theorem loan {m : W α} {x : Nat} (h : Tc K F (e + x) m (d + x)) : Tc K (F + x) e m d := by
  intro w hw
  have h1 := h w hw
  rcases hm : m w with ⟨r, t⟩
  rw [hm] at h1
  cases r <;> simp only [TcRes] at h1 ⊢ <;> omega

theorem pure {a : α} (h : d ≤ e) : Tc K F e (Pure.pure a) d := by
  intro w hw
  show w.length ≤ OUTPUT_LIMIT ∧ 0 + U * d + U * (K * w.length) ≤ U * e + U * (K * w.length)
  omega

theorem pure' {a : α} (h : d ≤ e) : Tc K F e (SM.pure a) d := pure (a := a) h

theorem crash {x : Crash} : Tc K F e (SM.crash x : W α) d := by
  intro w hw
  show 1 + U * (K * w.length) ≤ _
  have := short (K := K) hw
  omega

theorem get : Tc K F 1 (SM.get : W Text) 0 := by
  intro w hw
  show w.length ≤ OUTPUT_LIMIT ∧ 1 + U * 0 + U * (K * w.length) ≤ U * 1 + U * (K * w.length)
  omega

theorem look : Tc K F 1 (Timed.look : W Text) 0 := by
  intro w hw
  have hO : OUTPUT_LIMIT = 1048576 := rfl
  show w.length ≤ OUTPUT_LIMIT ∧ 1 + w.length + U * 0 + U * (K * w.length) ≤ U * 1 + U * (K * w.length)
  omega

theorem length_le_utf8 (t : Text) : t.length ≤ utf8Len t := by
  induction t with
  | nil => exact Nat.zero_le _
  | cons c t ih =>
    have : 0 < c.utf8Size := c.utf8Size_pos
    simp [utf8Len] at *
    omega

theorem write' {t : Text} (hK : 1 ≤ K) (hd : 1 + t.length + d ≤ e + K * t.length) : Tc K F e (write t) d := by
  intro w hw
  show TcRes K F e d w (Undname.write t w, 1 + min t.length OUTPUT_LIMIT)
  have h0 := short (K := K) hw
  cases hx : Undname.write t w with
  | error x => simp only [TcRes]; omega
  | ok x =>
    unfold Undname.write at hx
    split at hx
    · rename_i hlt
      cases hx
      have h1 := length_le_utf8 t
      have h2 := length_le_utf8 w
      simp only [TcRes, List.length_append, Nat.mul_add]
      omega
    · cases hx

theorem mul_ge {K n : Nat} (hK : 1 ≤ K) : n ≤ K * n := Nat.le_mul_of_pos_left n hK

/-- Any text. -/
theorem write {t : Text} (hK : 1 ≤ K) : Tc K F 1 (Timed.write t) 0 := write' hK (by have := mul_ge (n := t.length) hK; omega)

/-- A text that is not empty pays for itself and more. -/
theorem write_pays {t : Text} (hK : 1 ≤ K) (ht : t ≠ []) : Tc K F 1 (Timed.write t) (K - 1) := write' hK (by
  cases t with
  | nil => exact absurd rfl ht
  | cons c t =>
    have := mul_ge (n := t.length) hK
    simp only [List.length_cons, Nat.mul_add]
    omega)

theorem whenB {b : Bool} {m : W Unit} (h : Tc K F e m d) (hd : d ≤ e) : Tc K F e (whenB b m) d := by
  cases b
  · exact pure' hd
  · exact h

theorem whenSome {α : Type} {o : Option α} {f : α → W Unit} (h : ∀ a, o = some a → Tc K F e (f a) d) (hd : d ≤ e) :
    Tc K F e (whenSome o f) d := by
  cases o
  · exact pure' hd
  · exact h _ rfl

theorem ite {b : Prop} [Decidable b] {m m' : W α} (h1 : Tc K F e m d) (h2 : Tc K F e m' d) : Tc K F e (if b then m else m') d := by
  split <;> assumption

theorem lift {x : Except Fail α} {f : α → W β} (he : 2 ≤ e) (h : ∀ a, x = .ok a → Tc K F (e - 2) (f a) d) : Tc K F e (SM.lift x >>= f) d := by
  intro w hw
  cases x with
  | error y =>
    show 1 + 1 + U * (K * w.length) ≤ _
    have := short (K := K) hw
    omega
  | ok a =>
    have h1 := h a rfl w hw
    show TcRes K F e d w ((f a w).1, 1 + (f a w).2 + 1)
    rcases hm : f a w with ⟨r, t⟩
    rw [hm] at h1
    cases r <;> simp only [TcRes] at h1 ⊢ <;> omega

end Tc

theorem resolve_node {k : Kind} {c : Cache} {h : Handle} {nd : Node} (hr : resolve k c h = .ok nd) : c[h]? = some nd := by
  unfold resolve at hr
  split at hr
  · split at hr
    · cases hr; assumption
    · cases hr
  · cases hr

/-- The rules for code with no calls. -/
macro "tc" : tactic => `(tactic| repeat' (first
  | assumption
  | with_reducible refine Tc.pure ?_ | with_reducible refine Tc.pure' ?_ | with_reducible exact Tc.crash
  | with_reducible refine Tc.seq Tc.get ?_ fun _ => ?_
  | with_reducible refine Tc.seq (Tc.write ?_) ?_ fun _ => ?_
  | with_reducible refine Tc.mono (Tc.write ?_) ?_ ?_
  | with_reducible refine Tc.ite ?_ ?_
  | omega))

section
variable {K F : Nat} (hK : 100 ≤ K) {E : Env}
include hK

theorem tc_space : Tc K F 5 (output_space_if_necessary E) 0 := by
  unfold output_space_if_necessary
  refine Tc.seq Tc.look (by omega) fun w => ?_
  cases w.getLast? <;> dsimp only
  · tc
  · exact Tc.whenB (by tc) (by omega)

theorem tc_single {q} : Tc K F 2 (Qualifiers.output_single_qualifier E q) 0 := by
  cases q <;> unfold Qualifiers.output_single_qualifier <;> tc

theorem tc_if_present {q m b} : Tc K F 8 (Qualifiers.output_if_present E q m b) 0 := by
  unfold Qualifiers.output_if_present
  refine Tc.ite ?_ (Tc.pure (by omega))
  refine Tc.seq (Tc.whenB (Tc.write (by omega)) (by omega)) (by omega) fun _ => ?_
  exact Tc.seq (tc_single hK) (by omega) fun _ => Tc.pure (by omega)

theorem tc_quals {q b b'} : Tc K F 40 (Qualifiers.output E q b b') 0 := by
  unfold Qualifiers.output
  refine Tc.whenB (Tc.seq Tc.get (by omega) fun _ => Tc.seq (tc_if_present hK) (by omega) fun _ =>
    Tc.seq (tc_if_present hK) (by omega) fun _ => Tc.seq (tc_if_present hK) (by omega) fun _ =>
    Tc.seq Tc.get (by omega) fun _ => ?_) (by omega)
  exact Tc.whenB (by tc) (by omega)

theorem tc_cc {cc} : Tc K F 8 (CallingConv.output E cc) 0 := by
  unfold CallingConv.output
  exact Tc.seq (tc_space hK) (by omega) fun _ => (Tc.write (by omega)).mono (by omega) (by omega)

end

/-! ### Nodes -/

/-- How expensive a node is, compared with a type's first half. -/
def wt (nd : Node) : Nat :=
  if nd.is .IIdentifierNode || nd.is .QualifiedName then 1
  else if nd.is .ITypeNode then 2
  else if nd.is .ISymbolNode then 3
  else 4

theorem wt_ident {nd : Node} (h : nd.is .IIdentifierNode = true) : wt nd = 1 := by simp [wt, h]
theorem wt_qn {nd : Node} (h : nd.is .QualifiedName = true) : wt nd = 1 := by simp [wt, h]
theorem wt_type {nd : Node} (h : nd.is .ITypeNode = true) : wt nd = 2 := by
  cases nd <;> first | (cases h; done) | rfl
theorem wt_sym {nd : Node} (h : nd.is .ISymbolNode = true) : wt nd = 3 := by
  cases nd <;> first | (cases h; done) | rfl
theorem wt_var {nd : Node} (h : nd.is .VariableSymbol = true) : wt nd = 3 := by
  cases nd <;> first | (cases h; done) | rfl
theorem wt_le {nd : Node} : wt nd ≤ 4 := by unfold wt; split <;> (try split) <;> (try split) <;> omega

/-- The functions one level down take at most `L` steps, times the weight. -/
structure RC (T : TSpec) (c : Cache) (A : Handle → Prop) (K F L : Nat) (r : OutFns) : Prop where
  out : ∀ {k h g nd}, Good T c A g h → c[h]? = some nd → Tc K F (wt nd * L) (r.out k h) 0
  pre : ∀ {k h g}, Good T c A g h → Tc K F L (r.pre k h) 0
  post : ∀ {k h g}, Good T c A g h → Tc K F L (r.post k h) 0

section
variable {T : TSpec} {c : Cache} {A : Handle → Prop} {K F L : Nat} {r : OutFns} {E : Env}
  (hr : RC T c A K F L r) (hK : 10 * L + 1000 ≤ K)
include hr

omit hr in
theorem RC.le {F'} (h : RC T c A K F L r) (hF : F ≤ F') : RC T c A K F' L r :=
  ⟨fun a b => (h.out a b).weaken (Nat.le_refl _) (by omega) hF, fun a => (h.pre a).weaken (Nat.le_refl _) (by omega) hF,
    fun a => (h.post a).weaken (Nat.le_refl _) (by omega) hF⟩

theorem RC.ident {k h} (hg : Good T c A .ident h) : Tc K F L (r.out k h) 0 := by
  obtain ⟨_, nd, h1, h2, _⟩ := hg.elim
  simpa [wt_ident h2] using hr.out (k := k) hg h1
theorem RC.qn {k h} (hg : Good T c A .qn h) : Tc K F L (r.out k h) 0 := by
  obtain ⟨_, nd, h1, h2, _⟩ := hg.elim
  simpa [wt_qn h2] using hr.out (k := k) hg h1
theorem RC.type {k h} (hg : Good T c A .type h) : Tc K F (2 * L) (r.out k h) 0 := by
  obtain ⟨_, nd, h1, h2, _⟩ := hg.elim
  simpa [wt_type h2] using hr.out (k := k) hg h1
theorem RC.sym {k h} (hg : Good T c A .sym h) : Tc K F (3 * L) (r.out k h) 0 := by
  obtain ⟨_, nd, h1, h2, _⟩ := hg.elim
  simpa [wt_sym h2] using hr.out (k := k) hg h1
theorem RC.var {k h} (hg : Good T c A .var h) : Tc K F (3 * L) (r.out k h) 0 := by
  obtain ⟨_, nd, h1, h2, _⟩ := hg.elim
  simpa [wt_var h2] using hr.out (k := k) hg h1
theorem RC.any {k h g} (hg : Good T c A g h) : Tc K F (4 * L) (r.out k h) 0 := by
  obtain ⟨_, nd, h1, h2, _⟩ := hg.elim
  exact (hr.out (k := k) hg h1).mono (Nat.mul_le_mul_right _ wt_le) (by omega)

omit hr in
theorem optKid_in {g : GK} {o : Option Handle} {h : Handle} (e : o = some h) : (g, h) ∈ optKid g o := by subst e; simp [optKid]

include hK

omit hr in
theorem tc_sepBy {sep : Text} {f : Handle → W Unit} {a : Nat} (hs : sep ≠ []) (hKa : a + 100 ≤ K) :
    ∀ l, (∀ x ∈ l, Tc K F a (f x) 0) → Tc K F (a + 10) (sepBy sep f l) 0 := by
  have hrest : ∀ l, (∀ x ∈ l, Tc K F a (f x) 0) → Tc K F 2 (sepBy.rest sep f l) 0 := by
    intro l
    induction l with
    | nil => intro _; exact Tc.pure' (by omega)
    | cons x xs ih =>
      intro h
      exact Tc.seq (Tc.write_pays (by omega) hs) (by omega) fun _ => Tc.seq (h x (by simp)) (by omega) fun _ =>
        (ih fun y hy => h y (by simp [hy])).mono (by omega) (by omega)
  intro l
  cases l with
  | nil => intro _; exact Tc.pure' (by omega)
  | cons x xs =>
    intro h
    exact Tc.seq (h x (by simp)) (by omega) fun _ => (hrest xs fun y hy => h y (by simp [hy])).mono (by omega) (by omega)

theorem tc_funcPre {f b} (hk : ∀ p ∈ sigKids f, Good T c A p.1 p.2) : Tc K F (L + 80) (funcPre E r f b) 0 := by
  unfold funcPre
  refine Tc.seq (e1 := 6) (d1 := 0) (Tc.whenB ?_ (by omega)) (by omega) fun _ => ?_
  · refine Tc.seq (Tc.whenB (Tc.write (by omega)) (by omega)) (by omega) fun _ =>
      Tc.seq (Tc.whenB (Tc.write (by omega)) (by omega)) (by omega) fun _ => Tc.whenB (by tc) (by omega)
  refine Tc.seq (e1 := 6) (d1 := 0) (Tc.whenB ?_ (by omega)) (by omega) fun _ => ?_
  · refine Tc.seq (Tc.whenB (Tc.write (by omega)) (by omega)) (by omega) fun _ =>
      Tc.seq (Tc.whenB (Tc.write (by omega)) (by omega)) (by omega) fun _ => Tc.whenB (by tc) (by omega)
  refine Tc.seq (e1 := L + 3) (d1 := 0) (Tc.whenB ?_ (by omega)) (by omega) fun _ => ?_
  · refine Tc.whenSome (fun rt hrt => ?_) (by omega)
    exact Tc.seq (hr.pre (hk (.type, rt) (by simp [sigKids, optKid_in hrt]))) (by omega) fun _ => by tc
  refine Tc.whenB (Tc.whenSome (fun cc _ => ?_) (by omega)) (by omega)
  exact (tc_cc (by omega)).mono (by omega) (by omega)

theorem tc_funcParams {f} (hk : ∀ p ∈ sigKids f, Good T c A p.1 p.2) : Tc K F 20 (funcParams r f) 0 := by
  unfold funcParams
  refine Tc.seq (Tc.write_pays (by omega) (by simp)) (by omega) fun _ => ?_
  have hend : ∀ e, 20 ≤ e → Tc K F e (do
      whenB f.is_variadic do
        let w ← look
        whenB (match w.getLast? with | some x => x != '(' | none => false) (write c!", ")
        write c!"..."
      write c!")") 0 := by
    intro e he
    refine Tc.seq (e1 := 10) (d1 := 0) (Tc.whenB ?_ (by omega)) (by omega) fun _ => by tc
    refine Tc.seq Tc.look (by omega) fun w => ?_
    exact Tc.seq (Tc.whenB (Tc.write (by omega)) (by omega)) (by omega) fun _ => by tc
  cases hp : f.params with
  | none => dsimp only; exact Tc.seq (Tc.write (by omega)) (by omega) fun _ => hend _ (by omega)
  | some p =>
    dsimp only
    exact Tc.seq (hr.any (hk (.arr, p) (by simp [sigKids, optKid_in hp]))) (by omega) fun _ => hend _ (by omega)

omit hr in
theorem tc_funcQuals {f} : Tc K F 30 (funcQuals E f) 0 := by
  unfold funcQuals
  refine Tc.seq (Tc.whenB (Tc.write (by omega)) (by omega)) (by omega) fun _ =>
      Tc.seq (Tc.whenB (Tc.write (by omega)) (by omega)) (by omega) fun _ => Tc.whenB ?_ (by omega)
  exact Tc.seq (e1 := 2) (d1 := 0) (Tc.whenB (by tc) (by omega)) (by omega) fun _ => Tc.whenB (by tc) (by omega)

theorem tc_funcPost {f b} (hk : ∀ p ∈ sigKids f, Good T c A p.1 p.2) : Tc K F (L + 80) (funcPost E r f b) 0 := by
  unfold funcPost
  refine Tc.seq (Tc.whenB (tc_funcParams hr hK hk) (by omega)) (by omega) fun _ =>
    Tc.seq (Tc.whenB (tc_funcQuals hK) (by omega)) (by omega) fun _ =>
    Tc.seq (Tc.whenB (Tc.write (by omega)) (by omega)) (by omega) fun _ =>
    Tc.seq (Tc.whenB (Tc.write (by omega)) (by omega)) (by omega) fun _ => ?_
  refine Tc.whenB (Tc.whenSome (fun rt hrt => ?_) (by omega)) (by omega)
  exact (hr.post (hk (.type, rt) (by simp [sigKids, optKid_in hrt]))).mono (by omega) (by omega)

theorem tc_thunkPre {f b} (hk : ∀ p ∈ sigKids f, Good T c A p.1 p.2) : Tc K F (L + 90) (thunkPre E r f b) 0 := by
  unfold thunkPre
  exact Tc.seq (Tc.whenB (Tc.write (by omega)) (by omega)) (by omega) fun _ => (tc_funcPre hr hK hk).mono (by omega) (by omega)

theorem tc_thunkPost {f a b} (hk : ∀ p ∈ sigKids f, Good T c A p.1 p.2) : Tc K F (L + 90) (thunkPost E r f a b) 0 := by
  unfold thunkPost
  exact Tc.seq (Tc.write (by omega)) (by omega) fun _ => (tc_funcPost hr hK hk).mono (by omega) (by omega)

omit hr hK in
theorem good_kids {g : GK} {h : Handle} {nd : Node} (hg : Good T c A g h) (h1 : c[h]? = some nd) (hn : ∀ l, nd ≠ .NodeArray l) :
    ∀ p ∈ kidsOf nd, Good T c A p.1 p.2 := by
  obtain ⟨_, nd', e1, _, _, e4⟩ := hg.elim
  rw [h1] at e1; cases e1
  have : kids g nd = kidsOf nd := by
    unfold kids
    split
    · exact absurd rfl (hn _)
    · exact absurd rfl (hn _)
    · rfl
  rwa [this] at e4

theorem tc_pointeePre {p n} (hg : Good T c A .type p) (h1 : c[p]? = some n) : Tc K F (L + 90) (pointeePre E r p n) 0 := by
  cases n <;> unfold pointeePre <;> dsimp only <;> first
    | exact (hr.pre hg).mono (by omega) (by omega)
    | exact (tc_funcPre hr hK (good_kids hg h1 (by simp))).mono (by omega) (by omega)
    | exact (tc_thunkPre hr hK (good_kids hg h1 (by simp))).mono (by omega) (by omega)

theorem tc_pointeePost {p n} (hg : Good T c A .type p) (h1 : c[p]? = some n) : Tc K F (L + 90) (pointeePost E r p n) 0 := by
  cases n <;> unfold pointeePost <;> dsimp only <;> first
    | exact (hr.post hg).mono (by omega) (by omega)
    | exact (tc_funcPost hr hK (good_kids hg h1 (by simp))).mono (by omega) (by omega)
    | exact (tc_thunkPost hr hK (good_kids hg h1 (by simp))).mono (by omega) (by omega)

omit hr in
theorem tc_pointeeParen {n} : Tc K F 15 (pointeeParen E n) 0 := by
  have key : ∀ f : FuncSig, Tc K F 15 (do
      write c!"("
      whenB (!E.flags.no_calling_convention && !E.flags.no_ms_keywords) do
        whenSome f.call_convention fun cc => do
          CallingConv.output E cc
          write c!" ") 0 := fun f => by
    refine Tc.seq (Tc.write (by omega)) (by omega) fun _ => Tc.whenB (Tc.whenSome (fun cc _ => ?_) (by omega)) (by omega)
    exact Tc.seq (tc_cc (by omega)) (by omega) fun _ => by tc
  cases n <;> unfold pointeeParen <;> dsimp only <;> first
    | exact key _
    | tc

theorem tc_pointerPre {q a cp p} (hk : ∀ x ∈ kidsOf (.PointerType q a cp p), Good T c A x.1 x.2) :
    Tc K (F + L) (L + 180) (pointerPre E c r q a cp p) 0 := by
  have hp : Good T c A .type p := hk (.type, p) (by simp [kidsOf])
  have hr' := hr.le (F' := F + L) (by omega)
  unfold pointerPre
  refine Tc.lift (by omega) fun pn hpn => ?_
  refine Tc.seq (tc_pointeePre hr' hK hp (resolve_node hpn)) (by omega) fun _ => ?_
  refine Tc.seq (tc_space (by omega)) (by omega) fun _ => ?_
  refine Tc.seq (e1 := 2) (d1 := 0) (Tc.whenB (by tc) (by omega)) (by omega) fun _ => ?_
  refine Tc.seq (tc_pointeeParen hK) (by omega) fun _ => ?_
  refine Tc.seq (e1 := 3) (d1 := 0) (Tc.whenSome (fun x hx => ?_) (by omega)) (by omega) fun _ => ?_
  · refine Tc.loan ?_
    refine Tc.seq (hr.qn (hk (.qn, x) (by simp [kidsOf, optKid_in hx]))) (by omega) fun _ => ?_
    exact (Tc.write_pays (by omega) (by simp)).mono (by omega) (by omega)
  cases a <;> dsimp only
  · exact Tc.seq (e1 := 0) (d1 := 0) Tc.crash (by omega) fun _ => (tc_quals (by omega)).mono (by omega) (by omega)
  · exact Tc.seq (Tc.write (by omega)) (by omega) fun _ => (tc_quals (by omega)).mono (by omega) (by omega)

theorem tc_pointerPost {q a cp p} (hk : ∀ x ∈ kidsOf (.PointerType q a cp p), Good T c A x.1 x.2) :
    Tc K F (L + 100) (pointerPost E c r p) 0 := by
  have hp : Good T c A .type p := hk (.type, p) (by simp [kidsOf])
  unfold pointerPost
  refine Tc.lift (by omega) fun pn hpn => ?_
  exact Tc.seq (Tc.whenB (Tc.write (by omega)) (by omega)) (by omega) fun _ => (tc_pointeePost hr hK hp (resolve_node hpn)).mono (by omega) (by omega)

omit hr in
theorem tc_one_dim {h} : Tc K F 10 (output_one_dimension c h) 0 := by
  unfold output_one_dimension
  refine Tc.lift (by omega) fun n _ => ?_
  cases n <;> dsimp only <;> first
    | exact Tc.crash
    | exact Tc.whenB (by tc) (by omega)

omit hr in
theorem tc_dims {h} : Tc K F 30 (output_dimensions_impl c h) 0 := by
  unfold output_dimensions_impl
  refine Tc.lift (by omega) fun n _ => ?_
  cases n <;> dsimp only <;> first
    | exact Tc.crash
    | exact (tc_sepBy hK (a := 10) (by simp) (by omega) _ fun _ _ => tc_one_dim hK).mono (by omega) (by omega)

theorem tc_preNode {nd} (hk : ∀ x ∈ kidsOf nd, Good T c A x.1 x.2) : Tc K (F + L) (L + 190) (preNode E c r nd) 0 := by
  have hr' := hr.le (F' := F + L) (by omega)
  have hq : ∀ {e q b b'}, 40 ≤ e → Tc K (F + L) e (Qualifiers.output E q b b') 0 := fun he => (tc_quals (by omega)).mono he (by omega)
  cases nd <;> unfold preNode <;> dsimp only <;> try exact Tc.crash
  · exact Tc.seq (Tc.write (by omega)) (by omega) fun _ => hq (by omega)
  · exact (tc_funcPre hr' hK hk).mono (by omega) (by omega)
  · exact (tc_thunkPre hr' hK hk).mono (by omega) (by omega)
  · exact (tc_pointerPre hr hK hk).mono (by omega) (by omega)
  · rename_i q n tg
    exact Tc.seq (Tc.whenB (Tc.write (by omega)) (by omega)) (by omega) fun _ =>
      Tc.seq (hr'.qn (hk (.qn, n) (by simp [kidsOf]))) (by omega) fun _ => hq (by omega)
  · rename_i q d e
    exact Tc.seq (hr'.pre (hk (.type, e) (by simp [kidsOf]))) (by omega) fun _ => hq (by omega)
  · rename_i q i
    exact (hr'.ident (hk (.ident, i) (by simp [kidsOf]))).mono (by omega) (by omega)

theorem tc_postNode {nd} (hk : ∀ x ∈ kidsOf nd, Good T c A x.1 x.2) : Tc K (F + L) (L + 190) (postNode E c r nd) 0 := by
  have hr' := hr.le (F' := F + L) (by omega)
  cases nd <;> unfold postNode <;> dsimp only <;> (try exact Tc.crash) <;> try exact Tc.pure (by omega)
  · exact (tc_funcPost hr' hK hk).mono (by omega) (by omega)
  · exact (tc_thunkPost hr' hK hk).mono (by omega) (by omega)
  · exact (tc_pointerPost hr' hK hk).mono (by omega) (by omega)
  · rename_i q d e
    exact Tc.seq (Tc.write (by omega)) (by omega) fun _ => Tc.seq (tc_dims hK) (by omega) fun _ =>
      Tc.seq (Tc.write (by omega)) (by omega) fun _ => (hr'.post (hk (.type, e) (by simp [kidsOf]))).mono (by omega) (by omega)

theorem tc_tparams {tp} (hk : ∀ h, tp = some h → Good T c A .arr h) : Tc K F 10 (templateParams r tp) 0 := by
  unfold templateParams
  refine Tc.whenSome (fun h hh => ?_) (by omega)
  exact Tc.seq (Tc.write_pays (by omega) (by simp)) (by omega) fun _ => Tc.seq (hr.any (hk h hh)) (by omega) fun _ => by tc

theorem tc_variable {n sc t} (hk : ∀ x ∈ kidsOf (.VariableSymbol n sc t), Good T c A x.1 x.2) :
    Tc K F (3 * L + 100) (variableOut E r n sc t) 0 := by
  unfold variableOut
  refine Tc.seq (Tc.whenB (Tc.write (by omega)) (by omega)) (by omega) fun _ =>
    Tc.seq (Tc.whenB (Tc.write (by omega)) (by omega)) (by omega) fun _ => ?_
  cases n with
  | none => exact Tc.crash
  | some v =>
    cases v with
    | Qualified q =>
      have hq : Good T c A .qn q := hk (.qn, q) (by simp [kidsOf])
      have ht : ∀ x, t = some x → Good T c A .type x := fun x hx => hk (.type, x) (by simp [kidsOf, optKid_in hx])
      dsimp only
      refine Tc.seq (e1 := L + 10) (d1 := 0) (Tc.whenSome (fun x hx => ?_) (by omega)) (by omega) fun _ =>
        Tc.seq (hr.qn hq) (by omega) fun _ => Tc.whenSome (fun x hx => ?_) (by omega)
      · refine Tc.seq (hr.pre (ht x ?_)) (by omega) fun _ => (tc_space (by omega)).mono (by omega) (by omega)
        split at hx
        · exact hx
        · cases hx
      · refine (hr.post (ht x ?_)).mono (by omega) (by omega)
        split at hx
        · exact hx
        · cases hx
    | TypeDescriptor =>
      have ht : ∀ x, t = some x → Good T c A .type x := fun x hx => hk (.type, x) (by simp [kidsOf, optKid_in hx])
      dsimp only
      refine Tc.seq (Tc.whenSome (fun x hx => hr.type (ht x hx)) (by omega)) (by omega) fun _ => Tc.whenB ?_ (by omega)
      exact Tc.seq (tc_space (by omega)) (by omega) fun _ => by tc

omit hr hK in
theorem kids_list {g : GK} {h : Handle} {l : List Handle} (hg : Good T c A g h) (h1 : c[h]? = some (.NodeArray l)) :
    ∀ x ∈ l, ∃ g, Good T c A g x := by
  obtain ⟨_, nd', e1, _, _, e4⟩ := hg.elim
  rw [h1] at e1; cases e1
  intro x hx
  have : x ∈ (kids g (.NodeArray l)).map Prod.snd := by
    rw [kids_handles g .any]; simp [kids, kidsOf, Function.comp_def]; exact hx
  obtain ⟨p, hp, rfl⟩ := List.mem_map.1 this
  exact ⟨p.1, e4 p hp⟩

omit hr hK in
theorem comps_list {h : Handle} {l : List Handle} (hg : Good T c A .comps h) (h1 : c[h]? = some (.NodeArray l)) :
    ∀ x ∈ l, Good T c A .ident x := by
  obtain ⟨_, nd', e1, _, _, e4⟩ := hg.elim
  rw [h1] at e1; cases e1
  intro x hx
  exact e4 (.ident, x) (by simp only [kids, List.mem_map]; exact ⟨x, hx, rfl⟩)

/-- Nodes that are no lists. -/
theorem tc_outNode {nd} (hk : ∀ x ∈ kidsOf nd, Good T c A x.1 x.2) (hn : ∀ l, nd ≠ .NodeArray l) :
    Tc K (F + L) (wt nd * (L + 200) - 2) (outNode E c r nd) 0 := by
  have hr' := hr.le (F' := F + L) (by omega)
  have htp : ∀ {tp}, (∀ h, tp = some h → (GK.arr, h) ∈ kidsOf nd) → ∀ {e}, 10 ≤ e → Tc K (F + L) e (templateParams r tp) 0 :=
    fun h _ he => (tc_tparams hr' hK fun x hx => hk (.arr, x) (h x hx)).mono he (by omega)
  have hq : ∀ {e q b b'}, 40 ≤ e → Tc K (F + L) e (Qualifiers.output E q b b') 0 := fun he => (tc_quals (by omega)).mono he (by omega)
  have htype : Tc K (F + L) (2 * (L + 200) - 2) (do preNode E c r nd; postNode E c r nd) 0 :=
    Tc.seq (tc_preNode hr hK hk) (by omega) fun _ => (tc_postNode hr hK hk).mono (by omega) (by omega)
  cases nd with
  | NodeArray l => exact absurd rfl (hn l)
  | PrimitiveType => exact htype
  | FunctionSignature => exact htype
  | ThunkSignature => exact htype
  | PointerType => exact htype
  | TagType => exact htype
  | ArrayType => exact htype
  | CustomType => exact htype
  | VcallThunkIdentifier tp n => rw [wt_ident rfl]; unfold outNode; tc
  | DynamicStructorIdentifier tp i d =>
    rw [wt_ident rfl]
    cases i with
    | Variable v =>
      unfold outNode; dsimp only
      refine Tc.seq (Tc.write_pays (by omega) (by cases d <;> simp)) (by omega) fun _ => Tc.seq (Tc.write (by omega)) (by omega) fun _ =>
        Tc.seq (hr'.var (hk (.var, v) (by simp [kidsOf]))) (by omega) fun _ => by tc
    | Name n =>
      unfold outNode; dsimp only
      refine Tc.seq (Tc.write_pays (by omega) (by cases d <;> simp)) (by omega) fun _ => Tc.seq (Tc.write (by omega)) (by omega) fun _ =>
        Tc.seq (hr'.qn (hk (.qn, n) (by simp [kidsOf]))) (by omega) fun _ => by tc
  | NamedIdentifier tp n =>
    rw [wt_ident rfl]; unfold outNode; dsimp only
    exact Tc.seq (Tc.write (by omega)) (by omega) fun _ => htp (fun h hh => by simp [kidsOf, optKid_in hh]) (by omega)
  | IntrinsicFunctionIdentifier tp n =>
    rw [wt_ident rfl]; unfold outNode; dsimp only
    exact Tc.seq (Tc.whenSome (fun _ _ => Tc.write (by omega)) (by omega)) (by omega) fun _ =>
      htp (fun h hh => by simp [kidsOf, optKid_in hh]) (by omega)
  | LiteralOperatorIdentifier tp n =>
    rw [wt_ident rfl]; unfold outNode; dsimp only
    exact Tc.seq (Tc.write (by omega)) (by omega) fun _ => htp (fun h hh => by simp [kidsOf, optKid_in hh]) (by omega)
  | LocalStaticGuardIdentifier tp b n =>
    rw [wt_ident rfl]; unfold outNode; dsimp only
    exact Tc.seq (Tc.write (by omega)) (by omega) fun _ => Tc.whenB (by tc) (by omega)
  | ConversionOperatorIdentifier tp t =>
    rw [wt_ident rfl]; unfold outNode; dsimp only
    exact Tc.seq (Tc.write_pays (by omega) (by simp)) (by omega) fun _ =>
      Tc.seq (htp (fun h hh => by simp [kidsOf, optKid_in hh]) (Nat.le_refl _)) (by omega) fun _ =>
      Tc.seq (Tc.write (by omega)) (by omega) fun _ => Tc.whenSome (fun x hx =>
        (hr'.type (hk (.type, x) (by simp [kidsOf, optKid_in hx]))).mono (by omega) (by omega)) (by omega)
  | StructorIdentifier tp cl d =>
    rw [wt_ident rfl]; unfold outNode; dsimp only
    exact Tc.seq (Tc.whenB (Tc.write (by omega)) (by omega)) (by omega) fun _ =>
      Tc.seq (Tc.whenSome (fun x hx => hr'.ident (hk (.ident, x) (by simp [kidsOf, optKid_in hx]))) (by omega)) (by omega) fun _ =>
      htp (fun h hh => by simp [kidsOf, optKid_in hh]) (by omega)
  | RttiBaseClassDescriptor => rw [wt_ident rfl]; unfold outNode; tc
  | QualifiedName comps =>
    rw [wt_qn rfl]; unfold outNode; dsimp only
    refine Tc.lift (by omega) fun n hn => ?_
    have hc := hk (.comps, comps) (by simp [kidsOf])
    cases n <;> dsimp only <;> try exact Tc.crash
    exact (tc_sepBy hK (a := L) (by simp) (by omega) _ fun x hx => hr'.ident (comps_list hc (resolve_node hn) x hx)).mono (by omega) (by omega)
  | TemplateParameterReference s offs a mp =>
    have hw : wt (.TemplateParameterReference s offs a mp) = 4 := rfl
    rw [hw]; unfold outNode; dsimp only
    have hend : ∀ e, 3 * L + 50 ≤ e → Tc K (F + L) e (do
        whenSome s fun s => do
          r.out .ISymbolNode s
          whenB (!offs.isEmpty) (write c!", ")
        write (offsetsText offs)) 0 := fun e he => by
      refine Tc.seq (e1 := 3 * L + 10) (d1 := 0) (Tc.whenSome (fun x hx => ?_) (by omega)) (by omega) fun _ => by tc
      exact Tc.seq (hr'.sym (hk (.sym, x) (by simp [kidsOf, optKid_in hx]))) (by omega) fun _ => Tc.whenB (by tc) (by omega)
    split
    · exact Tc.seq (Tc.write (by omega)) (by omega) fun _ => hend _ (by omega)
    · exact Tc.seq (Tc.whenB (Tc.write (by omega)) (by omega)) (by omega) fun _ => hend _ (by omega)
  | IntegerLiteral v n => have hw : wt (.IntegerLiteral v n) = 4 := rfl; rw [hw]; unfold outNode; tc
  | Md5Symbol n => rw [wt_sym rfl]; unfold outNode; exact (hr'.qn (hk (.qn, n) (by simp [kidsOf]))).mono (by omega) (by omega)
  | SpecialTableSymbol n t q =>
    rw [wt_sym rfl]; unfold outNode; dsimp only
    refine Tc.seq (Tc.whenB (hq (Nat.le_refl _)) (by omega)) (by omega) fun _ =>
      Tc.seq (hr'.qn (hk (.qn, n) (by simp [kidsOf]))) (by omega) fun _ => Tc.whenSome (fun x hx => ?_) (by omega)
    exact Tc.seq (Tc.write (by omega)) (by omega) fun _ =>
      Tc.seq (hr'.qn (hk (.qn, x) (by simp [kidsOf, optKid_in hx]))) (by omega) fun _ => by tc
  | LocalStaticGuardVariable n v => rw [wt_sym rfl]; unfold outNode; exact (hr'.qn (hk (.qn, n) (by simp [kidsOf]))).mono (by omega) (by omega)
  | EncodedStringLiteral => rw [wt_sym rfl]; unfold outNode; exact (Tc.write (by omega)).mono (by omega) (by omega)
  | VariableSymbol n sc t => rw [wt_sym rfl]; unfold outNode; exact (tc_variable hr' hK hk).mono (by omega) (by omega)
  | FunctionSymbol n sg =>
    rw [wt_sym rfl]; unfold outNode; dsimp only
    have hs := hk (.sig, sg) (by simp [kidsOf])
    exact Tc.seq (hr'.pre hs) (by omega) fun _ => Tc.seq (tc_space (by omega)) (by omega) fun _ =>
      Tc.seq (Tc.whenSome (fun x hx => hr'.qn (hk (.qn, x) (by simp [kidsOf, optKid_in hx]))) (by omega)) (by omega) fun _ =>
      (hr'.post hs).mono (by omega) (by omega)

theorem tc_outList {g : GK} {h : Handle} {l : List Handle} (hg : Good T c A g h) (h1 : c[h]? = some (.NodeArray l)) :
    Tc K (F + L) (wt (.NodeArray l) * (L + 200) - 2) (outNode E c r (.NodeArray l)) 0 := by
  have hr' := hr.le (F' := F + L) (by omega)
  have hw : wt (.NodeArray l) = 4 := rfl
  rw [hw]; unfold outNode; dsimp only
  refine (tc_sepBy hK (a := 4 * L) (by simp) (by omega) l fun x hx => ?_).mono (by omega) (by omega)
  obtain ⟨g, hg⟩ := kids_list hg h1 x hx
  exact hr'.any hg

end

/-- The overdraft: the sum of the loans of all levels. -/
def debt : Nat → Nat
  | 0 => 0
  | n + 1 => debt n + 200 * (n + 1)

theorem rc_outFns {T : TSpec} {c : Cache} {A : Handle → Prop} {K : Nat} (E : Env) :
    ∀ n, 2000 * n + 3000 ≤ K → RC T c A K (debt n) (200 * (n + 1)) (outFns E c n)
  | 0, _ => ⟨fun _ _ => Tc.crash, fun _ => Tc.crash, fun _ => Tc.crash⟩
  | n + 1, h => by
    have ih := rc_outFns (T := T) (c := c) (A := A) (K := K) E n (by omega)
    have hK : 10 * (200 * (n + 1)) + 1000 ≤ K := by omega
    refine ⟨fun {k h g nd} hg h1 => ?_, fun {k h g} hg => ?_, fun {k h g} hg => ?_⟩
    · have h4 : 200 ≤ wt nd * (200 * (n + 1 + 1)) := by
        have : 1 ≤ wt nd := by unfold wt; split <;> (try split) <;> (try split) <;> omega
        calc 200 ≤ 1 * (200 * (n + 1 + 1)) := by omega
          _ ≤ _ := Nat.mul_le_mul_right _ this
      refine Tc.lift (by omega) fun nd' hnd => ?_
      have h2 := resolve_node hnd
      rw [h1] at h2; cases h2
      have e : 200 * (n + 1 + 1) = 200 * (n + 1) + 200 := by omega
      rw [e]
      by_cases hl : ∃ l, nd = .NodeArray l
      · obtain ⟨l, rfl⟩ := hl
        exact tc_outList ih hK hg h1
      · have hl' : ∀ l, nd ≠ .NodeArray l := fun l e => hl ⟨l, e⟩
        exact tc_outNode ih hK (good_kids hg h1 hl') hl'
    · refine Tc.lift (by omega) fun nd hnd => ?_
      by_cases hl : ∃ l, nd = .NodeArray l
      · obtain ⟨l, rfl⟩ := hl
        unfold preNode; exact Tc.crash
      · exact (tc_preNode ih hK (good_kids hg (resolve_node hnd) fun l e => hl ⟨l, e⟩)).mono (by omega) (by omega)
    · refine Tc.lift (by omega) fun nd hnd => ?_
      by_cases hl : ∃ l, nd = .NodeArray l
      · obtain ⟨l, rfl⟩ := hl
        unfold postNode; exact Tc.crash
      · exact (tc_postNode ih hK (good_kids hg (resolve_node hnd) fun l e => hl ⟨l, e⟩)).mono (by omega) (by omega)

theorem debt_le (n : Nat) : debt n ≤ 200 * n * n := by
  induction n with
  | zero => exact Nat.le_refl _
  | succ n ih =>
    have : 200 * (n + 1) * (n + 1) = 200 * n * n + 400 * n + 200 := by
      simp only [Nat.mul_add, Nat.add_mul]; omega
    simp only [debt]; omega

/-- The most steps a rendering of a tree in a cache of at most 2048 nodes takes. -/
def RENDER_STEPS : Nat := 5000000000000000000

/-- Rendering a tree takes a bounded number of steps. -/
theorem render_steps {T : TSpec} {c : Cache} {A : Handle → Prop} (E : Env) {k : Kind} {g : GK} {h : Handle} (hc : c.length ≤ 2048)
    (hg : Good T c A g h) (w : Text) (hw : w.length ≤ OUTPUT_LIMIT) : (render E c k h w).2 ≤ RENDER_STEPS := by
  have h1 := (rc_outFns (T := T) (c := c) (A := A) (K := 2000 * 2049 + 3000) E (c.length + 1) (by omega)).any (k := k) hg w hw
  unfold render
  have h2 : debt (c.length + 1) ≤ 200 * 2049 * 2049 :=
    Nat.le_trans (debt_le _) (Nat.mul_le_mul (Nat.mul_le_mul_left _ (by omega)) (by omega))
  rcases hm : (outFns E c (c.length + 1)).out k h w with ⟨r, t⟩
  rw [hm] at h1
  have hO : OUTPUT_LIMIT = 1048576 := rfl
  cases r with
  | error e =>
    simp only [TcRes, RENDER_STEPS] at h1 ⊢
    omega
  | ok x =>
    simp only [TcRes, RENDER_STEPS] at h1 ⊢
    omega

end Undname.Timed
