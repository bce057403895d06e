/-
  More texts the parser rejects: numbers, arrays, operator codes, text after a type.
-/
import Verif.Proof.Bad

namespace Undname
open Spec

section
variable {E : Env} {tb tb' tb1 : Tbl} {t : T} {x y : Text} {e : Error}

/-! ### Template arguments -/

theorem bad_targs_arg (hh : ArgHead x) (h : BadFor (fun n => template_argument (render E) (fns (render E) n) false) tb (x ++ y) e) :
    BadTargs E tb (x ++ y) e := by
  intro k acc n w ns ps ht
  cases k with
  | zero => exact Fails.crash (c := .fuel) rfl
  | succ k =>
    refine Fails.round ?_
    unfold templateListBody
    have hr := h n w ns ps ht
    obtain ⟨c, u, e0, h0, h1, h2, h3, h4, h5⟩ := hh y
    rw [e0] at hr ⊢
    refine Fails.step (tryChar_head (by simpa using h0)) ?_
    refine Fails.step (pack_miss h1 h2 h3 h4) ?_
    refine Fails.query ?_
    rw [mk_str, is_empty_cons]
    refine Fails.step (tryStr_miss _ _ _ _ _ h5) ?_
    refine Fails.step (a := ()) (s' := mk (c :: u) w.c ns ps) rfl ?_
    exact Fails.left hr

/-- The name of a symbol that is a template instantiation with bad arguments. -/
theorem bad_decl_tmpl {i : T} (hi : MFid E {} i x tb1) (ha : BadTargs E tb1 y e) :
    BadFor (fun n => demangle_declarator (render E) (fns (render E) n)) tb (c!"?$" ++ x ++ y) e := by
  intro n w ns ps ht
  unfold demangle_declarator
  refine Fails.left ?_
  unfold demangle_fully_qualified_symbol_name
  refine Fails.left ?_
  unfold demangle_unqualified_symbol_name
  refine Fails.step (firstIs_cons _ _ _ _ _ _) ?_
  rw [show isDigit '?' = false from rfl]
  refine Fails.query ?_
  have hsw : ∀ u : Text, (MStr.new ('?' :: '$' :: u)).starts_with c!"?$" = true := by intro u; simp [run]
  rw [mk_str, show (MStr.new ('?' :: (['$'].append x).append y)).starts_with c!"?$" = true from hsw _]
  cases n with
  | zero => exact Fails.crash (c := .fuel) rfl
  | succ n =>
    show Fails (demangle_template_instantiation_name (render E) (fns (render E) n) .Simple) _ _
    unfold demangle_template_instantiation_name
    refine Fails.step (a := ()) (s' := mk (x ++ y) w.c ns ps) (expectStr_hit (s := c!"?$")) ?_
    refine Fails.get (Fails.step (s' := mk (x ++ y) w.c [] []) rfl ?_)
    refine Runs.fail (hi.run n) (Tab.empty w) fun h w1 ns1 ps1 hp1 ht1 H1 => ?_
    refine Fails.left ?_
    unfold demangle_template_parameter_list
    refine Fails.left ?_
    rw [Fails, run_loop]
    exact ha _ _ n w1 ns1 ps1 ht1

/-! ### Numbers -/

theorem signed_fails {a : Nat} {neg : Bool} (hx : EncInt x a neg) (ha : ¬ a < 2 ^ 63) (c : Cache) (ns ps : List Handle) :
    Fails demangle_signed (mk (x ++ y) c ns ps) .InvalidSigned := by
  unfold demangle_signed
  refine Fails.step (encInt_run hx) ?_
  show Fails (if _ then _ else _) _ _
  rw [if_neg ha]
  exact Fails.err

/-- The two numbers of `$F`. -/
theorem bad_pair {a b : Nat} {na nb : Bool} {x' : Text} (hx : EncInt x a na) (hy : EncInt y b nb) (h : ¬ (a < 2 ^ 63 ∧ b < 2 ^ 63)) :
    BadTargs E tb (c!"$F" ++ x ++ y ++ x') .InvalidSigned := by
  have := bad_targs_arg (E := E) (tb := tb) (x := c!"$F" ++ x ++ y) (y := x') (e := .InvalidSigned)
    (by
      intro rest
      exact ⟨_, _, rfl, by decide, by simp [List.isPrefixOf], by simp [List.isPrefixOf], by simp [List.isPrefixOf], by simp [List.isPrefixOf],
        by simp [List.isPrefixOf]⟩) ?_
  · exact this
  intro n w ns ps ht
  have hd : exec (template_argument (render E) (fns (render E) n) false) (mk (c!"$F" ++ x ++ y ++ x') w.c ns ps) =
      exec (template_data_member_pointer 'F') (mk (x ++ (y ++ x')) w.c ns ps) := by
    unfold template_argument
    simp [run, trySpecifier, tryTable]
  refine Fails.of_eq hd ?_
  unfold template_data_member_pointer offsets
  refine Fails.left ?_
  unfold SM.forN
  by_cases ha : a < 2 ^ 63
  · have hb : ¬ b < 2 ^ 63 := fun hb => h ⟨ha, hb⟩
    refine Fails.step (a := [if na then -(a : Int) else a]) (s' := mk (y ++ x') w.c ns ps) ?_ ?_
    · simp only [run_bind_eq, signed_run (EncSigned.mk hx ha)]; rfl
    · unfold SM.forN
      exact Fails.left (Fails.left (signed_fails hy hb _ _ _))
  · exact Fails.left (Fails.left (signed_fails hx ha _ _ _))

/-- How many numbers follow the class of a function. -/
def adjCount : AdjKind → Nat
  | .none => 0
  | .static => 1
  | .disp => 2
  | .dispex => 4

/-- One number and then the others. -/
theorem signed_or {a : Nat} {na : Bool} {β : Type} {k : Int → P β} {c : Cache} {ns ps : List Handle} {rest : Text} (hx : EncInt x a na)
    (hk : a < 2 ^ 63 → Fails (k (if na then -(a : Int) else a)) (mk rest c ns ps) .InvalidSigned) :
    Fails (demangle_signed >>= k) (mk (x ++ rest) c ns ps) .InvalidSigned := by
  by_cases ha : a < 2 ^ 63
  · exact Fails.step (signed_run (EncSigned.mk hx ha)) (hk ha)
  · exact Fails.left (signed_fails hx ha _ _ _)

/-- Numbers after the class of a function, one of them too big. -/
theorem bad_thunk {ak : AdjKind} {l : List (Text × Nat × Bool)} (hl : l.length = adjCount ak) (hx : ∀ p ∈ l, EncInt p.1 p.2.1 p.2.2)
    (hb : ∃ p ∈ l, ¬ p.2.1 < 2 ^ 63) {f : FuncClass} (hf : adjBits f ak = true) (rest : Text) (c : Cache) (ns ps : List Handle) :
    Fails (thunk_adjust f) (mk ((l.map (·.1)).flatten ++ rest) c ns ps) .InvalidSigned := by
  unfold thunk_adjust
  cases ak with
  | none => 
    rw [show adjCount .none = 0 from rfl, List.length_eq_zero_iff] at hl
    subst hl
    simp at hb
  | static =>
    match l, hl with
    | [p], _ =>
      simp only [List.mem_singleton, forall_eq, exists_eq_left] at hx hb
      simp only [adjBits] at hf
      rw [if_pos hf]
      simp only [List.map, List.flatten_cons, List.flatten_nil, List.append_nil]
      exact signed_or hx fun h => absurd h hb
  | disp =>
    match l, hl with
    | [p, q], _ =>
      simp only [List.mem_cons, List.not_mem_nil, or_false, forall_eq_or_imp, forall_eq, exists_eq_or_imp, exists_eq_left] at hx hb
      simp only [adjBits, Bool.and_eq_true, Bool.not_eq_true'] at hf
      simp only [hf, Bool.false_eq_true, if_false, if_true]
      simp only [List.map, List.flatten_cons, List.flatten_nil, List.append_nil, List.append_assoc]
      refine signed_or hx.1 fun h1 => signed_or hx.2 fun h2 => ?_
      exact absurd hb (by simp [h1, h2])
  | dispex =>
    match l, hl with
    | [p, q, r, s], _ =>
      simp only [List.mem_cons, List.not_mem_nil, or_false, forall_eq_or_imp, forall_eq, exists_eq_or_imp, exists_eq_left] at hx hb
      simp only [adjBits, Bool.and_eq_true, Bool.not_eq_true'] at hf
      simp only [hf, Bool.false_eq_true, if_false, if_true]
      simp only [List.map, List.flatten_cons, List.flatten_nil, List.append_nil, List.append_assoc]
      refine signed_or hx.1 fun h1 => signed_or hx.2.1 fun h2 => signed_or hx.2.2.1 fun h3 => signed_or hx.2.2.2 fun h4 => ?_
      exact absurd hb (by simp [h1, h2, h3, h4])

/-- A bad number after the class of a function. -/
theorem bad_adjust {code : Text} {k : FnKind} {ak : AdjKind} (hc : (code, k, ak) ∈ classCodes)
    {l : List (Text × Nat × Bool)} (hl : l.length = adjCount ak) (hx : ∀ p ∈ l, EncInt p.1 p.2.1 p.2.2)
    (hb : ∃ p ∈ l, ¬ p.2.1 < 2 ^ 63) :
    BadFor (fun n => demangle_function_encoding (fns (render E) n)) tb (code ++ (l.map (·.1)).flatten ++ y) .InvalidSigned := by
  intro n w ns ps ht
  obtain ⟨f0, -, -, -, hadj, hrun⟩ := class_run hc false
  have hcons : ∀ s : Text, ∃ c u, code ++ s = c :: u ∧ (c!"$$").isPrefixOf (c :: u) = false := by
    intro s
    rcases class_shape _ hc with ⟨c, e, h1, h2⟩ | ⟨d, e, h1, h2⟩ | ⟨d, e⟩ <;> simp only at e <;> subst e
    · exact ⟨c, s, rfl, by simp [List.isPrefixOf, Ne.symm h1]⟩
    · exact ⟨_, _, rfl, by simp [List.isPrefixOf, Ne.symm h2]⟩
    · exact ⟨_, _, rfl, by simp [List.isPrefixOf]⟩
  obtain ⟨c, u, e, h0⟩ := hcons ((l.map (·.1)).flatten ++ y)
  unfold demangle_function_encoding
  rw [List.append_assoc]
  refine Fails.step (ext_step (b := false) (by show (c!"$$").isPrefixOf (code ++ _) = false; rw [e]; exact h0)) (Fails.query ?_)
  have : (MStr.new (code ++ ((l.map (·.1)).flatten ++ y))).is_empty = false := by rw [e]; rfl
  rw [mk_str]
  refine Fails.of_eq (congrArg (fun b : Bool => exec (if b = true then _ else _) _) this) ?_
  refine Fails.step (hrun _ _ _ _) ?_
  exact Fails.left (bad_thunk hl hx hb hadj _ _ _ _)

end

end Undname
