/-
  The number of steps of a call: the renderings that happen while parsing are renderings of trees the parser
  has built, which take a bounded number of steps, so that the bound for renderers of bounded cost applies.
-/
import Verif.Timed.CostParse
import Verif.Timed.CostOut
import Verif.Proof.Top

namespace Undname.Timed
open Undname (Fail Error Crash Text Handle Cache Kind Node MStr St)

/-- The text is no longer than the buffer may be. -/
def shortOut : Except Fail (Unit × Text) → Bool
  | .ok (_, t) => t.length ≤ 1048576
  | .error _ => true

/-- The renderer, giving up when it would take more than `RENDER_STEPS` steps or write too much. -/
def capped (E : Env) : Renderer := fun c k h w =>
  if (render E c k h w).2 ≤ RENDER_STEPS ∧ shortOut (render E c k h w).1 = true then render E c k h w else (.error (.crash .panic), 0)

/-- What the capped renderer computes. -/
def cappedOut (E : Env) : Undname.Renderer := fun c k h w => (capped E c k h w).1

/-- The steps a node pays for. -/
def NODE_STEPS : Nat := RENDER_STEPS + 20000000

theorem capped_cost (E : Env) : RendCost RENDER_STEPS NODE_STEPS (capped E) where
  cost c k h w := by
    unfold capped
    split
    · rename_i h; exact h.1
    · exact Nat.zero_le _
  len c k h w u t ht := by
    unfold capped at ht
    split at ht
    · rename_i h
      have h2 := h.2
      rw [ht] at h2
      simpa [shortOut] using h2
    · cases ht
  node := Nat.le_refl _

theorem capped_ref (E : Env) : RefRend (capped E) (render E) (Undname.render E) := by
  intro c k h w
  refine ⟨(ref_render E c k h w).1, ?_⟩
  unfold capped
  split
  · exact .inl rfl
  · exact .inr ⟨_, _, rfl⟩

theorem cappedOut_ref (E : Env) : RefRend (capped E) (capped E) (cappedOut E) := fun _ _ _ => Ref.same fun _ => rfl

/-- On the trees the parser renders, the cap is not reached. -/
theorem cappedOut_good {T : TSpec} (E : Env) (hN : FlagsOK T E) : GoodRend T (cappedOut E) := by
  intro c A kd h hc hg w hw
  have h1 := goodRend E hN c A kd h hc hg w hw
  have h2 := render_steps E (k := kd) hc hg w (by have := Tc.length_le_utf8 w; omega)
  have h4 : shortOut (render E c kd h w).1 = true := by
    rw [(ref_render E c kd h w).1]
    unfold wp at h1
    cases hr : Undname.render E c kd h w with
    | error x => rfl
    | ok x =>
      rw [hr] at h1
      have h5 := h1.1
      have h6 := Tc.length_le_utf8 x.2
      have : OUTPUT_LIMIT = 1048576 := rfl
      simp only [shortOut, decide_eq_true_eq]
      omega
  have h3 : cappedOut E c kd h w = Undname.render E c kd h w := by
    unfold cappedOut capped
    rw [if_pos ⟨h2, h4⟩]
    exact (ref_render E c kd h w).1
  unfold wp at h1 ⊢
  rw [h3]
  exact h1

/-- Parsing with the cap is parsing without it. -/
theorem parse_capped (E : Env) (m : Text) : parse (capped E) m = parse (render E) m := by
  have hT : (charSpec m).inp m := fun c hc => hc
  have h1 := parse_ok (cappedOut_good E (charSpec_flags m E)) hT
  have h2 := ((ref_fns (cappedOut_ref E) (m.length + 1)).parse (Undname.initSt m)).1
  have h3 := ((ref_fns (capped_ref E) (m.length + 1)).parse (Undname.initSt m)).2
  rcases h3 with h3 | ⟨c, n, h3⟩
  · exact h3
  · rw [h3] at h2
    unfold wp at h1
    rw [← h2] at h1
    exact h1.elim

theorem bank_init (C : Nat) (m : Text) : bank C (initSt m) ≤ 10010 * m.length + 2048 * C := by
  have h1 := gap_le m
  have h2 : bank C (initSt m) = 10000 * m.length + 10 * gap m + C * (Undname.NODE_LIMIT - 0) := rfl
  have h3 : Undname.NODE_LIMIT = 2048 := rfl
  rw [h2, h3]
  omega

/-- Parsing with a renderer of bounded cost. -/
theorem parse_steps_rend {R C : Nat} {rend : Renderer} (h : RendCost R C rend) (m : Text) :
    (parse rend m).2 ≤ 1000 + 10010 * m.length + 2048 * C := by
  have h := (tp_fns h (m.length + 1)).parse (initSt m)
  have hb := bank_init C m
  unfold parse
  rcases hp : (fns rend (m.length + 1)).parse (initSt m) with ⟨r, t⟩
  rw [hp] at h
  cases r with
  | error e => simp only [TpRes] at h ⊢; omega
  | ok x => simp only [TpRes] at h ⊢; omega

theorem parse_steps (E : Env) (m : Text) : (parse (render E) m).2 ≤ 1000 + 10010 * m.length + 2048 * NODE_STEPS := by
  rw [← parse_capped]
  exact parse_steps_rend (capped_cost E) m

theorem demangle_steps (E : Env) (m : Text) : (demangle E m).2 ≤ 10011 * m.length + 2049 * NODE_STEPS := by
  have h1 := parse_steps E m
  have hw := parse_wp E (charSpec_flags m E) (m := m) (fun c hc => hc)
  have h2 := ((ref_fns (fun c k h => ref_render E c k h) (m.length + 1)).parse (Undname.initSt m)).1
  unfold NODE_STEPS RENDER_STEPS at *
  unfold demangle
  dsimp only
  unfold newCost
  rcases hp : parse (render E) m with ⟨r, t⟩
  rw [hp] at h1
  simp only at h1
  cases r with
  | error e => cases e <;> (show 1 + m.length + t ≤ _; omega)
  | ok x =>
    obtain ⟨h, s⟩ := x
    unfold parse at hp
    rw [hp] at h2
    unfold wp at hw
    rw [← h2] at hw
    have h3 := render_steps E (k := .ISymbolNode) hw.1.size hw.2.1 [] (Nat.zero_le _)
    unfold RENDER_STEPS at h3
    have h5 := goodRend E (charSpec_flags m E) s.cache (fun _ => True) .ISymbolNode h hw.1.size hw.2.1 [] (by decide)
    unfold wp at h5
    rw [← (ref_render E s.cache .ISymbolNode h []).1] at h5
    dsimp only
    rcases hr : render E s.cache .ISymbolNode h [] with ⟨q, k⟩
    rw [hr] at h3 h5
    simp only at h3
    cases q with
    | error e => cases e <;> (show 1 + m.length + t + k ≤ _; omega)
    | ok y =>
      have h6 := Tc.length_le_utf8 y.2
      have h7 : utf8Len y.2 < OUTPUT_LIMIT := h5.1
      have : OUTPUT_LIMIT = 1048576 := rfl
      show 1 + m.length + t + k + y.2.length ≤ _
      omega

end Undname.Timed
