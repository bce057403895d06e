/-
  Simulation: types.
-/
import Verif.Proof.SimLeaf

namespace Undname
open Spec (CV FnKind Sig Adjust Access T Tbl Ext cvCodes memberCvCodes ptrCodes refCodes)

/-- How the text of a type starts. -/
def tyHead : Text → Bool
  | '$' :: '$' :: d :: _ => d == 'A' || d == 'Q' || d == 'T'
  | c :: _ => c != '$' && c != '@' && c != 'Z' && !isDigit c
  | [] => false

theorem tyHead_append {x : Text} (h : tyHead x = true) (rest : Text) : tyHead (x ++ rest) = true := by
  match x with
  | [] => simp [tyHead] at h
  | [c] =>
    by_cases hc : c = '$'
    · subst hc; simp [tyHead] at h
    · unfold tyHead at h ⊢
      simp_all
  | [c, d] =>
    by_cases hc : c = '$'
    · subst hc; simp [tyHead] at h
    · unfold tyHead at h ⊢
      simp_all
  | c :: d :: e :: x =>
    unfold tyHead at h ⊢
    split at h
    · simp_all
    · simp_all
    · simp_all

theorem tyHead_cons {x : Text} (h : tyHead x = true) : ∃ c y, x = c :: y ∧ c ≠ '@' ∧ c ≠ 'Z' ∧ isDigit c = false ∧
    (c = '$' → ∃ d z, y = '$' :: d :: z ∧ (d = 'A' ∨ d = 'Q' ∨ d = 'T')) := by
  unfold tyHead at h
  split at h
  · refine ⟨_, _, rfl, by decide, by decide, by decide, fun _ => ⟨_, _, rfl, ?_⟩⟩
    simpa [or_assoc] using h
  · refine ⟨_, _, rfl, ?_, ?_, ?_, ?_⟩ <;> simp_all
  · cases h

theorem tyHead_ne {x : Text} (h : tyHead x = true) : x ≠ [] := by
  rintro rfl; cases h

theorem not_empty_append {x : Text} (h : x ≠ []) (rest : Text) : (MStr.new (x ++ rest)).is_empty = false := by
  cases x with
  | nil => exact (h rfl).elim
  | cons c x => rfl

/-! ### Changing the qualifiers -/

theorem TyHole.node {t : T} {w w' : World} {h : Handle} (H : TyHole t w w' h) :
    ∃ nd, w'[h]? = some (nd, false) ∧ w.length ≤ h := by
  cases t
  case ptr => obtain ⟨_, _, _, e, hl, _⟩ := H; exact ⟨_, e, hl⟩
  all_goals (obtain ⟨_, e, hl, _⟩ := H; exact ⟨_, e, hl⟩)

theorem Hole.set {t' : T} {w w' : World} {h : Handle} {nd nd' : Node} (e : w'[h]? = some (nd, false)) (hl : w.length ≤ h)
    (H : Rep w' t' (.N nd')) : Hole t' w (w'.set h (nd', false)) h :=
  ⟨nd', get_set e _, hl, H.mono (Vis.set e _)⟩

theorem TyHole.addQ {t : T} {w w' : World} {h : Handle} (H : TyHole t w w' h) {qq : Qualifiers} {q : CV} (hq : QRel qq q) :
    ∃ nd, w'[h]? = some (nd, false) ∧ w.length ≤ h ∧ TyHole (t.addQ q) w (w'.set h (nd.append_quals qq, false)) h := by
  cases t
  case ptr q0 a cls to =>
    obtain ⟨q', co, p, e, hl, hq', hc, hne, nd, e', hl', hr⟩ := H
    have hv := Vis.set e (.PointerType (q' ||| qq) (some a) co p, false)
    exact ⟨_, e, hl, _, _, _, get_set e _, hl, hq'.or hq, hc.mono hv, hne, nd,
      by rw [get_set_ne (Ne.symm hne)]; exact e', hl', hr.mono hv⟩
  all_goals
    obtain ⟨nd, e, hl, hr⟩ := H
    exact ⟨nd, e, hl, Hole.set e hl (hr.addQ hq)⟩

theorem Hole.setQ {t : T} {w w' : World} {h : Handle} (H : Hole t w w' h) {qq : Qualifiers} {q : CV} (hq : QRel qq q) :
    ∃ nd, w'[h]? = some (nd, false) ∧ w.length ≤ h ∧ Hole (t.setQ q) w (w'.set h (nd.set_quals qq, false)) h := by
  obtain ⟨nd, e, hl, hr⟩ := H
  exact ⟨nd, e, hl, Hole.set e hl (hr.setQ hq)⟩

/-- A hole is a hole seen from any earlier world. -/
theorem Hole.back {t : T} {w0 w w' : World} {h : Handle} (hp : w0 <+: w) (H : Hole t w w' h) : Hole t w0 w' h := by
  obtain ⟨nd, e, hl, hr⟩ := H
  exact ⟨nd, e, Nat.le_trans hp.length_le hl, hr⟩

theorem TyHole.back {t : T} {w0 w w' : World} {h : Handle} (hp : w0 <+: w) (H : TyHole t w w' h) : TyHole t w0 w' h := by
  cases t
  case ptr =>
    obtain ⟨q', co, p, e, hl, hq', hc, hne, H'⟩ := H
    exact ⟨q', co, p, e, Nat.le_trans hp.length_le hl, hq', hc, hne, H'.back hp⟩
  all_goals exact Hole.back hp H

/-- A hole stays one while later nodes are added. -/
theorem Hole.forth {t : T} {w w' w1 : World} {h : Handle} (hp : w' <+: w1) (H : Hole t w w' h) : Hole t w w1 h := by
  obtain ⟨nd, e, hl, hr⟩ := H
  exact ⟨nd, get_prefix hp e, hl, hr.mono (Vis.prefix hp)⟩

theorem tyHole_of {t : T} {w w' : World} {h : Handle} (hn : t.isPtr = false) : TyHole t w w' h = Hole t w w' h := by
  cases t <;> first | rfl | cases hn

section
variable {E : Env} {tb tb' tb1 : Tbl} {t : T} {x y : Text}

/-- Reading a type with its text. -/
structure MTy (E : Env) (tb : Tbl) (t : T) (x : Text) (tb' : Tbl) : Prop where
  head : tyHead x = true
  run : ∀ n, Runs (demangle_type_body (render E) (fns (render E) n)) x tb tb' (TyHole t)

theorem mty_type (h : MTy E tb t x tb') {qmm : QMM} {qq : Qualifiers} {q : CV} (hq : QRel qq q)
    (hy : ∀ rest c ns ps, exec (type_quals qmm) (mk (y ++ (x ++ rest)) c ns ps) = .ok (qq, mk (x ++ rest) c ns ps)) (n : Nat) :
    Runs ((fns (render E) n).type qmm) (y ++ x) tb tb' (TyHole (t.addQ q)) := by
  cases n with
  | zero => intro rest w ns ps _; exact Sim.crash (c := .fuel) rfl
  | succ n =>
    intro rest w ns ps ht
    show Sim (demangle_type (render E) (fns (render E) n) qmm) _ _
    unfold demangle_type
    rw [List.append_assoc]
    refine Sim.step (hy _ _ _ _) (Sim.query ?_)
    rw [mk_str, not_empty_append (tyHead_ne h.head)]
    refine (h.run n).bind ht fun a w' ns' ps' hp ht' hq' => ?_
    obtain ⟨nd, e, hl, H⟩ := hq'.addQ hq
    refine Sim.modify false e (Sim.done (prefix_set hp hl _) (ht'.mono (Vis.set e _)) H)

theorem mty_drop (h : MTy E tb t x tb') (n : Nat) : Runs ((fns (render E) n).type .Drop) x tb tb' (TyHole t) := by
  have := mty_type h (y := []) (qmm := .Drop) QRel.none (fun _ _ _ _ => rfl) n
  rwa [T.addQ_none] at this

theorem mty_mangle (h : MTy E tb t x tb') {ch : Char} {q : CV} (hc : (ch, q) ∈ cvCodes ++ memberCvCodes) (n : Nat) :
    Runs ((fns (render E) n).type .Mangle) (ch :: x) tb tb' (TyHole (t.addQ q)) := by
  obtain ⟨qq, b, hq, he⟩ := quals_run hc
  refine mty_type h (y := [ch]) hq (fun rest c ns ps => ?_) n
  simp only [type_quals, List.cons_append, List.nil_append, run, he]

end

end Undname
