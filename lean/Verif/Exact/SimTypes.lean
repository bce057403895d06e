/-
  Simulation: types.
-/
import Verif.Exact.Sim

namespace Undname.Ex
open Spec (CV FnKind Sig Adjust Access T Tbl Ext cvCodes memberCvCodes ptrCodes refCodes)

/-! ### Changing the qualifiers -/

section
variable {E : Env} {tb tb' tb1 : Tbl} {t : T} {x y : Text} {k1 k2 k3 k4 : Nat} {N : Nat}

/-- Reading a type with its text. -/
structure MTy (E : Env) (tb : Tbl) (t : T) (x : Text) (tb' : Tbl) (cnt : Nat) : Prop where
  head : tyHead x = true
  run : ∀ n, Runs (demangle_type_body (render E) (fns (render E) n)) x tb tb' (TyHole t) cnt

theorem mty_type (h : MTy E tb t x tb' k1) {qmm : QMM} {qq : Qualifiers} {q : CV} (hq : QRel qq q)
    (hy : ∀ rest c ns ps, exec (type_quals qmm) (mk (y ++ (x ++ rest)) c ns ps) = .ok (qq, mk (x ++ rest) c ns ps)) (n : Nat) :
    Runs ((fns (render E) n).type qmm) (y ++ x) tb tb' (TyHole (t.addQ q)) k1 := by
  cases n with
  | zero => intro rest w ns ps _; exact Sim.crash (c := .fuel) rfl
  | succ n =>
    intro rest w ns ps ht
    show Sim _ (demangle_type (render E) (fns (render E) n) qmm) _ _
    unfold demangle_type
    rw [List.append_assoc]
    refine Sim.step (hy _ _ _ _) (Sim.query ?_)
    rw [mk_str, not_empty_append (tyHead_ne h.head)]
    refine (h.run n).bind ht fun a w' ns' ps' hp ht' hq' => ?_
    obtain ⟨nd, e, hl, H⟩ := hq'.addQ hq
    refine Sim.modify false e (Sim.done (prefix_set hp hl _) (ht'.mono (Vis.set e _)) H)

theorem mty_drop (h : MTy E tb t x tb' k1) (n : Nat) : Runs ((fns (render E) n).type .Drop) x tb tb' (TyHole t) k1 := by
  have := mty_type h (y := []) (qmm := .Drop) QRel.none (fun _ _ _ _ => rfl) n
  rwa [T.addQ_none] at this

theorem mty_mangle (h : MTy E tb t x tb' k1) {ch : Char} {q : CV} (hc : (ch, q) ∈ cvCodes ++ memberCvCodes) (n : Nat) :
    Runs ((fns (render E) n).type .Mangle) (ch :: x) tb tb' (TyHole (t.addQ q)) k1 := by
  obtain ⟨qq, b, hq, he⟩ := quals_run hc
  refine mty_type h (y := [ch]) hq (fun rest c ns ps => ?_) n
  simp only [type_quals, List.cons_append, List.nil_append, run, he]

end

end Undname.Ex
