/-
  The outcome of a call from the number of nodes of the name.
-/
import Verif.Exact.Refine
import Verif.Proof.Accept

namespace Undname.Ex
open Spec (T Tbl Cat Gram GramN DenotesN hashed hashT locator)

theorem sim_top {E : Env} {m : Text} {t : T} {n : Nat} {Q : World → Handle → Prop} {tb' : Tbl} {rest : Text}
    (h : Sim (0 + n) (fns (render E) (m.length + 1)).parse (mk m [] [] []) (Reach [] tb' rest n Q))
    (hq : ∀ (w : World) h, Q w h → Rep w t (.H h)) :
    (n ≤ 2048 ∧ (∃ hd s, parse (render E) m = .ok (hd, s) ∧ s.cache.length = n) ∧ demangle E m = .ok (bounded (t.text E))) ∨
    (2048 < n ∧ demangle E m = .ok (.error .MaliciousInput)) := by
  have hc : ∀ c, demangle E m ≠ .error c := fun c => (Props.no_crash E m [] c).2
  have hp : parse (render E) m = exec (fns (render E) (m.length + 1)).parse (mk m [] [] []) := rfl
  unfold Sim at h
  rw [← hp] at h
  cases e : parse (render E) m with
  | error f =>
    rw [e] at h
    cases f with
    | crash c =>
      exfalso
      refine hc c ?_
      unfold demangle demangle_into parse_into
      rw [e]
    | err e' =>
      refine .inr ?_
      obtain ⟨h', h2⟩ : e' = .MaliciousInput ∧ 2048 < 0 + n := h
      subst h'
      exact ⟨by omega, demangle_error e⟩
  | ok p =>
    rw [e] at h
    obtain ⟨hd, s⟩ := p
    have hsz := Props.C05_node_bound E m e
    obtain ⟨w, ns, ps, rfl, hlen, _, _, h⟩ := h
    have hn : w.length = n := by simpa using hlen
    have hcl : (mk rest w.c ns ps).cache.length = n := by rw [mk_cache, World.c_length, hn]
    refine .inl ⟨hcl ▸ hsz, ⟨_, _, rfl, hcl⟩, ?_⟩
    have hem := (render_em (E := E) (hq w hd h) .ISymbolNode).run [] (by decide)
    have ht : t.text E = (T.pr E t).out [] := rfl
    rw [ht]
    unfold demangle demangle_into parse_into clear
    rw [e]
    have hL : OUTPUT_LIMIT = 2 ^ 20 := rfl
    rw [hL] at hem
    unfold exec at hem
    unfold bounded
    revert hem
    cases hr : render E w.c .ISymbolNode hd [] with
    | ok q =>
      rintro ⟨h1, h2⟩
      rw [if_pos h2]
      simp only [mk_cache, hr, h1]
    | error f =>
      cases f with
      | crash c =>
        intro _
        exfalso
        refine hc c ?_
        unfold demangle demangle_into parse_into clear
        rw [e]
        simp only [mk_cache, hr]
      | err e' =>
        rintro ⟨h1, h2⟩
        rw [if_neg h2]
        simp only [mk_cache, hr, h1]

/-- A name that costs `n` nodes is demangled if `n` is within the limit, and refused otherwise. -/
theorem denotes_outcome {E : Env} {m : Text} {t : T} {n : Nat} (h : DenotesN E m t n) :
    (n ≤ 2048 ∧ (∃ hd s, parse (render E) m = .ok (hd, s) ∧ s.cache.length = n) ∧ demangle E m = .ok (bounded (t.text E))) ∨
    (2048 < n ∧ demangle E m = .ok (.error .MaliciousInput)) := by
  rcases h with ⟨x, rest, tb', rfl, h⟩ | ⟨tb', h⟩ | ⟨u, rest, rfl, h1, h2, rfl, rfl⟩
  · exact sim_top ((gram_reads h : MSym E {} t x tb' n).run _ rest [] [] [] (Tab.empty _)) (fun _ _ h => h)
  · have := (gram_reads h : MSymEnd E {} t m tb' n) (m.length + 1) [] [] [] (Tab.empty _)
    rw [List.append_nil] at this
    exact sim_top this (fun _ _ h => h)
  · exact sim_top (hash_run h1 h2 _ [] [] [] (Tab.empty _)) (fun _ _ h => h)

end Undname.Ex
