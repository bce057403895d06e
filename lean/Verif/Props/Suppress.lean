/-
  Property theorems C44: flags only take text away.
-/
import Verif.Proof.ThinGram
import Verif.Proof.Accept
import Verif.Proof.Eval
import Verif.Props.Twins

namespace Undname
namespace Props
open Spec

theorem contains_or {f F G : Flags} (h : f.contains G = true) : (f ||| F).contains G = true := by
  have h : (f.bits &&& G.bits == G.bits) = true := h
  show ((f.bits ||| F.bits) &&& G.bits == G.bits) = true
  rw [beq_iff_eq] at h ⊢
  apply BitVec.eq_of_getLsbD_eq
  intro i hi
  have := congrArg (fun x => x.getLsbD i) h
  simp only [BitVec.getLsbD_and, BitVec.getLsbD_or] at this ⊢
  revert this
  cases f.bits.getLsbD i <;> cases F.bits.getLsbD i <;> cases G.bits.getLsbD i <;> simp

theorem flagsLe_or (f F : Flags) (u : Char → Bool) : FlagsLe ⟨f, u⟩ ⟨f ||| F, u⟩ :=
  ⟨rfl, contains_or, contains_or, contains_or, contains_or, contains_or, contains_or, contains_or, contains_or, contains_or, contains_or⟩

/-- The declarations that a name denotes under two sets of flags. -/
theorem denotes_thin {E E' : Env} (H : FlagsLe E E') {m : Text} {t : T} (hm : NoT m) (h : Denotes E m t) :
    ∃ t2, Denotes E' m t2 ∧ (SymM E E' t t2 ∨ ∃ x u u2, m = '.' :: x ∧ t = .typeDescr u ∧ t2 = .typeDescr u2 ∧ Tw .ty u u2) := by
  rcases h with ⟨x, rest, tb', rfl, h⟩ | ⟨tb', h⟩ | ⟨u, rest, rfl, h1, h2, rfl⟩
  · obtain ⟨t2, tb2, g, p, _⟩ := gram_thin H h hm.l {} TR.empty
    exact ⟨t2, .inl ⟨x, rest, tb2, rfl, g⟩, .inl p⟩
  · obtain ⟨t2, tb2, g, p, _⟩ := gram_thin H h hm {} TR.empty
    refine ⟨t2, .inr (.inl ⟨tb2, g⟩), ?_⟩
    rcases p with p | ⟨u, u2, rfl, rfl, p⟩
    · exact .inl p
    · cases h with
      | typeinfo _ => exact .inr ⟨_, _, _, rfl, rfl, rfl, p⟩
  · exact ⟨_, .inr (.inr ⟨u, rest, rfl, h1, h2, rfl⟩), .inl (NmM.same (qname1_nm (Id1.named _).nm))⟩

/-- **C44**: suppression flags only take text away. If a mangled name without template instantiations (and not one of
the `.`-names of `type_info` objects) is accepted, it is also accepted with any further flags, and the text is then a
subsequence of the former text: nothing is added, replaced or put into another place. -/
theorem C44_flags_only_remove (f F : Flags) (u : Char → Bool) {m out : Text} (ht : ¬ c!"?$" <:+: m) (hd : m.head? ≠ some '.')
    (h : demangle ⟨f, u⟩ m = .ok (.ok out)) : ∃ out', demangle ⟨f ||| F, u⟩ m = .ok (.ok out') ∧ out'.Sublist out := by
  obtain ⟨t, hden, rfl, hl⟩ := accepted_text h
  obtain ⟨t2, hden2, hp | ⟨x, _, _, rfl, _⟩⟩ := denotes_thin (flagsLe_or f F u) ht hden
  · have hs : (t2.text ⟨f ||| F, u⟩).Sublist (t.text ⟨f, u⟩) := hp.text
    refine ⟨_, ?_, hs⟩
    have hl2 : utf8Len (t2.text ⟨f ||| F, u⟩) < 2 ^ 20 := Nat.lt_of_le_of_lt (utf8Len_sublist hs) hl
    have key : ∃ o, demangle ⟨f ||| F, u⟩ m = .ok (.ok o) := by
      rcases C34_same_verdict ⟨f, u⟩ ⟨f ||| F, u⟩ ht with h1 | h1 | ⟨e, h1, _⟩ | ⟨_, o, _, h1⟩
      · rw [h1] at h; cases h
      · rcases denotes_shows hden2 with h2 | ⟨_, h2⟩
        · rw [h1, if_pos hl2] at h2; cases h2
        · rw [h1] at h2; cases h2
      · rw [h1] at h; cases h
      · exact ⟨o, h1⟩
    obtain ⟨o, ho⟩ := key
    rw [ho, (shows_ok (denotes_shows hden2) ho).1]
  · exact absurd rfl hd

/-- A member function with a local scope in its name, and four flags; the calling convention, the return type and `struct`
disappear everywhere, also within the name of the scope. -/
example : demangle (EF Flags.NO_LEADING_UNDERSCORES) c!"?x@?1??f@A@@QBEHPEIAUB@2@0@Z@3UB@2@A" =
      .ok (.ok c!"struct A::B `public: int thiscall A::f(struct A::B *restrict, struct A::B *restrict) const'::`2'::x") ∧
    demangle (EF (Flags.NO_LEADING_UNDERSCORES ||| (Flags.NO_MS_KEYWORDS ||| Flags.NO_TAG_SPECIFIER ||| Flags.NO_THISTYPE)))
        c!"?x@?1??f@A@@QBEHPEIAUB@2@0@Z@3UB@2@A" =
      .ok (.ok c!"A::B `public: int A::f(A::B *, A::B *)'::`2'::x") ∧
    (¬ c!"?$" <:+: c!"?x@?1??f@A@@QBEHPEIAUB@2@0@Z@3UB@2@A") := by
  refine ⟨?_, ?_, ?_⟩
  · decide +kernel
  · decide +kernel
  · decide

theorem sp_filter (E : Env) (w : Text) : (Spec.sp E w).filter (· ≠ ' ') = w.filter (· ≠ ' ') := by
  unfold Spec.sp
  split
  · split
    · simp
    · rfl
  · rfl

/-- **C44**: for the names of `type_info` objects the same holds up to blanks. -/
theorem C44_type_info (f F : Flags) (u : Char → Bool) {m out out' : Text} (ht : ¬ c!"?$" <:+: m)
    (h : demangle ⟨f, u⟩ m = .ok (.ok out)) (h' : demangle ⟨f ||| F, u⟩ m = .ok (.ok out')) :
    (out'.filter (· ≠ ' ')).Sublist (out.filter (· ≠ ' ')) := by
  obtain ⟨t, hden, rfl, hl⟩ := accepted_text h
  have H := flagsLe_or f F u
  obtain ⟨t2, hden2, hp⟩ := denotes_thin H ht hden
  obtain ⟨rfl, _⟩ := shows_ok (denotes_shows hden2) h'
  rcases hp with hp | ⟨x, v, v2, rfl, rfl, rfl, hp⟩
  · exact List.Sublist.filter _ hp.text
  · have hv : TyM _ _ v v2 := tw_sound H hp
    have hs := (hv.full empty_R).sub
    show ((if (f ||| F).name_only = true then (T.pr ⟨f ||| F, u⟩ v2).out [] else
        Spec.sp _ ((T.pr ⟨f ||| F, u⟩ v2).out []) ++ c!"`RTTI Type Descriptor Name'").filter _).Sublist
      ((if f.name_only = true then (T.pr ⟨f, u⟩ v).out [] else
        Spec.sp _ ((T.pr ⟨f, u⟩ v).out []) ++ c!"`RTTI Type Descriptor Name'").filter _)
    have hn : f.name_only = true → (f ||| F).name_only = true := H.name
    have h0 := List.Sublist.filter (fun c => decide (c ≠ ' ')) hs
    cases h1 : f.name_only with
    | true => rw [hn h1]; exact h0
    | false =>
      split
      · rw [if_neg (by simp), List.filter_append, sp_filter]
        exact List.Sublist.trans h0 (List.sublist_append_left _ _)
      · rw [if_neg (by simp), List.filter_append, List.filter_append, sp_filter, sp_filter]
        exact List.Sublist.append h0 (List.Sublist.refl _)

/-- Blanks must be disregarded: without the return type this one has a blank after `noexcept`. -/
theorem C44_type_info_blank :
    demangle E0 c!".$$A6APAY02HX_E" = .ok (.ok c!"int (* __cdecl(void) noexcept)[3]`RTTI Type Descriptor Name'") ∧
    demangle (EF Flags.NO_RETURN_TYPE) c!".$$A6APAY02HX_E" = .ok (.ok c!"__cdecl(void) noexcept `RTTI Type Descriptor Name'") := by
  refine ⟨?_, ?_⟩ <;> decide +kernel

/-- Nor does the theorem hold of template instantiations: a back-reference can stand for another name if the `struct` and
`class` of template arguments are suppressed (see C34). -/
theorem C44_templates : ∃ out out', demangle E0 c!"?x@?$A@UB@@@?$A@VB@@@C@2@3HA" = .ok (.ok out) ∧
    demangle (EF Flags.NO_TAG_SPECIFIER) c!"?x@?$A@UB@@@?$A@VB@@@C@2@3HA" = .ok (.ok out') ∧ ¬ out'.Sublist out :=
  ⟨_, _, C34_templates_rebind.1, C34_templates_rebind.2, by decide +kernel⟩

end Props
end Undname
