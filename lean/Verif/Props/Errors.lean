/-
  Property theorems C05, C06, C45: the errors of the limits, and exactly which errors there are.
-/
import Verif.Props.Rejects
import Verif.Props.RoundTrip

namespace Undname
namespace Props
open Spec

/-- **C05**: a variable of an array type with more than 2048 dimensions is refused as malicious, whatever the
dimensions are. -/
theorem C05_refused {E : Env} {name : List Text} (hn : IsPath name) {x y : Text} {dims : List Nat} (hx : EncNat x dims.length)
    (hy : EncDims y dims) (hd : 2048 < dims.length) (rest : Text) :
    demangle E (c!"?" ++ manglePath name ++ c!"3Y" ++ x ++ y ++ rest) = .ok (.error .MaliciousInput) := by
  have := bad_var (E := E) hn fun tb => bad_many_dims hx hy hd rest
  have e : c!"?" ++ manglePath name ++ c!"3Y" ++ x ++ y ++ rest = c!"?" ++ manglePath name ++ c!"3" ++ ('Y' :: x ++ y ++ rest) := by
    simp
  rw [e]
  rcases this with h | ⟨-, h⟩ <;> exact h

/-! ### A name whose text is too long -/

namespace Big
open Cxx

/-- `n` parameters of one type. -/
def same (t : Cxx.Ty) : Nat → Tys
  | 0 => .nil
  | n + 1 => .cons t (same t n)

theorem same_list (E : Env) (t : Cxx.Ty) (n : Nat) : (same t n).list E = List.replicate n (t.cpp E) := by
  induction n with
  | zero => rw [same, Tys.list]; rfl
  | succ n ih => rw [same, Tys.list, ih]; rfl

theorem same_ok {E : Env} {t : Cxx.Ty} (h : t ≠ .prim .Void false false) (h1 : t.unqualified) (h2 : t.Ok E) (n : Nat) :
    (same t n).Ok E := by
  induction n with
  | zero => rw [same, Tys.Ok]; trivial
  | succ n ih => rw [same, Tys.Ok]; exact ⟨h, h1, h2, ih⟩

theorem join_long (sep x : Text) (n : Nat) : n * utf8Len x ≤ utf8Len (join sep (List.replicate n x)) := by
  induction n with
  | zero => simp
  | succ n ih =>
    cases n with
    | zero => simp [join]
    | succ n =>
      rw [List.replicate_succ, List.replicate_succ, join, Out.utf8Len_append, Out.utf8Len_append, ← List.replicate_succ, Nat.add_one_mul]
      · omega
      · simp

/-- `int __unaligned *__restrict __unaligned *__restrict …`. -/
def chain : Nat → Cxx.Ty
  | 0 => .prim .Int false false
  | n + 1 => .ptr (.star false false true) true (chain n)

/-- A function with 500 parameters of such a type. -/
def decl : Decl := .fn (.free false) (.id c!"f") .nil (.mk 'A' (.prim .Void false false) (same (chain 100) 500) false false)

theorem decl_ok (E : Env) : decl.Ok E := by
  rw [decl, Decl.Ok]
  refine ⟨trivial, by rw [Head.Ok]; decide, by rw [Cxx.Path.Ok]; trivial, ?_⟩
  rw [Sig.Ok]
  refine ⟨by decide, by rw [Cxx.Ty.Ok]; trivial, same_ok (by decide) (by decide) ?_ _, by simp [variadicOk]⟩
  generalize 100 = n
  induction n with
  | zero => rw [chain, Cxx.Ty.Ok]; trivial
  | succ n ih => rw [chain, Cxx.Ty.Ok]; exact ih

theorem decl_distinct (E : Env) : Distinct E decl.keys := by
  have h1 : ∀ n, (chain n).keys = [] := by
    intro n
    induction n with
    | zero => rw [chain, Cxx.Ty.keys]
    | succ n ih => rw [chain, Cxx.Ty.keys, ih]
  have h2 : ∀ n, (same (chain 100) n).keys = [] := by
    intro n
    induction n with
    | zero => rw [same, Tys.keys]
    | succ n ih => rw [same, Tys.keys, ih, h1]; rfl
  refine distinct_ids fun a ha => ?_
  rw [decl, Decl.keys, Head.keys, Cxx.Path.keys, Cxx.Sig.keys, Cxx.Ty.keys, h2] at ha
  exact ⟨c!"f", by simpa using ha⟩

theorem decl_long : 2 ^ 20 ≤ utf8Len (decl.cpp E0) := by
  have h : 500 * utf8Len ((chain 100).cpp E0) ≤ utf8Len (join c!", " ((same (chain 100) 500).list E0)) := by
    rw [same_list]; exact join_long _ _ _
  have h1 : 2 ^ 20 ≤ 500 * utf8Len ((chain 100).cpp E0) := by decide +kernel
  refine Nat.le_trans h1 (Nat.le_trans h ?_)
  rw [decl, Decl.cpp, show shows.params E0 = true from rfl]
  have h2 : utf8Len (join c!", " ((same (chain 100) 500).list E0)) ≤
      utf8Len ((Sig.mk 'A' (.prim .Void false false) (same (chain 100) 500) false false).params E0) := by
    rw [Sig.params, paramsCpp, if_neg (by rw [same_list]; simp)]
    simp only [Out.utf8Len_append]
    omega
  simp only [Out.utf8Len_append, part, if_true]
  omega

theorem decl_short : (decl.mangle false {}).1.length ≤ 1024 := by decide +kernel

theorem too_long : demangle E0 (decl.mangle false {}).1 = .ok (.error (.Io .OutOfMemory)) := by
  have h := C49_round_trip (E := E0) false (decl_ok E0) (decl_distinct E0) []
  rw [List.append_nil] at h
  have h1 := decl_long
  have h2 := decl_short
  rcases h with h | ⟨h, -⟩
  · rw [h, if_neg (by omega)]
  · omega

end Big

/-! ### Exactly which errors there are -/

/-- The variants of the error enumeration that no call returns. -/
def neverReturned : List Error :=
  [.Utf8Error, .InvalidFunctionType, .InvalidPointerType, .InvalidTagUniqueName, .InvalidPointerCVQualifiers,
    .InvalidMemberPointerType, .InvalidVariableStorageClass, .InvalidLocallyScopedNamePiece]

/-- For most other variants, a name that produces it. -/
def errorWitnesses : List (Error × Text) := [
    (.InvalidAnonymousNamespaceName, c!"?f_o@?A"),
    (.InvalidArrayType, c!"?foo@@3YA@"),
    (.InvalidBackRef, c!"?7"),
    (.InvalidCallingConvention, c!"?b@@Y"),
    (.InvalidCharLiteral, c!"??_C@_12@?$"),
    (.InvalidClassType, c!"?f@@YAXW"),
    (.InvalidCustomType, c!"?x@@YAX?MH@Z"),
    (.InvalidDeclarator, c!"?A?@?@???B@4DD"),
    (.InvalidEncodedSymbol, c!"?n@@"),
    (.InvalidFullyQualifiedSymbolName, c!"??0@4"),
    (.InvalidFunctionClass, c!"??S@@"),
    (.InvalidFunctionEncoding, c!"??__E?F8o@@0HA@@"),
    (.InvalidFunctionIdentifierCode, c!"??"),
    (.InvalidFunctionParameterList, c!"??3@YAX"),
    (.InvalidInitFiniStub, c!"??__E?i@C@@0HA"),
    (.InvalidIntrinsicFunctionCode, c!"???"),
    (.InvalidLocalStaticGuard, c!"??_Bfoo@@"),
    (.InvalidMd5Name, c!"??@"),
    (.InvalidNameScopeChain, c!"??Y"),
    (.InvalidNumber, c!"?A@@P"),
    (.InvalidPrimitiveType, c!".."),
    (.InvalidQualifiers, c!".?"),
    (.InvalidRttiBaseClassDescriptorNode, c!"??_R10120?3foo@@"),
    (.InvalidSigned, c!"??$f@$F?3IAAAAAAAAAAAAAAA@@@YAXXZ"),
    (.InvalidSimpleString, c!"?"),
    (.InvalidSpecialIntrinsic, c!"??_A"),
    (.InvalidSpecialTableSymbolNode, c!"??_S@"),
    (.InvalidStringLiteral, c!"??_C"),
    (.InvalidTemplateInstantiationName, c!"?fo$@?$?0H@"),
    (.InvalidTemplateParameterList, c!"??$A@"),
    (.InvalidThrowSpecification, c!"?x@@YAXZS"),
    (.InvalidType, c!"."),
    (.InvalidTypeinfoName, c!".G."),
    (.InvalidUnsigned, c!"??_R1012?3fo"),
    (.InvalidUntypedVariable, c!"??_R2foo@@"),
    (.InvalidVcallThunkNode, c!"??_9Base@@"),
    (.Io .UnexpectedEof, [])]

theorem errorWitnesses_ok : ∀ p ∈ errorWitnesses, demangle E0 p.2 = .ok (.error p.1) := by decide +kernel

theorem errors_complete (e : Error) :
    e ∈ neverReturned ∨ e ∈ errorWitnesses.map (·.1) ∨ e = .Io .OutOfMemory ∨ e = .MaliciousInput := by
  cases e with
  | Io k => cases k <;> decide +kernel
  | _ => decide +kernel

theorem encDims_ones (n : Nat) : EncDims (List.replicate n '0') (List.replicate n 1) := by
  induction n with
  | zero => exact .nil
  | succ n ih =>
    have h1 : EncNat ['0'] 1 := encode_spec 1 (by decide)
    exact EncDims.cons h1 ih

/-- `int x[1][1]…` with too many dimensions. -/
theorem malicious_ones (n : Nat) (hn : 2048 < n) (h : n < 2 ^ 64) : ∃ m, demangle E0 m = .ok (.error .MaliciousInput) :=
  ⟨_, C05_refused (name := [c!"x"]) (by decide) (x := encode n) (dims := List.replicate n 1) (by simpa using encode_spec n h)
    (encDims_ones n) (by simpa using hn) c!"HA"⟩

theorem malicious : ∃ m, demangle E0 m = .ok (.error .MaliciousInput) := malicious_ones 2049 (by decide) (by decide)

/-- **C45**: a variant of the error enumeration is returned by some call exactly if it is not one of the eight listed in
`neverReturned`; every other one is returned for some name, with the default flags already. -/
theorem C45_exact (e : Error) :
    ((∃ E m, demangle E m = .ok (.error e)) ↔ e ∉ neverReturned) ∧
      (e ∉ neverReturned → ∃ m, demangle E0 m = .ok (.error e)) := by
  have h2 : e ∉ neverReturned → ∃ m, demangle E0 m = .ok (.error e) := by
    intro h
    rcases errors_complete e with h1 | h1 | h1 | h1
    · exact absurd h1 h
    · obtain ⟨p, hp, rfl⟩ := List.mem_map.1 h1
      exact ⟨_, errorWitnesses_ok p hp⟩
    · subst h1; exact ⟨_, Big.too_long⟩
    · subst h1; exact malicious
  refine ⟨⟨?_, fun h => ⟨E0, h2 h⟩⟩, h2⟩
  rintro ⟨E, m, h⟩ hn
  rw [demangle_of_into] at h
  rcases call_outcome E m [] with ⟨e', h1, h3⟩ | ⟨u, h1, _⟩ <;> rw [h1] at h
  · simp only [Except.ok.injEq, Except.error.injEq] at h
    subst h
    revert h3
    simp only [neverReturned, List.mem_cons, List.not_mem_nil, or_false] at hn
    rcases hn with h | h | h | h | h | h | h | h <;> subst h <;> exact id
  · simp at h

end Props
end Undname
