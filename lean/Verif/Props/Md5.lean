/-
  Property theorems C11, C12: MD5 names.
-/
import Verif.Proof.Emit
import Verif.Proof.Eval
import Verif.Proof.Leaf

namespace Undname

namespace Props

/-- What follows the MD5 name: the marker of a complete object locator, or nothing. -/
def md5Suffix (Y : Text) : Text := if c!"??_R4@" <+: Y then c!"??_R4@" else []

theorem md5_parse (rend : Renderer) (X Y : Text) (hX : '@' ∉ X) :
    ∃ Z, parse rend (c!"??@" ++ X ++ c!"@" ++ Y) =
      .ok (3, mk Z
        [.NamedIdentifier none (c!"??@" ++ X ++ c!"@" ++ md5Suffix Y),
         .NodeArray [0], .QualifiedName 1, .Md5Symbol 2] [] []) := by
  have e1 : splitAtBytes (utf8Len X + 1) (X ++ '@' :: Y) = some (X ++ ['@'], Y) := by
    have := splitAtBytes_len (X ++ ['@']) Y
    rw [Emit.utf8Len_append, show utf8Len ['@'] = 1 from rfl] at this
    simpa using this
  have hhead : ∀ m, exec (do_parse rend (fns rend m)) (mk (c!"??@" ++ X ++ c!"@" ++ Y) [] [] []) =
      andThen (exec (tryStr c!"??_R4@") (mk Y [] [] [])) fun x =>
        exec (match splitAtBytes ((if x.1 then utf8Len X + 3 + 6 else utf8Len X + 3) + 1)
            (c!"??@" ++ X ++ c!"@" ++ Y) with
          | none => SM.crash .panic
          | some (md5, _) => do
            let name ← synthesize_from_name md5
            intern (.Md5Symbol name)) x.2 := by
    intro m
    simp [do_parse, run, demangle_md5_name, MStr.find_char, findChar_at Y hX]
    rw [tryBytes_hit _ _ _ _ e1 (by simp)]
    simp [run]
    rfl
  show ∃ Z, exec (do_parse rend (fns rend _)) (mk _ [] [] []) = _
  rw [hhead]
  unfold md5Suffix
  by_cases hY : c!"??_R4@" <+: Y
  · obtain ⟨Z, rfl⟩ := hY
    refine ⟨Z, ?_⟩
    rw [tryStr_hit, if_pos (List.prefix_append _ _), andThen_ok]
    have := splitAtBytes_len (c!"??@" ++ X ++ c!"@" ++ c!"??_R4@") Z
    have hl : utf8Len (c!"??@" ++ X ++ c!"@" ++ c!"??_R4@") = utf8Len X + 3 + 6 + 1 := by
      simp only [Emit.utf8Len_append]
      have : utf8Len c!"??@" = 3 ∧ utf8Len c!"@" = 1 ∧ utf8Len c!"??_R4@" = 6 := by decide
      omega
    rw [hl] at this
    simp only [List.append_assoc] at this ⊢
    simp only [if_true, this]
    simp [synthesize_from_name, synthesize_from_id, run]
  · refine ⟨Y, ?_⟩
    rw [tryStr_miss _ _ _ _ _ (by
      rw [Bool.eq_false_iff]; intro h; exact hY (List.isPrefixOf_iff_prefix.1 h)), if_neg hY, andThen_ok]
    have := splitAtBytes_len (c!"??@" ++ X ++ c!"@") Y
    have hl : utf8Len (c!"??@" ++ X ++ c!"@") = utf8Len X + 3 + 1 := by
      simp only [Emit.utf8Len_append]
      have : utf8Len c!"??@" = 3 ∧ utf8Len c!"@" = 1 := by decide
      omega
    rw [hl] at this
    simp only [List.append_assoc] at this ⊢
    simp only [Bool.false_eq_true, if_false, this]
    simp [synthesize_from_name, synthesize_from_id, run]

/-- **C11**: `??@X@` followed by anything demangles to itself (with the locator marker if that follows). -/
theorem C11_md5_echo (E : Env) (X Y : Text) (hX : '@' ∉ X) :
    demangle E (c!"??@" ++ X ++ c!"@" ++ Y) = .ok (bounded (c!"??@" ++ X ++ c!"@" ++ md5Suffix Y)) := by
  obtain ⟨Z, hp⟩ := md5_parse (render E) X Y hX
  refine demangle_emit hp ?_
  refine Emit.lift rfl ?_
  refine Emit.lift rfl ?_
  refine Emit.lift rfl ?_
  refine Emit.congr (Emit.bind (Emit.lift rfl (Emit.bind Emit.write Emit.pure')) Emit.pure') ?_
  simp

/-- The hypotheses are met, and the limit is not reached, by an ordinary name. -/
example : demangle E0 c!"??@a6a285da2eea70dba6b578022be61d81@??_R4@xyz" =
    .ok (.ok c!"??@a6a285da2eea70dba6b578022be61d81@??_R4@") := by decide +kernel

/-- **C12**: without the closing `@` an MD5 name is rejected. -/
theorem C12_md5_unterminated (E : Env) (X : Text) (hX : '@' ∉ X) :
    demangle E (c!"??@" ++ X) = .ok (.error .InvalidMd5Name) := by
  refine demangle_error ?_
  show exec (do_parse (render E) (fns _ _)) (mk _ [] [] []) = _
  simp [do_parse, run, demangle_md5_name, MStr.find_char, findChar_none hX]

end Props
end Undname
