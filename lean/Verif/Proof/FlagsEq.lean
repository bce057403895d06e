/-
  Flag sets that make no difference.
-/
import Verif.Model.Api

namespace Undname

/-- Two environments agree on everything that rendering can observe. -/
structure SameEnv (E E' : Env) : Prop where
  uni : E.uni = E'.uni
  name : E.flags.name_only = E'.flags.name_only
  ms : E.flags.no_ms_keywords = E'.flags.no_ms_keywords
  ret : E.flags.no_return_type = E'.flags.no_return_type
  cc : E.flags.no_ms_keywords = false → E.flags.no_calling_convention = E'.flags.no_calling_convention
  und : E.flags.no_ms_keywords = false → E.flags.no_leading_underscores = E'.flags.no_leading_underscores
  acc : E.flags.name_only = false → E.flags.no_access_specifier = E'.flags.no_access_specifier
  mem : E.flags.name_only = false → E.flags.no_member_type = E'.flags.no_member_type
  var : E.flags.name_only = false → E.flags.no_variable_type = E'.flags.no_variable_type
  this : E.flags.name_only = false → E.flags.no_this_type = E'.flags.no_this_type
  tag : E.flags.name_only = false → E.flags.no_tag_specifier = E'.flags.no_tag_specifier

namespace SameEnv
variable {E E' : Env} (H : SameEnv E E') (c : Cache) (r : OutFns)
include H

theorem space : output_space_if_necessary E = output_space_if_necessary E' := by
  unfold output_space_if_necessary; rw [H.uni]

theorem conv (h : E.flags.no_ms_keywords = false) (cc : CallingConv) : cc.output E = cc.output E' := by
  unfold CallingConv.output; rw [H.space, H.und h]

theorem single (m : Qualifiers.SingleQualifier) :
    Qualifiers.output_single_qualifier E m = Qualifiers.output_single_qualifier E' m := by
  cases m with
  | Const => rfl
  | Volatile => rfl
  | Restrict =>
    unfold Qualifiers.output_single_qualifier
    cases h : E.flags.no_ms_keywords with
    | true => rw [H.ms] at h; simp [h]
    | false => rw [H.und h]; rw [H.ms] at h; simp [h]

theorem quals (q : Qualifiers) (a b : Bool) : Qualifiers.output E q a b = Qualifiers.output E' q a b := by
  unfold Qualifiers.output Qualifiers.output_if_present
  simp only [H.single]

theorem funcPre (f : FuncSig) (b : Bool) : funcPre E r f b = funcPre E' r f b := by
  unfold Undname.funcPre
  have h1 : (!E.flags.no_access_specifier && !E.flags.name_only) = (!E'.flags.no_access_specifier && !E'.flags.name_only) := by
    rw [← H.name]; cases h : E.flags.name_only
    · rw [H.acc h]
    · simp
  have h2 : (!E.flags.no_member_type && !E.flags.name_only) = (!E'.flags.no_member_type && !E'.flags.name_only) := by
    rw [← H.name]; cases h : E.flags.name_only
    · rw [H.mem h]
    · simp
  have h3 : whenB (!b && !E.flags.no_calling_convention && !E.flags.no_ms_keywords && !E.flags.name_only)
        (whenSome f.call_convention fun cc => cc.output E) =
      whenB (!b && !E'.flags.no_calling_convention && !E'.flags.no_ms_keywords && !E'.flags.name_only)
        (whenSome f.call_convention fun cc => cc.output E') := by
    rw [← H.name, ← H.ms]
    cases h : E.flags.no_ms_keywords
    · rw [← H.cc h, funext (H.conv h)]
    · simp [whenB]
  rw [h1, h2, h3, H.ret, H.name]

theorem funcQuals (f : FuncSig) : funcQuals E f = funcQuals E' f := by
  unfold Undname.funcQuals
  cases h : E.flags.no_ms_keywords with
  | true => rw [H.ms] at h; simp [h, whenB]
  | false => rw [← H.und h]; rw [H.ms] at h; simp [h]

theorem funcPost (f : FuncSig) (b : Bool) : funcPost E r f b = funcPost E' r f b := by
  unfold Undname.funcPost
  have h2 : (!E.flags.no_this_type && !E.flags.name_only) = (!E'.flags.no_this_type && !E'.flags.name_only) := by
    rw [← H.name]; cases h : E.flags.name_only
    · rw [H.this h]
    · simp
  rw [h2, H.ret, H.name, H.funcQuals]

theorem thunkPre (f : FuncSig) (b : Bool) : thunkPre E r f b = thunkPre E' r f b := by
  unfold Undname.thunkPre; rw [H.name, H.funcPre]

theorem thunkPost (f : FuncSig) (a : ThisAdjustor) (b : Bool) : thunkPost E r f a b = thunkPost E' r f a b := by
  unfold Undname.thunkPost; rw [H.funcPost]

theorem pointeeParen (n : Node) : pointeeParen E n = pointeeParen E' n := by
  have key : ∀ f : FuncSig, (whenB (!E.flags.no_calling_convention && !E.flags.no_ms_keywords) do
      whenSome f.call_convention fun cc => do
        cc.output E
        write c!" ") = (whenB (!E'.flags.no_calling_convention && !E'.flags.no_ms_keywords) do
      whenSome f.call_convention fun cc => do
        cc.output E'
        write c!" ") := by
    intro f
    rw [← H.ms]
    cases h : E.flags.no_ms_keywords
    · rw [← H.cc h]; simp only [H.conv h]
    · simp [whenB]
  cases n <;> simp only [Undname.pointeeParen, key]

theorem pointerPre (q : Qualifiers) (a : Option PointerAffinity) (cp : Option Handle) (p : Handle) :
    pointerPre E c r q a cp p = pointerPre E' c r q a cp p := by
  have h1 : ∀ pn, pointeePre E r p pn = pointeePre E' r p pn := by
    intro pn; cases pn <;> simp only [pointeePre, H.funcPre, H.thunkPre]
  have h2 : (whenB (!E.flags.no_ms_keywords && q.is_unaligned)
    (if E.flags.no_leading_underscores then write c!"unaligned " else write c!"__unaligned ")) =
    (whenB (!E'.flags.no_ms_keywords && q.is_unaligned)
    (if E'.flags.no_leading_underscores then write c!"unaligned " else write c!"__unaligned ")) := by
    rw [← H.ms]
    cases h : E.flags.no_ms_keywords
    · rw [← H.und h]
    · simp [whenB]
  unfold Undname.pointerPre
  simp only [h1, h2, H.space, H.pointeeParen, H.quals]

theorem pointerPost (p : Handle) : pointerPost E c r p = pointerPost E' c r p := by
  have h1 : ∀ pn, pointeePost E r p pn = pointeePost E' r p pn := by
    intro pn; cases pn <;> simp only [pointeePost, H.funcPost, H.thunkPost]
  unfold Undname.pointerPost
  simp only [h1]

theorem preNode (n : Node) : preNode E c r n = preNode E' c r n := by
  have h2 : (!E.flags.no_tag_specifier && !E.flags.name_only) = (!E'.flags.no_tag_specifier && !E'.flags.name_only) := by
    rw [← H.name]; cases h : E.flags.name_only
    · rw [H.tag h]
    · simp
  cases n <;> simp only [Undname.preNode, H.quals, H.funcPre, H.thunkPre, H.pointerPre, h2]

theorem postNode (n : Node) : postNode E c r n = postNode E' c r n := by
  cases n <;> simp only [Undname.postNode, H.funcPost, H.thunkPost, H.pointerPost]

theorem variableOut (name : Option VariableSymbolName) (sc : Option StorageClass) (t : Option Handle) :
    variableOut E r name sc t = variableOut E' r name sc t := by
  have h1 : (!E.flags.no_access_specifier && !E.flags.name_only) = (!E'.flags.no_access_specifier && !E'.flags.name_only) := by
    rw [← H.name]; cases h : E.flags.name_only
    · rw [H.acc h]
    · simp
  have h2 : (!E.flags.no_member_type && !E.flags.name_only) = (!E'.flags.no_member_type && !E'.flags.name_only) := by
    rw [← H.name]; cases h : E.flags.name_only
    · rw [H.mem h]
    · simp
  have h3 : (!E.flags.no_variable_type && !E.flags.name_only) = (!E'.flags.no_variable_type && !E'.flags.name_only) := by
    rw [← H.name]; cases h : E.flags.name_only
    · rw [H.var h]
    · simp
  unfold Undname.variableOut
  rw [h1, h2, h3, H.name, H.space]

theorem outNode (n : Node) : outNode E c r n = outNode E' c r n := by
  cases n <;> simp only [Undname.outNode, H.preNode, H.postNode, H.quals, H.variableOut, H.space, H.name]

theorem outFns (n : Nat) : outFns E c n = outFns E' c n := by
  induction n with
  | zero => rfl
  | succ n ih => simp only [Undname.outFns, ih, H.outNode, H.preNode, H.postNode]

/-- Environments that agree render alike. -/
theorem render : render E = render E' := by
  funext c k h
  unfold Undname.render
  rw [H.outFns]

/-- Environments that agree give the same results. -/
theorem demangle_into (m buf : Text) : demangle_into E m buf = demangle_into E' m buf := by
  unfold Undname.demangle_into parse_into
  rw [H.render]

theorem demangle (m : Text) : demangle E m = demangle E' m := by
  unfold Undname.demangle
  rw [H.demangle_into]

end SameEnv
end Undname
