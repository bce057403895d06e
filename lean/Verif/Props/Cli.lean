/-
  Property theorems C50, C51: the example program and the texts of the errors.
-/
import Verif.Model.Cli
import Verif.Props.Safety
import Verif.Props.Flags

namespace Undname
namespace Props

/-- Which command line switch stands for which documented flag. -/
def switches (cli : Cli) : List (Bool × Flags) :=
  [(cli.no_calling_convention, Flags.NO_CALLING_CONVENTION), (cli.no_tag_specifier, Flags.NO_TAG_SPECIFIER),
   (cli.no_access_specifier, Flags.NO_ACCESS_SPECIFIER), (cli.no_member_type, Flags.NO_MEMBER_TYPE),
   (cli.no_return_type, Flags.NO_RETURN_TYPE), (cli.no_variable_type, Flags.NO_VARIABLE_TYPE),
   (cli.no_this_type, Flags.NO_THISTYPE), (cli.no_leading_underscores, Flags.NO_LEADING_UNDERSCORES),
   (cli.no_ms_keywords, Flags.NO_MS_KEYWORDS), (cli.name_only, Flags.NAME_ONLY)]

theorem flags_of_switches : ∀ a b c d e f g h i j : Bool,
    (∀ p ∈ switches ⟨[], a, b, c, d, e, f, g, h, i, j⟩, (Cli.mk [] a b c d e f g h i j).flags.contains p.2 = p.1) ∧
    (Cli.mk [] a b c d e f g h i j).flags.bits &&& 0x3FF#16 = (Cli.mk [] a b c d e f g h i j).flags.bits := by decide +kernel

/-- **C50**: the flag set handed to the demangler contains a documented flag exactly if its switch was given, and no other bit
is set. -/
theorem C50_flags (cli : Cli) :
    (∀ p ∈ switches cli, cli.flags.contains p.2 = p.1) ∧ (switches cli).map (·.2) = allFlags ∧
      cli.flags.bits &&& 0x3FF#16 = cli.flags.bits := by
  obtain ⟨m, a, b, c, d, e, f, g, h, i, j⟩ := cli
  have h := flags_of_switches a b c d e f g h i j
  exact ⟨h.1, rfl, h.2⟩

/-- **C50**: for every argument and every choice of switches the program ends normally, having printed exactly two lines: the
argument, and either the text that `demangle` returns with the selected flags or the message that the name is invalid. -/
theorem C50_output (uni : Char → Bool) (cli : Cli) :
    (∃ t, demangle ⟨cli.flags, uni⟩ cli.mangled_string = .ok (.ok t) ∧ Cli.main uni cli = .ok (cli.mangled_string ++ c!"\n" ++ t ++ c!"\n")) ∨
    (∃ e, demangle ⟨cli.flags, uni⟩ cli.mangled_string = .ok (.error e) ∧
      Cli.main uni cli = .ok (cli.mangled_string ++ c!"\n" ++ c!"error: Invalid mangled name" ++ c!"\n")) := by
  rw [demangle_of_into]
  rcases call_outcome ⟨cli.flags, uni⟩ cli.mangled_string [] with ⟨e, h1, _⟩ | ⟨u, h1, _⟩
  · refine .inr ⟨e, by rw [h1], ?_⟩
    rw [Cli.main, demangle_of_into, h1]
    rfl
  · refine .inl ⟨u, by rw [h1], ?_⟩
    rw [Cli.main, demangle_of_into, h1]
    rfl

/-- A run with two switches, and one that is refused. -/
example : Cli.main (fun _ => false) ⟨c!"?f@@YAHPEAVs@@@Z", true, true, false, false, false, false, false, false, false, false⟩ =
    .ok c!"?f@@YAHPEAVs@@@Z\nint f(s *)\n" ∧
    Cli.main (fun _ => false) ⟨c!"f", true, true, false, false, false, false, false, false, false, false⟩ =
    .ok c!"f\nerror: Invalid mangled name\n" := by decide +kernel

/-- All errors. -/
def allErrors : List Error :=
  [.InvalidAnonymousNamespaceName, .InvalidArrayType, .InvalidBackRef, .InvalidCallingConvention,
   .InvalidCharLiteral, .InvalidClassType, .InvalidCustomType, .InvalidDeclarator,
   .InvalidEncodedSymbol, .InvalidFullyQualifiedSymbolName, .InvalidFunctionClass, .InvalidFunctionEncoding,
   .InvalidFunctionIdentifierCode, .InvalidFunctionParameterList, .InvalidFunctionType, .InvalidInitFiniStub,
   .InvalidIntrinsicFunctionCode, .InvalidLocallyScopedNamePiece, .InvalidLocalStaticGuard, .InvalidMd5Name,
   .InvalidMemberPointerType, .InvalidNameScopeChain, .InvalidNumber, .InvalidPointerCVQualifiers,
   .InvalidPointerType, .InvalidPrimitiveType, .InvalidQualifiers, .InvalidRttiBaseClassDescriptorNode,
   .InvalidSigned, .InvalidSimpleString, .InvalidSpecialIntrinsic, .InvalidSpecialTableSymbolNode,
   .InvalidStringLiteral, .InvalidTagUniqueName, .InvalidTemplateInstantiationName, .InvalidTemplateParameterList,
   .InvalidThrowSpecification, .InvalidType, .InvalidTypeinfoName, .InvalidUnsigned,
   .InvalidUntypedVariable, .InvalidVariableStorageClass, .InvalidVcallThunkNode, .Utf8Error,
   .MaliciousInput, .Io .UnexpectedEof, .Io .OutOfMemory]

theorem all_errors (e : Error) : e ∈ allErrors := by
  cases e with
  | Io k => cases k <;> decide +kernel
  | _ => decide +kernel

/-- **C51**: no error has an empty text, and the text tells the errors apart, except that the two limits (number of nodes, size
of the output) have the same text. -/
theorem C51_error_texts (e e' : Error) :
    e.display ≠ [] ∧
    (e.display = e'.display → e = e' ∨
      (e ∈ [.MaliciousInput, .Io .OutOfMemory] ∧ e' ∈ [.MaliciousInput, .Io .OutOfMemory])) := by
  constructor
  · cases e with
    | Io k => cases k <;> decide
    | _ => decide
  · have h : ∀ x ∈ allErrors, ∀ y ∈ allErrors, x.display = y.display → x = y ∨
        (x ∈ [Error.MaliciousInput, .Io .OutOfMemory] ∧ y ∈ [Error.MaliciousInput, .Io .OutOfMemory]) := by decide +kernel
    exact h e (all_errors e) e' (all_errors e')

/-- The documented texts (the comments of the variants in src/lib.rs; for I/O errors the description of the kind, or
of the error it wraps). -/
def documentedTexts : List (Error × Text) :=
  [(.InvalidAnonymousNamespaceName, c!"failed to demangle anonymous namespace name"),
   (.InvalidArrayType, c!"failed to demangle array type"),
   (.InvalidBackRef, c!"tried to access a backref that does not exist"),
   (.InvalidCallingConvention, c!"failed to demangle calling convention"),
   (.InvalidCharLiteral, c!"failed to demangle char literal"),
   (.InvalidClassType, c!"failed to demangle class type"),
   (.InvalidCustomType, c!"failed to demangle custom type"),
   (.InvalidDeclarator, c!"failed to demangle declarator"),
   (.InvalidEncodedSymbol, c!"failed to demangle encoded symbol"),
   (.InvalidFullyQualifiedSymbolName, c!"failed to demangle fully qualified symbol name"),
   (.InvalidFunctionClass, c!"failed to demangle function class"),
   (.InvalidFunctionEncoding, c!"failed to demangle function encoding"),
   (.InvalidFunctionIdentifierCode, c!"failed to demangle function identifier code"),
   (.InvalidFunctionParameterList, c!"failed to demangle function parameter list"),
   (.InvalidFunctionType, c!"failed to demangle function type"),
   (.InvalidInitFiniStub, c!"failed to demangle init fini stub"),
   (.InvalidIntrinsicFunctionCode, c!"failed to demangle intrinsic function code"),
   (.InvalidLocallyScopedNamePiece, c!"failed to demangle locally scoped name piece"),
   (.InvalidLocalStaticGuard, c!"failed to demangle local static guard"),
   (.InvalidMd5Name, c!"failed to demangle md5 name"),
   (.InvalidMemberPointerType, c!"failed to demangle member pointer type"),
   (.InvalidNameScopeChain, c!"failed to demangle name scope chain"),
   (.InvalidNumber, c!"failed to demangle number"),
   (.InvalidPointerCVQualifiers, c!"failed to demangle pointer cv qualifiers"),
   (.InvalidPointerType, c!"failed to demangle pointer type"),
   (.InvalidPrimitiveType, c!"failed to demangle primitive type"),
   (.InvalidQualifiers, c!"failed to demangle qualifiers"),
   (.InvalidRttiBaseClassDescriptorNode, c!"failed to demangle rtti base class descriptor node"),
   (.InvalidSigned, c!"failed to demangle signed number"),
   (.InvalidSimpleString, c!"failed to demangle simple string"),
   (.InvalidSpecialIntrinsic, c!"failed to demangle special intrinsic"),
   (.InvalidSpecialTableSymbolNode, c!"failed to demangle special table symbol node"),
   (.InvalidStringLiteral, c!"failed to demangle string literal"),
   (.InvalidTagUniqueName, c!"failed to demangle tag unique name"),
   (.InvalidTemplateInstantiationName, c!"failed to demangle template instantiation name"),
   (.InvalidTemplateParameterList, c!"failed to demangle template parameter list"),
   (.InvalidThrowSpecification, c!"failed to demangle throw specification"),
   (.InvalidType, c!"failed to demangle type"),
   (.InvalidTypeinfoName, c!"failed to demangle typinfo name"),
   (.InvalidUnsigned, c!"failed to demangle unsigned number"),
   (.InvalidUntypedVariable, c!"failed to demangle untyped variable"),
   (.InvalidVariableStorageClass, c!"failed to demangle variable storage class"),
   (.InvalidVcallThunkNode, c!"failed to demangle vcall thunk node"),
   (.Utf8Error, c!"string demangled to an invalid utf-8 sequence"),
   (.MaliciousInput, c!"input string was likely malicious and would have triggered an out of memory panic"),
   (.Io .UnexpectedEof, c!"unexpected end of file"),
   (.Io .OutOfMemory, c!"input string was likely malicious and would have triggered an out of memory panic")]

/-- **C51**: every error has its documented text. -/
theorem C51_documented (e : Error) : ∀ p ∈ documentedTexts, p.1 = e → e.display = p.2 := by
  rintro p hp rfl
  revert p
  decide +kernel

/-- The table has one entry for each error. -/
example : documentedTexts.map (·.1) = allErrors := by decide +kernel

end Props
end Undname
