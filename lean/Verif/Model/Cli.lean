/-
  Model of the example program `undecorate_name` (examples/undecorate_name.rs) after argument parsing, and of the
  `Display` texts of the errors (src/lib.rs:50-190).
-/
import Verif.Model.Api

namespace Undname

/-- `struct Cli`, examples/undecorate_name.rs:18-51. Parsing of the command line into it (clap) is not modelled. -/
structure Cli where
  mangled_string : Text
  no_calling_convention : Bool
  no_tag_specifier : Bool
  no_access_specifier : Bool
  no_member_type : Bool
  no_return_type : Bool
  no_variable_type : Bool
  no_this_type : Bool
  no_leading_underscores : Bool
  no_ms_keywords : Bool
  name_only : Bool
  deriving DecidableEq, Repr

/-- The flags `main` builds from the switches, examples/undecorate_name.rs:55-88. `Flags::empty()` has no bit set, as
`Flags.default`; `|=` is `|||`. -/
def Cli.flags (cli : Cli) : Flags :=
  let flags := Flags.default
  let flags := if cli.no_calling_convention then flags ||| Flags.NO_CALLING_CONVENTION else flags
  let flags := if cli.no_tag_specifier then flags ||| Flags.NO_TAG_SPECIFIER else flags
  let flags := if cli.no_access_specifier then flags ||| Flags.NO_ACCESS_SPECIFIER else flags
  let flags := if cli.no_member_type then flags ||| Flags.NO_MEMBER_TYPE else flags
  let flags := if cli.no_return_type then flags ||| Flags.NO_RETURN_TYPE else flags
  let flags := if cli.no_variable_type then flags ||| Flags.NO_VARIABLE_TYPE else flags
  let flags := if cli.no_this_type then flags ||| Flags.NO_THISTYPE else flags
  let flags := if cli.no_leading_underscores then flags ||| Flags.NO_LEADING_UNDERSCORES else flags
  let flags := if cli.no_ms_keywords then flags ||| Flags.NO_MS_KEYWORDS else flags
  let flags := if cli.name_only then flags ||| Flags.NAME_ONLY else flags
  flags

/-- `println!("{line}")`: the line and a line feed are appended to what was printed. Failure to write to the standard output (a
panic in `println!`) is not modelled. -/
def println (out line : Text) : Text := out ++ line ++ ['\n']

/-- `main` after `Cli::parse()`, examples/undecorate_name.rs:55-97: what is printed on the standard output, or a crash. -/
def Cli.main (uni : Char → Bool) (cli : Cli) : Except Crash Text :=
  let out := println [] cli.mangled_string
  match demangle ⟨cli.flags, uni⟩ cli.mangled_string with
  | .error c => .error c
  | .ok (.ok ok) => .ok (println out ok)
  | .ok (.error _) => .ok (println out c!"error: Invalid mangled name")

/-- `Display` of `Error`, src/lib.rs:50-190 (`thiserror` attributes). `Io` is transparent: it shows the `io::Error`. The one of
kind `UnexpectedEof` is built from the kind alone (src/demangler.rs:305) and shows the standard library's description of it, the
one of kind `OutOfMemory` is built with `Error::MaliciousInput` as its inner error (src/demangler.rs:162-165) and shows that. -/
def Error.display : Error → Text
  | .InvalidAnonymousNamespaceName => c!"failed to demangle anonymous namespace name"
  | .InvalidArrayType => c!"failed to demangle array type"
  | .InvalidBackRef => c!"tried to access a backref that does not exist"
  | .InvalidCallingConvention => c!"failed to demangle calling convention"
  | .InvalidCharLiteral => c!"failed to demangle char literal"
  | .InvalidClassType => c!"failed to demangle class type"
  | .InvalidCustomType => c!"failed to demangle custom type"
  | .InvalidDeclarator => c!"failed to demangle declarator"
  | .InvalidEncodedSymbol => c!"failed to demangle encoded symbol"
  | .InvalidFullyQualifiedSymbolName => c!"failed to demangle fully qualified symbol name"
  | .InvalidFunctionClass => c!"failed to demangle function class"
  | .InvalidFunctionEncoding => c!"failed to demangle function encoding"
  | .InvalidFunctionIdentifierCode => c!"failed to demangle function identifier code"
  | .InvalidFunctionParameterList => c!"failed to demangle function parameter list"
  | .InvalidFunctionType => c!"failed to demangle function type"
  | .InvalidInitFiniStub => c!"failed to demangle init fini stub"
  | .InvalidIntrinsicFunctionCode => c!"failed to demangle intrinsic function code"
  | .InvalidLocallyScopedNamePiece => c!"failed to demangle locally scoped name piece"
  | .InvalidLocalStaticGuard => c!"failed to demangle local static guard"
  | .InvalidMd5Name => c!"failed to demangle md5 name"
  | .InvalidMemberPointerType => c!"failed to demangle member pointer type"
  | .InvalidNameScopeChain => c!"failed to demangle name scope chain"
  | .InvalidNumber => c!"failed to demangle number"
  | .InvalidPointerCVQualifiers => c!"failed to demangle pointer cv qualifiers"
  | .InvalidPointerType => c!"failed to demangle pointer type"
  | .InvalidPrimitiveType => c!"failed to demangle primitive type"
  | .InvalidQualifiers => c!"failed to demangle qualifiers"
  | .InvalidRttiBaseClassDescriptorNode => c!"failed to demangle rtti base class descriptor node"
  | .InvalidSigned => c!"failed to demangle signed number"
  | .InvalidSimpleString => c!"failed to demangle simple string"
  | .InvalidSpecialIntrinsic => c!"failed to demangle special intrinsic"
  | .InvalidSpecialTableSymbolNode => c!"failed to demangle special table symbol node"
  | .InvalidStringLiteral => c!"failed to demangle string literal"
  | .InvalidTagUniqueName => c!"failed to demangle tag unique name"
  | .InvalidTemplateInstantiationName => c!"failed to demangle template instantiation name"
  | .InvalidTemplateParameterList => c!"failed to demangle template parameter list"
  | .InvalidThrowSpecification => c!"failed to demangle throw specification"
  | .InvalidType => c!"failed to demangle type"
  | .InvalidTypeinfoName => c!"failed to demangle typinfo name"
  | .InvalidUnsigned => c!"failed to demangle unsigned number"
  | .InvalidUntypedVariable => c!"failed to demangle untyped variable"
  | .InvalidVariableStorageClass => c!"failed to demangle variable storage class"
  | .InvalidVcallThunkNode => c!"failed to demangle vcall thunk node"
  | .Utf8Error => c!"string demangled to an invalid utf-8 sequence"
  | .MaliciousInput => c!"input string was likely malicious and would have triggered an out of memory panic"
  | .Io .UnexpectedEof => c!"unexpected end of file"
  | .Io .OutOfMemory => c!"input string was likely malicious and would have triggered an out of memory panic"

end Undname
