import Verif.Model.Parser.Base

/-!
Model of the texts of errors and locations: the `Display`, `Debug`, `description`
and `cause` methods of the error types of the parser, the lexer and the conversion
to patterns, and of positions.  The text of a character, `{:?}`, is code of Rust's
standard library and a parameter here.
-/

namespace Esprit

/-- Rust's `{:?}` for `char`. -/
class DebugChar where
  text : Char → Str
  injective : ∀ c d, text c = text d → c = d

/-- `#[derive(Debug)]` for word.rs:33-75 `Reserved`: the name of the variant. -/
def Reserved.debug : Reserved → Str
  | .«null» => c!"Null"
  | .«true» => c!"True"
  | .«false» => c!"False"
  | .«break» => c!"Break"
  | .«case» => c!"Case"
  | .«catch» => c!"Catch"
  | .«class» => c!"Class"
  | .«const» => c!"Const"
  | .«continue» => c!"Continue"
  | .«debugger» => c!"Debugger"
  | .«default» => c!"Default"
  | .«delete» => c!"Delete"
  | .«do» => c!"Do"
  | .«else» => c!"Else"
  | .«export» => c!"Export"
  | .«extends» => c!"Extends"
  | .«finally» => c!"Finally"
  | .«for» => c!"For"
  | .«function» => c!"Function"
  | .«if» => c!"If"
  | .«import» => c!"Import"
  | .«in» => c!"In"
  | .«instanceof» => c!"Instanceof"
  | .«new» => c!"New"
  | .«return» => c!"Return"
  | .«super» => c!"Super"
  | .«switch» => c!"Switch"
  | .«this» => c!"This"
  | .«throw» => c!"Throw"
  | .«try» => c!"Try"
  | .«typeof» => c!"Typeof"
  | .«var» => c!"Var"
  | .«void» => c!"Void"
  | .«while» => c!"While"
  | .«with» => c!"With"
  | .«enum» => c!"Enum"

/-- joker error.rs:37-54 `Error::description`. -/
def LexError.description : LexError → Str
  | .incompleteWordEscape _ => c!"incomplete word escape"
  | .unterminatedComment => c!"unterminated block comment"
  | .unterminatedRegExp _ => c!"unterminated regexp literal"
  | .missingExponent _ => c!"missing exponent"
  | .unterminatedString _ => c!"unterminated string"
  | .missingBinaryDigits => c!"missing binary digits"
  | .missingOctalDigits => c!"missing octal digits"
  | .missingHexDigits => c!"missing hex digits"
  | .illegalChar _ => c!"illegal character"
  | .invalidDigit _ => c!"invalid digit"
  | .illegalUnicode _ => c!"illegal code unit"
  | .idAfterNumber _ => c!"identifier starts immediately after numeric literal"
  | .digitAfterNumber _ => c!"numeric literal starts immediately after previous numeric literal"
  | .reservedWordWithEscapes _ => c!"reserved word with escapes"

/-- `{:04x}`: lower case hexadecimal digits, at least four. -/
def hex4 (n : Nat) : Str :=
  let ds := Nat.toDigits 16 n
  List.replicate (4 - ds.length) '0' ++ ds

/-- joker error.rs:24-34 `Display for Error`. -/
def LexError.display [DebugChar] (e : LexError) : Str :=
  match e with
  | .illegalChar c => e.description ++ c!": " ++ DebugChar.text c
  | .invalidDigit c => e.description ++ c!": " ++ DebugChar.text c
  | .reservedWordWithEscapes w => e.description ++ c!": " ++ w.debug
  | .illegalUnicode u => e.description ++ c!": " ++ (c!"\\u{" ++ hex4 u ++ c!"}")
  | e => e.description

/-- cover.rs:22-27 `Error::description`. -/
def CoverError.description : CoverError → Str
  | .invalidAssignTarget _ => c!"invalid assignment pattern"
  | .invalidPropPatt _ => c!"invalid object property in assignment pattern"

/-- cover.rs:15-19 `Display for Error`. -/
def CoverError.display (e : CoverError) : Str := e.description

/-- error.rs:41-66 `Error::description`. -/
def PError.description : PError → Str
  | .unexpectedToken _ => c!"unexpected token"
  | .failedASI _ => c!"failed ASI"
  | .lexError e => e.description
  | .topLevelReturn _ => c!"top level return"
  | .illegalBreak _ => c!"illegal break"
  | .illegalContinue _ => c!"illegal continue"
  | .invalidLabel _ => c!"invalid label"
  | .invalidLabelType _ => c!"invalid label type"
  | .contextualKeyword _ _ => c!"contextual keyword"
  | .illegalStrictBinding _ _ => c!"illegal strict binding"
  | .unexpectedDirective _ _ => c!"unexpected directive"
  | .unexpectedModule _ => c!"unexpected module"
  | .importInScript _ => c!"import in script"
  | .exportInScript _ => c!"export in script"
  | .forOfLetExpr _ => c!"for-of-let expr"
  | .duplicateDefault _ => c!"duplicate default"
  | .strictWith _ => c!"strict with"
  | .throwArgument _ => c!"throw argument"
  | .orphanTry _ => c!"orphan try"
  | .invalidLHS _ e => e.description
  | .unsupportedFeature _ => c!"unsupported feature"
  | .compoundParamWithUseStrict _ => c!"compound param with use strict"

/-- error.rs:78-82 `Display for Error`. -/
def PError.display (e : PError) : Str := e.description

/-- What `cause` refers to: error.rs, joker error.rs and cover.rs have three types
that implement `std::error::Error`. -/
inductive Cause where
  | lex (e : LexError)
  | cover (e : CoverError)
  deriving DecidableEq, Repr

/-- The description of the cause. -/
def Cause.description : Cause → Str
  | .lex e => e.description
  | .cover e => e.description

/-- error.rs:68-74 `Error::cause`. -/
def PError.cause : PError → Option Cause
  | .lexError e => some (.lex e)
  | .invalidLHS _ e => some (.cover e)
  | _ => none

/-- joker error.rs:56-58 and cover.rs:29-31 `Error::cause`. -/
def Cause.cause : Cause → Option Cause := fun _ => none

/-- track.rs:20-24 `Debug for Posn`; `self.line + 1` and `self.column + 1` do not
overflow here (they do in Rust after 2³² lines or columns). -/
def Posn.debug (p : Posn) : Str :=
  Nat.toDigits 10 (p.line + 1) ++ ':' :: Nat.toDigits 10 (p.column + 1)

/-- track.rs:32-36 `Debug for Span`. -/
def Span.debug (s : Span) : Str := s.start.debug ++ c!".." ++ s.end.debug

end Esprit
