import Verif.Model.Parser.Base

/-! The kinds of errors (C57). -/

namespace Esprit

/-- The kinds of errors: those of the parser itself, those of the lexer, and those of
the conversion of expressions to patterns. -/
inductive ErrorKind where
  | unexpectedToken
  | failedASI
  | topLevelReturn
  | illegalBreak
  | illegalContinue
  | invalidLabel
  | invalidLabelType
  | contextualKeyword
  | illegalStrictBinding
  | unexpectedDirective
  | unexpectedModule
  | importInScript
  | exportInScript
  | forOfLetExpr
  | duplicateDefault
  | strictWith
  | throwArgument
  | orphanTry
  | unsupportedFeature
  | compoundParamWithUseStrict
  | incompleteWordEscape
  | unterminatedComment
  | unterminatedRegExp
  | missingExponent
  | unterminatedString
  | missingBinaryDigits
  | missingOctalDigits
  | missingHexDigits
  | illegalChar
  | invalidDigit
  | illegalUnicode
  | idAfterNumber
  | digitAfterNumber
  | reservedWordWithEscapes
  | invalidAssignTarget
  | invalidPropPatt
  deriving DecidableEq, Repr

/-- The kind of an error of the lexer. -/
def LexError.kind : LexError → ErrorKind
  | .incompleteWordEscape _ => .incompleteWordEscape
  | .unterminatedComment => .unterminatedComment
  | .unterminatedRegExp _ => .unterminatedRegExp
  | .missingExponent _ => .missingExponent
  | .unterminatedString _ => .unterminatedString
  | .missingBinaryDigits => .missingBinaryDigits
  | .missingOctalDigits => .missingOctalDigits
  | .missingHexDigits => .missingHexDigits
  | .illegalChar _ => .illegalChar
  | .invalidDigit _ => .invalidDigit
  | .illegalUnicode _ => .illegalUnicode
  | .idAfterNumber _ => .idAfterNumber
  | .digitAfterNumber _ => .digitAfterNumber
  | .reservedWordWithEscapes _ => .reservedWordWithEscapes

/-- The kind of an error of the conversion to patterns. -/
def CoverError.kind : CoverError → ErrorKind
  | .invalidAssignTarget _ => .invalidAssignTarget
  | .invalidPropPatt _ => .invalidPropPatt

/-- The kind of an error of the parser; errors of the lexer and of the conversion to
patterns keep their kind. -/
def PError.kind : PError → ErrorKind
  | .unexpectedToken _ => .unexpectedToken
  | .failedASI _ => .failedASI
  | .lexError e => e.kind
  | .topLevelReturn _ => .topLevelReturn
  | .illegalBreak _ => .illegalBreak
  | .illegalContinue _ => .illegalContinue
  | .invalidLabel _ => .invalidLabel
  | .invalidLabelType _ => .invalidLabelType
  | .contextualKeyword _ _ => .contextualKeyword
  | .illegalStrictBinding _ _ => .illegalStrictBinding
  | .unexpectedDirective _ _ => .unexpectedDirective
  | .unexpectedModule _ => .unexpectedModule
  | .importInScript _ => .importInScript
  | .exportInScript _ => .exportInScript
  | .forOfLetExpr _ => .forOfLetExpr
  | .duplicateDefault _ => .duplicateDefault
  | .strictWith _ => .strictWith
  | .throwArgument _ => .throwArgument
  | .orphanTry _ => .orphanTry
  | .invalidLHS _ e => e.kind
  | .unsupportedFeature _ => .unsupportedFeature
  | .compoundParamWithUseStrict _ => .compoundParamWithUseStrict

/-- What the text of an error of the lexer shows besides its kind: the character, the
number of the code unit, or the reserved word. -/
inductive Detail where
  | none
  | char (c : Char)
  | unit (n : Nat)
  | word (r : Reserved)
  deriving DecidableEq, Repr

/-- The detail of an error. -/
def LexError.detail : LexError → Detail
  | .illegalChar c => .char c
  | .invalidDigit c => .char c
  | .illegalUnicode u => .unit u
  | .reservedWordWithEscapes r => .word r
  | _ => .none

end Esprit
