import Verif.Model.Debug
import Verif.Model.Parser.Program

/-!
Model of the derived `Debug` implementations of tokens (`crates/joker/src/token.rs`) and of errors
(`crates/joker/src/error.rs`, `crates/easter/src/cover.rs`, `src/error.rs`): their texts with `{:?}`.
-/

namespace Esprit

/-- token.rs:263-267 derived `Debug for CharCase`. -/
def CharCase.dbg : CharCase → Dbg
  | .lowerCase => .word c!"LowerCase"
  | .upperCase => .word c!"UpperCase"

/-- token.rs:269-277 derived `Debug for Sign`. -/
def Sign.dbg : Sign → Dbg
  | .plus => .word c!"Plus"
  | .minus => .word c!"Minus"

/-- token.rs:239-244 derived `Debug for Exp`. -/
def Exp.dbg (e : Exp) : Dbg :=
  .record c!"Exp" [(c!"e", e.e.dbg), (c!"sign", Dbg.opt Sign.dbg e.sign), (c!"value", .str e.value)]

/-- token.rs:246-251 derived `Debug for Radix`. -/
def Radix.dbg : Radix → Dbg
  | .bin c => .tup c!"Bin" [c.dbg]
  | .oct c => .tup c!"Oct" [Dbg.opt CharCase.dbg c]
  | .hex c => .tup c!"Hex" [c.dbg]

/-- token.rs:183-188 derived `Debug for NumberSource`. -/
def NumberSource.dbg : NumberSource → Dbg
  | .decimalInt m e => .tup c!"DecimalInt" [.str m, Dbg.opt Exp.dbg e]
  | .radixInt r s => .tup c!"RadixInt" [r.dbg, .str s]
  | .float i f e => .tup c!"Float" [Dbg.opt .str i, Dbg.opt .str f, Dbg.opt Exp.dbg e]

/-- token.rs:23-86 derived `Debug for TokenData`. -/
def TokenData.dbg [DebugStd] : TokenData → Dbg
  | .reserved r => .tup c!"Reserved" [.word r.debug]
  | .number n => .tup c!"Number" [n.dbg]
  | .string s => .tup c!"String" [s.dbg]
  | .regExp r => .tup c!"RegExp" [r.dbg]
  | .identifier n => .tup c!"Identifier" [n.dbg]
  | .lBrace => .word c!"LBrace"
  | .rBrace => .word c!"RBrace"
  | .lParen => .word c!"LParen"
  | .rParen => .word c!"RParen"
  | .lBrack => .word c!"LBrack"
  | .rBrack => .word c!"RBrack"
  | .dot => .word c!"Dot"
  | .ellipsis => .word c!"Ellipsis"
  | .semi => .word c!"Semi"
  | .comma => .word c!"Comma"
  | .lAngle => .word c!"LAngle"
  | .rAngle => .word c!"RAngle"
  | .lEq => .word c!"LEq"
  | .gEq => .word c!"GEq"
  | .eq => .word c!"Eq"
  | .nEq => .word c!"NEq"
  | .strictEq => .word c!"StrictEq"
  | .strictNEq => .word c!"StrictNEq"
  | .plus => .word c!"Plus"
  | .minus => .word c!"Minus"
  | .star => .word c!"Star"
  | .mod => .word c!"Mod"
  | .slash => .word c!"Slash"
  | .inc => .word c!"Inc"
  | .dec => .word c!"Dec"
  | .lShift => .word c!"LShift"
  | .rShift => .word c!"RShift"
  | .uRShift => .word c!"URShift"
  | .bitAnd => .word c!"BitAnd"
  | .bitOr => .word c!"BitOr"
  | .bitXor => .word c!"BitXor"
  | .bang => .word c!"Bang"
  | .tilde => .word c!"Tilde"
  | .logicalAnd => .word c!"LogicalAnd"
  | .logicalOr => .word c!"LogicalOr"
  | .question => .word c!"Question"
  | .colon => .word c!"Colon"
  | .assign => .word c!"Assign"
  | .plusAssign => .word c!"PlusAssign"
  | .minusAssign => .word c!"MinusAssign"
  | .starAssign => .word c!"StarAssign"
  | .slashAssign => .word c!"SlashAssign"
  | .modAssign => .word c!"ModAssign"
  | .lShiftAssign => .word c!"LShiftAssign"
  | .rShiftAssign => .word c!"RShiftAssign"
  | .uRShiftAssign => .word c!"URShiftAssign"
  | .bitAndAssign => .word c!"BitAndAssign"
  | .bitOrAssign => .word c!"BitOrAssign"
  | .bitXorAssign => .word c!"BitXorAssign"
  | .arrow => .word c!"Arrow"
  | .eof => .word c!"EOF"

/-- token.rs:6-11 derived `Debug for Token`. -/
def Token.dbg [DebugStd] (t : Token) : Dbg :=
  .record c!"Token" [(c!"location", .word t.location.debug), (c!"newline", boolDbg t.newline),
      (c!"value", t.value.dbg)]

/-- joker error.rs:6-22 derived `Debug for Error`; the code unit is printed in decimal. -/
def LexError.dbg : LexError → Dbg
  | .incompleteWordEscape c => .tup c!"IncompleteWordEscape" [Dbg.opt .chr c]
  | .unterminatedComment => .word c!"UnterminatedComment"
  | .unterminatedRegExp c => .tup c!"UnterminatedRegExp" [Dbg.opt .chr c]
  | .missingExponent c => .tup c!"MissingExponent" [Dbg.opt .chr c]
  | .unterminatedString c => .tup c!"UnterminatedString" [Dbg.opt .chr c]
  | .missingBinaryDigits => .word c!"MissingBinaryDigits"
  | .missingOctalDigits => .word c!"MissingOctalDigits"
  | .missingHexDigits => .word c!"MissingHexDigits"
  | .illegalChar c => .tup c!"IllegalChar" [.chr c]
  | .invalidDigit c => .tup c!"InvalidDigit" [.chr c]
  | .illegalUnicode u => .tup c!"IllegalUnicode" [.word (Nat.toDigits 10 u)]
  | .idAfterNumber c => .tup c!"IdAfterNumber" [.chr c]
  | .digitAfterNumber c => .tup c!"DigitAfterNumber" [.chr c]
  | .reservedWordWithEscapes r => .tup c!"ReservedWordWithEscapes" [.word r.debug]

/-- cover.rs:9-13 derived `Debug for Error`. -/
def CoverError.dbg : CoverError → Dbg
  | .invalidAssignTarget l => .tup c!"InvalidAssignTarget" [l.dbg]
  | .invalidPropPatt l => .tup c!"InvalidPropPatt" [l.dbg]

/-- error.rs:14-38 derived `Debug for Error`. -/
def PError.dbg [DebugStd] : PError → Dbg
  | .unexpectedToken t => .tup c!"UnexpectedToken" [t.dbg]
  | .failedASI t => .tup c!"FailedASI" [t.dbg]
  | .lexError e => .tup c!"LexError" [e.dbg]
  | .topLevelReturn s => .tup c!"TopLevelReturn" [.word s.debug]
  | .illegalBreak t => .tup c!"IllegalBreak" [t.dbg]
  | .illegalContinue t => .tup c!"IllegalContinue" [t.dbg]
  | .invalidLabel i => .tup c!"InvalidLabel" [i.dbg]
  | .invalidLabelType i => .tup c!"InvalidLabelType" [i.dbg]
  | .contextualKeyword s a => .tup c!"ContextualKeyword" [.word s.debug, .word a.debug]
  | .illegalStrictBinding s a => .tup c!"IllegalStrictBinding" [.word s.debug, .word a.debug]
  | .unexpectedDirective l s => .tup c!"UnexpectedDirective" [l.dbg, s.dbg]
  | .unexpectedModule l => .tup c!"UnexpectedModule" [l.dbg]
  | .importInScript i => .tup c!"ImportInScript" [i.dbg]
  | .exportInScript e => .tup c!"ExportInScript" [e.dbg]
  | .forOfLetExpr s => .tup c!"ForOfLetExpr" [.word s.debug]
  | .duplicateDefault t => .tup c!"DuplicateDefault" [t.dbg]
  | .strictWith t => .tup c!"StrictWith" [t.dbg]
  | .throwArgument t => .tup c!"ThrowArgument" [t.dbg]
  | .orphanTry t => .tup c!"OrphanTry" [t.dbg]
  | .invalidLHS l e => .tup c!"InvalidLHS" [l.dbg, e.dbg]
  | .unsupportedFeature s => .tup c!"UnsupportedFeature" [.str s]
  | .compoundParamWithUseStrict p => .tup c!"CompoundParamWithUseStrict" [p.dbg]

/-- error.rs:84-88 derived `Debug for Check`. -/
def Check.dbg [DebugStd] : Check → Dbg
  | .strict e => .tup c!"Strict" [e.dbg]
  | .module e => .tup c!"Module" [e.dbg]

/-- `format!("{:?}", token)`. -/
def Token.debug [DebugStd] (t : Token) : Str := t.dbg.text

/-- `format!("{:?}", source)`. -/
def NumberSource.debug [DebugStd] (n : NumberSource) : Str := n.dbg.text

/-- `format!("{:?}", error)` for errors of the lexer. -/
def LexError.debug [DebugStd] (e : LexError) : Str := e.dbg.text

/-- `format!("{:?}", error)` for errors of the parser. -/
def PError.debug [DebugStd] (e : PError) : Str := e.dbg.text

/-- `format!("{:?}", check)`. -/
def Check.debug [DebugStd] (c : Check) : Str := c.dbg.text

end Esprit
