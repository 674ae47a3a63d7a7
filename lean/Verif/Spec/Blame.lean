import Verif.Model.Parser.Program
import Verif.Spec.Tokens
import Verif.Spec.Grammar

/-!
Specification of the errors: what the error reported for a source says about the
source.
-/

namespace Esprit

open ReaderSpec

variable [Env]

/-- `t` is one of the tokens that the lexer finds in the source. -/
def TokenOf (S : Str) (t : Token) : Prop := ∃ ops ts l, readTokens S ops = .ok (ts, l) ∧ t ∈ ts

omit [Env] in
/-- The location is there, and both of its ends are positions of the source. -/
def Placed (S : Str) (l : Loc) : Prop :=
  ∃ sp : Span, l = some sp ∧ (∃ j ≤ S.length, PosnAt S j sp.start) ∧
    ∃ k ≤ S.length, PosnAt S k sp.end

/-- The error is the fault of something in the source.  `st`: the code is strict;
`mo`: it is a module.  The errors for which this is `False` are never reported. -/
def PError.Blames (S : Str) (st mo : Bool) : PError → Prop
  | .unexpectedToken t => TokenOf S t
  | .failedASI t => TokenOf S t ∧ t.newline = false ∧ t.value ∉ [.semi, .rBrace, .eof]
  | .lexError e => ∃ ops, readTokens S ops = .err e
  | .topLevelReturn sp => Placed S (some sp) ∧ ∃ t, TokenOf S t ∧ t.value = .reserved .return
  | .illegalBreak t => TokenOf S t ∧ t.value = .reserved .break
  | .illegalContinue t => TokenOf S t ∧ t.value = .reserved .continue
  | .invalidLabel i | .invalidLabelType i =>
      ∃ t, TokenOf S t ∧ t.value = .identifier i.name ∧ i.location = some t.location
  | .contextualKeyword sp a => st = true ∧ (a ∈ strictReserved ∨ mo = true ∧ a = .await) ∧
      ∃ t n, TokenOf S t ∧ t.value = .identifier n ∧ n.intoString = (Name.atom a).intoString ∧
        t.location = sp
  | .illegalStrictBinding sp a => st = true ∧ a ∈ [.eval, .arguments] ∧
      ∃ t, TokenOf S t ∧ t.value = .identifier (.atom a) ∧ t.location = sp
  | .duplicateDefault t => TokenOf S t ∧ t.value = .reserved .default
  | .strictWith t => st = true ∧ TokenOf S t ∧ t.value = .reserved .with
  | .throwArgument t => TokenOf S t ∧ t.value = .reserved .throw
  | .orphanTry t => TokenOf S t ∧ t.value ∉ [.reserved .catch, .reserved .finally]
  | .invalidLHS l e => Placed S l ∧ ∃ x : Expr, x.loc = l ∧
      (Cover.intoAssignTarget x = .error e ∨ Cover.intoAssignPatt x = .error e)
  | .unsupportedFeature f => f = c!"destructuring" ∧
      ∃ t, TokenOf S t ∧ t.value ∈ [.lBrace, .lBrack]
  | .unexpectedDirective _ _ | .unexpectedModule _ | .importInScript _ | .exportInScript _
  | .forOfLetExpr _ | .compoundParamWithUseStrict _ => False

end Esprit
