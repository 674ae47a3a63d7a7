import Verif.Spec.Ast
import Verif.Model.AstEq
import Verif.Model.Parser.Program

/-!
Specification of what the `Debug` text of a token or an error shows: all of it, but of positions the
line and column, of literals the value, and of trees their structure.
-/

namespace Esprit

/-- The same lines and columns. -/
structure Span.Agree (a b : Span) : Prop where
  startLine : a.start.line = b.start.line
  startColumn : a.start.column = b.start.column
  endLine : a.end.line = b.end.line
  endColumn : a.end.column = b.end.column

/-- The same location, up to offsets. -/
inductive Loc.Agree : Loc → Loc → Prop where
  | none : Agree none none
  | some {a b : Span} : a.Agree b → Agree (some a) (some b)

/-- The same token value: literals have the same value, however they are spelled. -/
inductive TokenData.Agree : TokenData → TokenData → Prop where
  | number {m n : NumberLiteral} : SameNumber m.value n.value → Agree (.number m) (.number n)
  | string {s t : StringLiteral} : s.value = t.value → Agree (.string s) (.string t)
  | regExp {r s : RegExpLiteral} : r.pattern = s.pattern → List.Perm r.flags s.flags →
      Agree (.regExp r) (.regExp s)
  | reserved {r : Reserved} : Agree (.reserved r) (.reserved r)
  | identifier {n : Name} : Agree (.identifier n) (.identifier n)
  /-- Other tokens are equal. -/
  | simple {v : TokenData} : (∀ n, v ≠ .number n) → Agree v v

/-- The same token, up to offsets and the spelling of literals. -/
structure Token.Agree (a b : Token) : Prop where
  location : a.location.Agree b.location
  newline : a.newline = b.newline
  value : a.value.Agree b.value

/-- The same identifier, up to offsets. -/
structure Id.Agree (a b : Id) : Prop where
  location : Loc.Agree a.location b.location
  name : a.name = b.name

/-- The same error of the conversion to patterns, up to offsets. -/
inductive CoverError.Agree : CoverError → CoverError → Prop where
  | invalidAssignTarget {l m : Loc} : Loc.Agree l m → Agree (.invalidAssignTarget l) (.invalidAssignTarget m)
  | invalidPropPatt {l m : Loc} : Loc.Agree l m → Agree (.invalidPropPatt l) (.invalidPropPatt m)

/-- The same error of the parser, up to offsets, the spelling of literals, and the locations in
trees. -/
inductive PError.Agree : PError → PError → Prop where
  | unexpectedToken {t u : Token} : t.Agree u → Agree (.unexpectedToken t) (.unexpectedToken u)
  | failedASI {t u : Token} : t.Agree u → Agree (.failedASI t) (.failedASI u)
  | lexError {e : LexError} : Agree (.lexError e) (.lexError e)
  | topLevelReturn {s t : Span} : s.Agree t → Agree (.topLevelReturn s) (.topLevelReturn t)
  | illegalBreak {t u : Token} : t.Agree u → Agree (.illegalBreak t) (.illegalBreak u)
  | illegalContinue {t u : Token} : t.Agree u → Agree (.illegalContinue t) (.illegalContinue u)
  | invalidLabel {i j : Id} : i.Agree j → Agree (.invalidLabel i) (.invalidLabel j)
  | invalidLabelType {i j : Id} : i.Agree j → Agree (.invalidLabelType i) (.invalidLabelType j)
  | contextualKeyword {s t : Span} {a : Atom} : s.Agree t →
      Agree (.contextualKeyword s a) (.contextualKeyword t a)
  | illegalStrictBinding {s t : Span} {a : Atom} : s.Agree t →
      Agree (.illegalStrictBinding s a) (.illegalStrictBinding t a)
  | unexpectedDirective {l m : Loc} {s t : StringLiteral} : Loc.Agree l m → s.value = t.value →
      Agree (.unexpectedDirective l s) (.unexpectedDirective m t)
  | unexpectedModule {l m : Loc} : Loc.Agree l m → Agree (.unexpectedModule l) (.unexpectedModule m)
  | importInScript {x y : Ast .«import»} : x.untrack.eqv y.untrack = true →
      Agree (.importInScript x) (.importInScript y)
  | exportInScript {x y : Ast .«export»} : x.untrack.eqv y.untrack = true →
      Agree (.exportInScript x) (.exportInScript y)
  | forOfLetExpr {s t : Span} : s.Agree t → Agree (.forOfLetExpr s) (.forOfLetExpr t)
  | duplicateDefault {t u : Token} : t.Agree u → Agree (.duplicateDefault t) (.duplicateDefault u)
  | strictWith {t u : Token} : t.Agree u → Agree (.strictWith t) (.strictWith u)
  | throwArgument {t u : Token} : t.Agree u → Agree (.throwArgument t) (.throwArgument u)
  | orphanTry {t u : Token} : t.Agree u → Agree (.orphanTry t) (.orphanTry u)
  | invalidLHS {l m : Loc} {e f : CoverError} : Loc.Agree l m → e.Agree f →
      Agree (.invalidLHS l e) (.invalidLHS m f)
  | unsupportedFeature {s : Str} : Agree (.unsupportedFeature s) (.unsupportedFeature s)
  | compoundParamWithUseStrict {x y : Ast (.comp .id)} : x.untrack.eqv y.untrack = true →
      Agree (.compoundParamWithUseStrict x) (.compoundParamWithUseStrict y)

/-- The same deferred check. -/
inductive Check.Agree : Check → Check → Prop where
  | strict {e f : PError} : e.Agree f → Agree (.strict e) (.strict f)
  | module {e f : PError} : e.Agree f → Agree (.module e) (.module f)

/-- The number of a token, if it has one. -/
def TokenData.numbers : TokenData → List NumberLiteral
  | .number n => [n]
  | _ => []

/-- The numbers in an error. -/
def PError.numbers : PError → List NumberLiteral
  | .unexpectedToken t | .failedASI t | .illegalBreak t | .illegalContinue t | .duplicateDefault t
  | .strictWith t | .throwArgument t | .orphanTry t => t.value.numbers
  | .importInScript x => x.numbers
  | .exportInScript x => x.numbers
  | .compoundParamWithUseStrict x => x.numbers
  | _ => []

/-- The numbers in a check. -/
def Check.numbers : Check → List NumberLiteral
  | .strict e | .module e => e.numbers

/-- The error is reported for the source by one of the functions of the library. -/
def Reported [Env] (s : Str) (e : PError) : Prop :=
  script s = .err e ∨ strict s = .err e ∨ parseModule s = .err e ∨ program s = .err e

end Esprit
