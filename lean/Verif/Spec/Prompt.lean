import Verif.Spec.Layout

/-!
Specification of promptness: an error is reported as soon as the tokens read so far
cannot be continued, and it is about the place where the reading stopped.
-/

namespace Esprit

/-- The last two tokens, or as many as there are. -/
def lastTwo (ts : List Token) : List Token := ts.drop (ts.length - 2)

/-- The error is about one of the last two of the tokens `ts`: it carries the token, or its
location.  This is said of the errors that are about a single token; an error about a
whole phrase (a `return` statement, the left-hand side of an assignment) can only be found
when the phrase has ended.  An error of the lexer is about no token. -/
def PError.At (ts : List Token) : PError → Prop
  | .unexpectedToken t | .failedASI t | .illegalBreak t | .illegalContinue t
  | .duplicateDefault t | .strictWith t | .throwArgument t | .orphanTry t => t ∈ lastTwo ts
  | .invalidLabel i | .invalidLabelType i => ∃ t ∈ lastTwo ts, i.location = some t.location
  | .contextualKeyword l _ | .illegalStrictBinding l _ => ∃ t ∈ lastTwo ts, t.location = l
  | .lexError _ => False
  | _ => True

/-- The parser stops with the error `e` when it has read from `s` the tokens in the modes
`ops`, and nothing else: the error is about the last of these tokens, or (if it is one of
the lexer) the tokens before the last mode can be read and there is no token in the last. -/
def StopsAt [Env] (s : Str) (ops : List Bool) (e : PError) : Prop :=
  (∃ ts l, readTokens s ops = .ok (ts, l) ∧ e.At ts) ∨
  ∃ le op ops' ts l, e = .lexError le ∧ ops = ops' ++ [op] ∧
    readTokens s ops' = .ok (ts, l) ∧ readTokens s ops = .err le

/-- The text `u`, followed by a separator, makes the parser `f` stop with the error `e`
(up to positions), whatever comes next. -/
def Hopeless {α : Type} (f : Str → Res PError α) (u : Str) (e : PError) : Prop :=
  ∀ c z, c ∈ Lex.whiteSpace ∨ c ∈ Lex.lineTerminators →
    ∃ e', f (u ++ c :: z) = .err e' ∧ e'.blur = e.blur

end Esprit
