import Verif.Model.Lexer
import Verif.Spec.Number

/-!
Specification of token reading: what it means for a sequence of tokens to be
read from a source text, in terms of the lexical grammar of `Spec/Lex.lean`.
-/

namespace Esprit

/-- Reading tokens one after the other, each in the given mode (`true`: an
operator is expected), with `Lexer::read_token`. -/
def Lexer.readAll [Env] : List Bool → Lexer → Res LexError (List Token × Lexer)
  | [], l => .ok ([], l)
  | op :: ops, l =>
    (l.readToken op).bind fun (t, l1) =>
      (Lexer.readAll ops l1).bind fun (ts, l2) => .ok (t :: ts, l2)

/-- The tokens read from a source text. -/
def readTokens [Env] (s : Str) (ops : List Bool) : Res LexError (List Token × Lexer) :=
  (Lexer.new s).readAll ops

namespace Lex

open ReaderSpec

variable [Env]

/-- `t` is the token that mode `op` finds in `s` after the first `k`
characters, and it ends after the first `k'`: trivia `w`, as much as there is,
then the lexeme `x`.  `e`: no token precedes on the current line. -/
def TokenAt (s : Str) (k : Nat) (e op : Bool) (t : Token) (k' : Nat) : Prop :=
  ∃ w x y e', s.drop k = w ++ (x ++ y) ∧ Trivia e w (x ++ y) e' ∧ NoTrivia e' (x ++ y) ∧
    Lexeme op x y t.value ∧ t.newline = hasNewline w ∧
    PosnAt s (k + w.length) t.location.start ∧
    PosnAt s (k + w.length + x.length) t.location.end ∧ k' = k + w.length + x.length

/-- `ts` are the tokens found from the `k`-th character on. -/
inductive Tokens (s : Str) : (k : Nat) → (e : Bool) → List Bool → List Token → (k' : Nat) → Prop
  | nil {k : Nat} {e : Bool} : Tokens s k e [] [] k
  | cons {k k1 k2 : Nat} {e op : Bool} {ops : List Bool} {t : Token} {ts : List Token} :
      TokenAt s k e op t k1 → Tokens s k1 false ops ts k2 →
      Tokens s k e (op :: ops) (t :: ts) k2

omit [Env]

/-- Where the text between two tokens begins: the end of the token before the
`i`-th, or the beginning of the source. -/
def prevEnd (ts : List Token) : Nat → Nat
  | 0 => 0
  | i + 1 => match ts[i]? with | some t => t.location.end.offset | none => 0

/-- The text between two offsets. -/
def slice (s : Str) (a b : Nat) : Str := (s.drop a).take (b - a)

end Lex

end Esprit
