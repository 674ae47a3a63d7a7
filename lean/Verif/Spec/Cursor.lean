import Verif.Model.Lexer
import Verif.Spec.Tokens

/-!
Specification of the token buffer: the operations of `Lexer` on tokens, and a
cursor on a list of tokens.
-/

namespace Esprit

/-- The operations on tokens, lexer.rs:57-88. -/
inductive TokenOp where
  /-- `read_token(operator)` -/
  | read (operator : Bool)
  /-- `peek_token(operator)` -/
  | peek (operator : Bool)
  /-- `reread_token()`, after a peek -/
  | reread
  /-- `repeek_token()`, after a peek -/
  | repeek
  /-- `unread_token` with the token that was read last -/
  | unread

/-- The lexer, and the tokens read from it and not put back, the last one first. -/
structure TokenRun where
  lexer : Lexer
  history : List Token

/-- One operation; the token that it returns. -/
def TokenOp.run [Env] (o : TokenOp) (s : TokenRun) : Res LexError (Option Token × TokenRun) :=
  match o with
  | .read op => (s.lexer.readToken op).bind fun (t, l) => .ok (some t, ⟨l, t :: s.history⟩)
  | .peek op => (s.lexer.peekToken op).bind fun (t, l) => .ok (some t, ⟨l, s.history⟩)
  | .reread => s.lexer.rereadToken.bind fun (t, l) => .ok (some t, ⟨l, t :: s.history⟩)
  | .repeek => s.lexer.repeekToken.bind fun (t, l) => .ok (some t, ⟨l, s.history⟩)
  | .unread =>
    match s.history with
    | [] => .ok (none, s)
    | t :: ts => (s.lexer.unreadToken t).bind fun (_, l) => .ok (none, ⟨l, ts⟩)

/-- A sequence of operations; the tokens they return. -/
def TokenOp.runAll [Env] : List TokenOp → TokenRun → Res LexError (List (Option Token) × TokenRun)
  | [], s => .ok ([], s)
  | o :: os, s =>
    (o.run s).bind fun (t, s1) => (runAll os s1).bind fun (ts, s2) => .ok (t :: ts, s2)

/-- The same operation on a cursor at position `i` of a fixed list of tokens: the
token returned, and the new position. -/
def TokenOp.cursor (ts : List Token) (i : Nat) : TokenOp → Option Token × Nat
  | .read _ => (ts[i]?, i + 1)
  | .peek _ => (ts[i]?, i)
  | .reread => (ts[i]?, i + 1)
  | .repeek => (ts[i]?, i)
  | .unread => (none, i - 1)

/-- A sequence of operations on a cursor. -/
def TokenOp.cursorAll (ts : List Token) : List TokenOp → Nat → List (Option Token) × Nat
  | [], i => ([], i)
  | o :: os, i =>
    let (t, j) := o.cursor ts i
    let (out, k) := cursorAll ts os j
    (t :: out, k)

end Esprit
