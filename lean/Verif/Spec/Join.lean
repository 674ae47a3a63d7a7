import Verif.Spec.Tokens
import Verif.Spec.Prologue

/-!
Specification of joining: what the first and the last token of a text may be so that
another text can follow, or precede, on a line of its own (C68, C71).
-/

namespace Esprit

open Lex

variable [Env]

/-- The first token of the text has the value `v` (in one of the two lexer modes). -/
def FirstToken (s : Str) (v : TokenData) : Prop := ∃ op t k, TokenAt s 0 true op t k ∧ t.value = v

/-- The last token of the text has the value `v`: the end of the text comes after it. -/
def LastToken (s : Str) (v : TokenData) : Prop :=
  ∃ ops ts a b k, Tokens s 0 true ops (ts ++ [a, b]) k ∧ a.value = v ∧ b.value = .eof

/-- The token starts a statement, but not in a way in which it could also continue the line
before it: it is none of `(`, `[`, `+`, `-`, `;`, it is not a string literal, which could be
a directive, and not a regular expression, which could be a division. -/
def StartsLine (v : TokenData) : Prop :=
  v ∉ [.eof, .lParen, .lBrack, .plus, .minus, .semi] ∧ (∀ s, v ≠ .string s) ∧ ∀ x, v ≠ .regExp x

/-- The text can be followed, on the next line, by a text that begins with the token `v`:
`let` is not its last token, if `v` could be taken for what is declared. -/
def LetsFollow (s : Str) (v : TokenData) : Prop :=
  LastToken s (.identifier (.atom .«let»)) → v ≠ .lBrace ∧ ∀ n, v ≠ .identifier n

/-- The text begins with a string literal and, on the same line, a division (`/` or `/=`). -/
def DividesString (s : Str) : Prop :=
  ∃ t u k, Tokens s 0 true [false, true] [t, u] k ∧ (∃ x, t.value = .string x) ∧
    (u.value = .slash ∨ u.value = .slashAssign) ∧ u.newline = false

/-- The text begins with the string literal `x` and, on a later line, `/` or `/=` (where a
division can be read). -/
def StringThenSlash (s : Str) (x : StringLiteral) : Prop :=
  ∃ t u k, Tokens s 0 true [false, true] [t, u] k ∧ t.value = .string x ∧
    (u.value = .slash ∨ u.value = .slashAssign) ∧ u.newline = true

/-- In no statement at the beginning of the text that begins with a string literal, before which
there are only statements that consist of a string literal, the next token is `/` or `/=`. -/
def NoLeadingDivision (s : Str) : Prop :=
  ∀ n ts k t u b ds, Tokens s 0 true (List.replicate n true) ts k →
    StringStatements ts (t :: u :: b) ds → (∃ x, t.value = .string x) →
    u.value ≠ .slash ∧ u.value ≠ .slashAssign

/-- The statement that a directive is. -/
def Dir.asItem (d : Dir) : StmtListItem := .siStmt (.sExpr none (.eString none d.string) .inserted)

/-- The statements of a body, those included that are directives. -/
def Ast.statements : Ast (.body .sitem) → Ast (.list .sitem)
  | .body _ ds xs => .ofList (ds.map Dir.asItem ++ xs.toList)

end Esprit
