import Verif.Spec.Brackets

/-!
Specification of the grouping of binary operators in terms of the tokens (C17).
-/

namespace Esprit

/-- A binary operation: its left operand, operator and right operand. -/
def Ast.operation : Expr → Option (Expr × Infix × Expr)
  | .eBinop _ op a b => Option.some (a, .binop op, b)
  | .eLogop _ op a b => Option.some (a, .logop op, b)
  | _ => Option.none

/-- The location of an operator. -/
def Infix.location : Infix → Loc
  | .binop op => op.location
  | .logop op => op.location

/-- The tokens are a parenthesised group. -/
def Parenthesised (ts : List Token) : Prop :=
  ∃ a inner b, ts = a :: inner ++ [b] ∧ a.value = .lParen ∧ b.value = .rParen ∧ Balanced inner

/-- The expression, written as the tokens `ts`, may stand beside an operator: if
it is itself an operation and not in parentheses, its level satisfies `p`. -/
def MayStand (p : Nat → Prop) (e : Expr) (ts : List Token) : Prop :=
  ∀ a op b, e.operation = some (a, op, b) → p op.level ∨ Parenthesised ts

end Esprit
