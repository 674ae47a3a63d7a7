import Verif.Model.Parser.Base

/-!
Specification of the grouping of binary expressions: precedence levels, and the
trees that respect them.
-/

namespace Esprit

/-- The binary operators of ECMAScript from the loosest to the tightest binding
level. -/
def infixLevels : List (List Str) :=
  [[c!"||"], [c!"&&"], [c!"|"], [c!"^"], [c!"&"],
   [c!"==", c!"!=", c!"===", c!"!=="],
   [c!"<", c!">", c!"<=", c!">=", c!"instanceof", c!"in"],
   [c!"<<", c!">>", c!">>>"], [c!"+", c!"-"], [c!"*", c!"/", c!"%"]]

/-- The text of an infix operator. -/
def Infix.text : Infix → Str
  | .binop op => op.tag.display
  | .logop op => op.tag.display

/-- The binding level of an infix operator. -/
def Infix.level (op : Infix) : Nat := infixLevels.findIdx (fun g => g.contains op.text)

/-- A grouping of operands by infix operators. -/
inductive OpTree where
  | leaf (e : Expr)
  | node (l : OpTree) (op : Infix) (r : OpTree)

namespace OpTree

/-- The operands and operators of a tree from left to right. -/
def tape : OpTree → List (Expr ⊕ Infix)
  | leaf e => [.inl e]
  | node l op r => l.tape ++ .inr op :: r.tape

/-- The operators of a tree. -/
def ops : OpTree → List Infix
  | leaf _ => []
  | node l op r => l.ops ++ op :: r.ops

/-- The tree respects precedence, and operators of the same level group to the
left: an operator's left part has operators of its level or tighter ones, its
right part only tighter ones. -/
inductive Grouped : OpTree → Prop where
  | leaf {e : Expr} : Grouped (leaf e)
  | node {l r : OpTree} {op : Infix} : Grouped l → Grouped r →
      (∀ o ∈ l.ops, op.level ≤ o.level) → (∀ o ∈ r.ops, op.level < o.level) →
      Grouped (node l op r)

/-- The syntax tree of a grouping; a node's location extends from its left to its
right operand. -/
def toExpr : OpTree → Expr
  | leaf e => e
  | node l (.binop op) r => .eBinop (spanLoc l.toExpr.loc r.toExpr.loc) op l.toExpr r.toExpr
  | node l (.logop op) r => .eLogop (spanLoc l.toExpr.loc r.toExpr.loc) op l.toExpr r.toExpr

end OpTree

/-- What the parser computes for the operand `e` followed by operators and
operands (`more_infix_expressions`, parser.rs:1658-1667, with the token stream
abstracted to the list of what `match_infix` and `unary_expression` return). -/
def parseInfix (e : Expr) (rest : List (Infix × Expr)) : Expr :=
  let st := rest.foldl (fun (st : Stack × Expr) p => (st.1.extend st.2 p.1, p.2)) ([], e)
  st.1.finish st.2

end Esprit
