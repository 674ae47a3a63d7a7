import Verif.Spec.Grammar

/-!
Specification of the extent of a construct: how its location relates to its
tokens.
-/

namespace Esprit

/-- Is the left edge of an expression one whose location starts with its text?
It is, unless the expression starts with a function, or with the operand of a
postfix operator or the test of a conditional expression. -/
def Ast.sharpStart : {c : Cat} → Ast c → Bool
  | _, .eFun _ => false
  | _, .ePostInc _ _ => false
  | _, .ePostDec _ _ => false
  | _, .eCond _ _ _ _ => false
  | _, .eSeq _ es => es.sharpStart
  | _, .cons h _ => h.sharpStart
  | _, .eBinop _ _ a _ => a.sharpStart
  | _, .eLogop _ _ a _ => a.sharpStart
  | _, .eAssign _ p _ => p.sharpStart
  | _, .eBinAssign _ _ t _ => t.sharpStart
  | _, .eCall _ e _ => e.sharpStart
  | _, .eDot _ e _ => e.sharpStart
  | _, .eBrack _ e _ => e.sharpStart
  | _, .pSimple t => t.sharpStart
  | _, .tDot _ e _ => e.sharpStart
  | _, .tBrack _ e _ => e.sharpStart
  | _, _ => true

/-- Is the right edge of an expression one whose location ends with its text?
It is, unless the expression ends with a function, or with the operand of `++`
or `--`. -/
def Ast.sharpEnd : {c : Cat} → Ast c → Bool
  | _, .eFun _ => false
  | _, .ePreInc _ _ => false
  | _, .ePreDec _ _ => false
  | _, .eSeq _ es => es.sharpEnd
  | _, .cons h .nil => h.sharpEnd
  | _, .cons _ t => t.sharpEnd
  | _, .eUnop _ _ e => e.sharpEnd
  | _, .eBinop _ _ _ b => b.sharpEnd
  | _, .eLogop _ _ _ b => b.sharpEnd
  | _, .eAssign _ _ e => e.sharpEnd
  | _, .eBinAssign _ _ _ e => e.sharpEnd
  | _, .eCond _ _ _ d => d.sharpEnd
  | _, .eNew _ e .none => e.sharpEnd
  | _, _ => true

/-- The location starts with the first of the tokens that is not an opening
parenthesis. -/
def StartsWith (mine : List Token) (l : Loc) : Prop :=
  ∃ ls t m sp, mine = ls ++ t :: m ∧ (∀ u ∈ ls, u.value = .lParen) ∧ t.value ≠ .lParen ∧
    l = some sp ∧ sp.start = t.location.start

/-- The location ends with one of the tokens, and only closing parentheses come
after it. -/
def EndsWith (mine : List Token) (l : Loc) : Prop :=
  ∃ m t rs sp, mine = m ++ t :: rs ∧ (∀ u ∈ rs, u.value = .rParen) ∧
    l = some sp ∧ sp.end = t.location.end

end Esprit
