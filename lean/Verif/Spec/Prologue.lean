import Verif.Spec.Grammar

/-! Directive prologues in terms of tokens (C58). -/

namespace Esprit

open Grammar

/-- The tokens up to `rest` are statements that consist of one string literal each,
which is not in parentheses; `ds` are these literals with the semicolons. -/
inductive StringStatements : List Token → List Token → List Dir → Prop where
  | nil {i : List Token} : StringStatements i i []
  | cons {t : Token} {i1 i2 rest : List Token} {d : Dir} {ds : List Dir} :
      t.value = .string d.string → Term false i1 i2 d.semi → StringStatements i2 rest ds →
      StringStatements (t :: i1) rest (d :: ds)

/-- The statement is the string literal `x` located at `sp`. -/
def IsStringStmt (sp : Span) (x : StringLiteral) : {c : Cat} → Ast c → Prop
  | .stmt, .sExpr _ (.eString l y) _ => l = some sp ∧ y = x
  | .sitem, .siStmt (.sExpr _ (.eString l y) _) => l = some sp ∧ y = x
  | .modItem, .miItem (.siStmt (.sExpr _ (.eString l y) _)) => l = some sp ∧ y = x
  | _, _ => False

end Esprit
