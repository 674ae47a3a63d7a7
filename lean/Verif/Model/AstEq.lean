import Verif.Model.Ast

/-!
Model of the equality (`PartialEq`) of syntax trees: derived everywhere except
for `Expr` (easter expr.rs:49-97) and the literals (joker token.rs).
-/

namespace Esprit

/-- easter obj.rs:27 (derived), literals by their own equality. -/
def PropKey.eqv : PropKey → PropKey → Bool
  | .id l s, .id l' s' => l == l' && s == s'
  | .string l s, .string l' s' => l == l' && s.eqv s'
  | .number l n, .number l' n' => l == l' && n.eqv n'
  | _, _ => false

/-- easter stmt.rs:122 (derived). -/
def Dir.eqv (d d' : Dir) : Bool :=
  d.location == d'.location && d.string.eqv d'.string && d.semi == d'.semi

/-- Rust's `Vec<T> == Vec<T>` for an element equality. -/
def listEqv {α : Type} (eqv : α → α → Bool) : List α → List α → Bool
  | [], [] => true
  | x :: xs, y :: ys => eqv x y && listEqv eqv xs ys
  | _, _ => false

/-- `Vec::is_empty`, used in easter expr.rs:83-85. -/
def Ast.isNil {c : Cat} : Ast (.list c) → Bool
  | .nil => true
  | .cons _ _ => false

/-- easter expr.rs:49-97 for `Expr`, derived `PartialEq` for every other type. -/
def Ast.eqv : {c : Cat} → Ast c → Ast c → Bool
  | _, .nil, y => match y with
    | .nil => true
    | _ => false
  | _, .cons h t, y => match y with
    | .cons h' t' => eqv h h' && eqv t t'
    | _ => false
  | _, .none, y => match y with
    | .none => true
    | _ => false
  | _, .some x, y => match y with
    | .some x' => eqv x x'
    | _ => false
  | _, .ident i, y => match y with
    | .ident i' => i == i'
  | _, .key k, y => match y with
    | .key k' => k.eqv k'
  | _, .iExpr e, y => match y with
    | .iExpr e' => eqv e e'
    | _ => false
  | _, .iSpread l e, y => match y with
    | .iSpread l' e' => l == l' && eqv e e'
    | _ => false
  | _, .eThis l, y => match y with
    | .eThis l' => l == l'
    | _ => false
  | _, .eId i, y => match y with
    | .eId i' => i == i'
    | _ => false
  | _, .eArr l es, y => match y with
    | .eArr l' es' => l == l' && eqv es es'
    | _ => false
  | _, .eObj l ps, y => match y with
    | .eObj l' ps' => l == l' && eqv ps ps'
    | _ => false
  | _, .eFun f, y => match y with
    | .eFun f' => eqv f f'
    | _ => false
  | _, .eSeq l es, y => match y with
    | .eSeq l' es' => l == l' && eqv es es'
    | _ => false
  | _, .eUnop l op e, y => match y with
    | .eUnop l' op' e' => l == l' && op == op' && eqv e e'
    | _ => false
  | _, .eBinop l op a b, y => match y with
    | .eBinop l' op' a' b' => l == l' && op == op' && eqv a a' && eqv b b'
    | _ => false
  | _, .eLogop l op a b, y => match y with
    | .eLogop l' op' a' b' => l == l' && op == op' && eqv a a' && eqv b b'
    | _ => false
  | _, .ePreInc l t, y => match y with
    | .ePreInc l' t' => l == l' && eqv t t'
    | _ => false
  | _, .ePostInc l t, y => match y with
    | .ePostInc l' t' => l == l' && eqv t t'
    | _ => false
  | _, .ePreDec l t, y => match y with
    | .ePreDec l' t' => l == l' && eqv t t'
    | _ => false
  | _, .ePostDec l t, y => match y with
    | .ePostDec l' t' => l == l' && eqv t t'
    | _ => false
  | _, .eAssign l p e, y => match y with
    | .eAssign l' p' e' => l == l' && eqv p p' && eqv e e'
    | _ => false
  | _, .eBinAssign l op t e, y => match y with
    | .eBinAssign l' op' t' e' => l == l' && op == op' && eqv t t' && eqv e e'
    | _ => false
  | _, .eCond l test thn alt, y => match y with
    | .eCond l' test' thn' alt' => l == l' && eqv test test' && eqv thn thn' && eqv alt alt'
    | _ => false
  | _, .eCall l callee args, y => match y with
    | .eCall l' callee' args' => l == l' && eqv callee callee' && eqv args args'
    | _ => false
  | _, .eNew l e args, y => match y with
    | .eNew l' e' args' => l == l' && eqv e e' &&
      match args, args' with
      | .none, .none => true
      | .none, .some as => as.isNil
      | .some as, .none => as.isNil
      | .some as, .some as' => eqv as as'
    | _ => false
  | _, .eDot l e k, y => match y with
    | .eDot l' e' k' => l == l' && eqv e e' && k == k'
    | _ => false
  | _, .eBrack l e prop, y => match y with
    | .eBrack l' e' prop' => l == l' && eqv e e' && eqv prop prop'
    | _ => false
  | _, .eNewTarget l, y => match y with
    | .eNewTarget l' => l == l'
    | _ => false
  | _, .eTrue l, y => match y with
    | .eTrue l' => l == l'
    | _ => false
  | _, .eFalse l, y => match y with
    | .eFalse l' => l == l'
    | _ => false
  | _, .eNull l, y => match y with
    | .eNull l' => l == l'
    | _ => false
  | _, .eNumber l n, y => match y with
    | .eNumber l' n' => l == l' && n.eqv n'
    | _ => false
  | _, .eRegExp l r, y => match y with
    | .eRegExp l' r' => l == l' && r.eqv r'
    | _ => false
  | _, .eString l s, y => match y with
    | .eString l' s' => l == l' && s.eqv s'
    | _ => false
  | _, .tId i, y => match y with
    | .tId i' => i == i'
    | _ => false
  | _, .tDot l e k, y => match y with
    | .tDot l' e' k' => l == l' && eqv e e' && k == k'
    | _ => false
  | _, .tBrack l e prop, y => match y with
    | .tBrack l' e' prop' => l == l' && eqv e e' && eqv prop prop'
    | _ => false
  | _, .pSimple t, y => match y with
    | .pSimple t' => eqv t t'
    | _ => false
  | _, .pCompound p, y => match y with
    | .pCompound p' => eqv p p'
    | _ => false
  | _, .cArr l es r, y => match y with
    | .cArr l' es' r' => l == l' && eqv es es' && eqv r r'
    | _ => false
  | _, .cObj l ps, y => match y with
    | .cObj l' ps' => l == l' && eqv ps ps'
    | _ => false
  | _, .restPatt l p, y => match y with
    | .restPatt l' p' => l == l' && eqv p p'
  | _, .ppRegular l k p, y => match y with
    | .ppRegular l' k' p' => l == l' && k.eqv k' && eqv p p'
    | _ => false
  | _, .ppShorthand i, y => match y with
    | .ppShorthand i' => i == i'
    | _ => false
  | _, .prRegular l k v, y => match y with
    | .prRegular l' k' v' => l == l' && k.eqv k' && eqv v v'
    | _ => false
  | _, .prMethod f, y => match y with
    | .prMethod f' => eqv f f'
    | _ => false
  | _, .prShorthand i, y => match y with
    | .prShorthand i' => i == i'
    | _ => false
  | _, .vInit e, y => match y with
    | .vInit e' => eqv e e'
    | _ => false
  | _, .vGet l b, y => match y with
    | .vGet l' b' => l == l' && eqv b b'
    | _ => false
  | _, .vSet l p b, y => match y with
    | .vSet l' p' b' => l == l' && eqv p p' && eqv b b'
    | _ => false
  | _, .func l id ps b gen, y => match y with
    | .func l' id' ps' b' gen' => l == l' && eqv id id' && eqv ps ps' && eqv b b' && gen == gen'
  | _, .params l ps r, y => match y with
    | .params l' ps' r' => l == l' && eqv ps ps' && eqv r r'
  | _, .body l dirs items, y => match y with
    | .body l' dirs' items' => l == l' && listEqv Dir.eqv dirs dirs' && eqv items items'
  | _, .siDecl d, y => match y with
    | .siDecl d' => eqv d d'
    | _ => false
  | _, .siStmt s, y => match y with
    | .siStmt s' => eqv s s'
    | _ => false
  | _, .miImport i, y => match y with
    | .miImport i' => eqv i i'
    | _ => false
  | _, .miExport e, y => match y with
    | .miExport e' => eqv e e'
    | _ => false
  | _, .miItem i, y => match y with
    | .miItem i' => eqv i i'
    | _ => false
  | _, .importForEffect l s, y => match y with
    | .importForEffect l' s' => l == l' && s.eqv s'
  | _, .exportVar l ds semi, y => match y with
    | .exportVar l' ds' semi' => l == l' && eqv ds ds' && semi == semi'
    | _ => false
  | _, .exportDecl d, y => match y with
    | .exportDecl d' => eqv d d'
    | _ => false
  | _, .dFun f, y => match y with
    | .dFun f' => eqv f f'
    | _ => false
  | _, .dLet l ds semi, y => match y with
    | .dLet l' ds' semi' => l == l' && eqv ds ds' && semi == semi'
    | _ => false
  | _, .dConst l ds semi, y => match y with
    | .dConst l' ds' semi' => l == l' && eqv ds ds' && semi == semi'
    | _ => false
  | _, .dtSimple l i init, y => match y with
    | .dtSimple l' i' init' => l == l' && i == i' && eqv init init'
    | _ => false
  | _, .dtCompound l p init, y => match y with
    | .dtCompound l' p' init' => l == l' && eqv p p' && eqv init init'
    | _ => false
  | _, .constDtor l p value, y => match y with
    | .constDtor l' p' value' => l == l' && eqv p p' && eqv value value'
  | _, .block l items, y => match y with
    | .block l' items' => l == l' && eqv items items'
  | _, .sEmpty l, y => match y with
    | .sEmpty l' => l == l'
    | _ => false
  | _, .sBlock b, y => match y with
    | .sBlock b' => eqv b b'
    | _ => false
  | _, .sVar l ds semi, y => match y with
    | .sVar l' ds' semi' => l == l' && eqv ds ds' && semi == semi'
    | _ => false
  | _, .sExpr l e semi, y => match y with
    | .sExpr l' e' semi' => l == l' && eqv e e' && semi == semi'
    | _ => false
  | _, .sIf l test thn alt, y => match y with
    | .sIf l' test' thn' alt' => l == l' && eqv test test' && eqv thn thn' && eqv alt alt'
    | _ => false
  | _, .sLabel l i s, y => match y with
    | .sLabel l' i' s' => l == l' && i == i' && eqv s s'
    | _ => false
  | _, .sBreak l i semi, y => match y with
    | .sBreak l' i' semi' => l == l' && i == i' && semi == semi'
    | _ => false
  | _, .sCont l i semi, y => match y with
    | .sCont l' i' semi' => l == l' && i == i' && semi == semi'
    | _ => false
  | _, .sWith l obj s, y => match y with
    | .sWith l' obj' s' => l == l' && eqv obj obj' && eqv s s'
    | _ => false
  | _, .sSwitch l disc cases, y => match y with
    | .sSwitch l' disc' cases' => l == l' && eqv disc disc' && eqv cases cases'
    | _ => false
  | _, .sReturn l arg semi, y => match y with
    | .sReturn l' arg' semi' => l == l' && eqv arg arg' && semi == semi'
    | _ => false
  | _, .sThrow l arg semi, y => match y with
    | .sThrow l' arg' semi' => l == l' && eqv arg arg' && semi == semi'
    | _ => false
  | _, .sTry l b c f, y => match y with
    | .sTry l' b' c' f' => l == l' && eqv b b' && eqv c c' && eqv f f'
    | _ => false
  | _, .sWhile l test s, y => match y with
    | .sWhile l' test' s' => l == l' && eqv test test' && eqv s s'
    | _ => false
  | _, .sDoWhile l s test semi, y => match y with
    | .sDoWhile l' s' test' semi' => l == l' && eqv s s' && eqv test test' && semi == semi'
    | _ => false
  | _, .sFor l head test update s, y => match y with
    | .sFor l' head' test' update' s' => l == l' && eqv head head' && eqv test test' && eqv update update' && eqv s s'
    | _ => false
  | _, .sForIn l head obj s, y => match y with
    | .sForIn l' head' obj' s' => l == l' && eqv head head' && eqv obj obj' && eqv s s'
    | _ => false
  | _, .sForOf l head obj s, y => match y with
    | .sForOf l' head' obj' s' => l == l' && eqv head head' && eqv obj obj' && eqv s s'
    | _ => false
  | _, .sDebugger l semi, y => match y with
    | .sDebugger l' semi' => l == l' && semi == semi'
    | _ => false
  | _, .fhVar l ds, y => match y with
    | .fhVar l' ds' => l == l' && eqv ds ds'
    | _ => false
  | _, .fhLet l ds, y => match y with
    | .fhLet l' ds' => l == l' && eqv ds ds'
    | _ => false
  | _, .fhConst l ds, y => match y with
    | .fhConst l' ds' => l == l' && eqv ds ds'
    | _ => false
  | _, .fhExpr l e, y => match y with
    | .fhExpr l' e' => l == l' && eqv e e'
    | _ => false
  | _, .fiVarInit l i init, y => match y with
    | .fiVarInit l' i' init' => l == l' && i == i' && eqv init init'
    | _ => false
  | _, .fiVar l p, y => match y with
    | .fiVar l' p' => l == l' && eqv p p'
    | _ => false
  | _, .fiLet l p, y => match y with
    | .fiLet l' p' => l == l' && eqv p p'
    | _ => false
  | _, .fiConst l p, y => match y with
    | .fiConst l' p' => l == l' && eqv p p'
    | _ => false
  | _, .fiPatt p, y => match y with
    | .fiPatt p' => eqv p p'
    | _ => false
  | _, .foVar l p, y => match y with
    | .foVar l' p' => l == l' && eqv p p'
    | _ => false
  | _, .foLet l p, y => match y with
    | .foLet l' p' => l == l' && eqv p p'
    | _ => false
  | _, .foConst l p, y => match y with
    | .foConst l' p' => l == l' && eqv p p'
    | _ => false
  | _, .foPatt p, y => match y with
    | .foPatt p' => eqv p p'
    | _ => false
  | _, .catchClause l p b, y => match y with
    | .catchClause l' p' b' => l == l' && eqv p p' && eqv b b'
  | _, .caseClause l test items, y => match y with
    | .caseClause l' test' items' => l == l' && eqv test test' && eqv items items'

end Esprit
