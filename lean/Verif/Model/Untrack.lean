import Verif.Model.Ast

/-!
Model of `Untrack` (`crates/joker/src/track.rs`, derived instances by
`crates/derive/src/lib.rs:140-250`, hand-written ones in easter).
-/

namespace Esprit

/-- easter punc.rs:14-18. -/
def Semi.untrack (_ : Semi) : Semi := .explicit none

/-- easter id.rs:14-16. -/
def Id.untrack (i : Id) : Id := { i with location := none }

/-- easter obj.rs:16-18. -/
def DotKey.untrack (k : DotKey) : DotKey := { k with location := none }

/-- easter obj.rs:34-38. -/
def PropKey.untrack (k : PropKey) : PropKey := k.setLoc none

/-- easter punc.rs:81-85. -/
def Op.untrack {T : Type} (o : Op T) : Op T := { o with location := none }

/-- easter stmt.rs:122 (derived). -/
def Dir.untrack (d : Dir) : Dir := { location := none, string := d.string, semi := d.semi.untrack }

/-- Derived `Untrack`: every field is untracked (derive/src/lib.rs:140-195);
`Option<Span>` becomes `None` and literals and `bool` are left alone
(joker track.rs:81-99, token.rs:103, 141, 165). -/
def Ast.untrack : {c : Cat} → Ast c → Ast c
  | _, .nil => .nil
  | _, .cons h t => .cons (untrack h) (untrack t)
  | _, .none => .none
  | _, .some x => .some (untrack x)
  | _, .ident i => .ident i.untrack
  | _, .key k => .key k.untrack
  | _, .iExpr e => .iExpr (untrack e)
  | _, .iSpread _ e => .iSpread Option.none (untrack e)
  | _, .eThis _ => .eThis Option.none
  | _, .eId i => .eId i.untrack
  | _, .eArr _ es => .eArr Option.none (untrack es)
  | _, .eObj _ ps => .eObj Option.none (untrack ps)
  | _, .eFun f => .eFun (untrack f)
  | _, .eSeq _ es => .eSeq Option.none (untrack es)
  | _, .eUnop _ op e => .eUnop Option.none op.untrack (untrack e)
  | _, .eBinop _ op a b => .eBinop Option.none op.untrack (untrack a) (untrack b)
  | _, .eLogop _ op a b => .eLogop Option.none op.untrack (untrack a) (untrack b)
  | _, .ePreInc _ t => .ePreInc Option.none (untrack t)
  | _, .ePostInc _ t => .ePostInc Option.none (untrack t)
  | _, .ePreDec _ t => .ePreDec Option.none (untrack t)
  | _, .ePostDec _ t => .ePostDec Option.none (untrack t)
  | _, .eAssign _ p e => .eAssign Option.none (untrack p) (untrack e)
  | _, .eBinAssign _ op t e => .eBinAssign Option.none op.untrack (untrack t) (untrack e)
  | _, .eCond _ test thn alt => .eCond Option.none (untrack test) (untrack thn) (untrack alt)
  | _, .eCall _ callee args => .eCall Option.none (untrack callee) (untrack args)
  | _, .eNew _ callee args => .eNew Option.none (untrack callee) (untrack args)
  | _, .eDot _ e k => .eDot Option.none (untrack e) k.untrack
  | _, .eBrack _ e prop => .eBrack Option.none (untrack e) (untrack prop)
  | _, .eNewTarget _ => .eNewTarget Option.none
  | _, .eTrue _ => .eTrue Option.none
  | _, .eFalse _ => .eFalse Option.none
  | _, .eNull _ => .eNull Option.none
  | _, .eNumber _ n => .eNumber Option.none n
  | _, .eRegExp _ r => .eRegExp Option.none r
  | _, .eString _ s => .eString Option.none s
  | _, .tId i => .tId i.untrack
  | _, .tDot _ e k => .tDot Option.none (untrack e) k.untrack
  | _, .tBrack _ e prop => .tBrack Option.none (untrack e) (untrack prop)
  | _, .pSimple t => .pSimple (untrack t)
  | _, .pCompound p => .pCompound (untrack p)
  | _, .cArr _ es r => .cArr Option.none (untrack es) (untrack r)
  | _, .cObj _ ps => .cObj Option.none (untrack ps)
  | _, .restPatt _ p => .restPatt Option.none (untrack p)
  | _, .ppRegular _ k p => .ppRegular Option.none k.untrack (untrack p)
  | _, .ppShorthand i => .ppShorthand i.untrack
  | _, .prRegular _ k v => .prRegular Option.none k.untrack (untrack v)
  | _, .prMethod f => .prMethod (untrack f)
  | _, .prShorthand i => .prShorthand i.untrack
  | _, .vInit e => .vInit (untrack e)
  | _, .vGet _ b => .vGet Option.none (untrack b)
  | _, .vSet _ p b => .vSet Option.none (untrack p) (untrack b)
  | _, .func _ id ps b gen => .func Option.none (untrack id) (untrack ps) (untrack b) gen
  | _, .params _ ps r => .params Option.none (untrack ps) (untrack r)
  | _, .body _ dirs items => .body Option.none (dirs.map Dir.untrack) (untrack items)
  | _, .siDecl d => .siDecl (untrack d)
  | _, .siStmt s => .siStmt (untrack s)
  | _, .miImport i => .miImport (untrack i)
  | _, .miExport e => .miExport (untrack e)
  | _, .miItem i => .miItem (untrack i)
  | _, .importForEffect _ s => .importForEffect Option.none s
  | _, .exportVar _ ds semi => .exportVar Option.none (untrack ds) semi.untrack
  | _, .exportDecl d => .exportDecl (untrack d)
  | _, .dFun f => .dFun (untrack f)
  | _, .dLet _ ds semi => .dLet Option.none (untrack ds) semi.untrack
  | _, .dConst _ ds semi => .dConst Option.none (untrack ds) semi.untrack
  | _, .dtSimple _ i init => .dtSimple Option.none i.untrack (untrack init)
  | _, .dtCompound _ p init => .dtCompound Option.none (untrack p) (untrack init)
  | _, .constDtor _ p value => .constDtor Option.none (untrack p) (untrack value)
  | _, .block _ items => .block Option.none (untrack items)
  | _, .sEmpty _ => .sEmpty Option.none
  | _, .sBlock b => .sBlock (untrack b)
  | _, .sVar _ ds semi => .sVar Option.none (untrack ds) semi.untrack
  | _, .sExpr _ e semi => .sExpr Option.none (untrack e) semi.untrack
  | _, .sIf _ test thn alt => .sIf Option.none (untrack test) (untrack thn) (untrack alt)
  | _, .sLabel _ i s => .sLabel Option.none i.untrack (untrack s)
  | _, .sBreak _ i semi => .sBreak Option.none (i.map Id.untrack) semi.untrack
  | _, .sCont _ i semi => .sCont Option.none (i.map Id.untrack) semi.untrack
  | _, .sWith _ obj s => .sWith Option.none (untrack obj) (untrack s)
  | _, .sSwitch _ disc cases => .sSwitch Option.none (untrack disc) (untrack cases)
  | _, .sReturn _ arg semi => .sReturn Option.none (untrack arg) semi.untrack
  | _, .sThrow _ arg semi => .sThrow Option.none (untrack arg) semi.untrack
  | _, .sTry _ b c f => .sTry Option.none (untrack b) (untrack c) (untrack f)
  | _, .sWhile _ test s => .sWhile Option.none (untrack test) (untrack s)
  | _, .sDoWhile _ s test semi => .sDoWhile Option.none (untrack s) (untrack test) semi.untrack
  | _, .sFor _ head test update s => .sFor Option.none (untrack head) (untrack test) (untrack update) (untrack s)
  | _, .sForIn _ head obj s => .sForIn Option.none (untrack head) (untrack obj) (untrack s)
  | _, .sForOf _ head obj s => .sForOf Option.none (untrack head) (untrack obj) (untrack s)
  | _, .sDebugger _ semi => .sDebugger Option.none semi.untrack
  | _, .fhVar _ ds => .fhVar Option.none (untrack ds)
  | _, .fhLet _ ds => .fhLet Option.none (untrack ds)
  | _, .fhConst _ ds => .fhConst Option.none (untrack ds)
  | _, .fhExpr _ e => .fhExpr Option.none (untrack e)
  | _, .fiVarInit _ i init => .fiVarInit Option.none i.untrack (untrack init)
  | _, .fiVar _ p => .fiVar Option.none (untrack p)
  | _, .fiLet _ p => .fiLet Option.none (untrack p)
  | _, .fiConst _ p => .fiConst Option.none (untrack p)
  | _, .fiPatt p => .fiPatt (untrack p)
  | _, .foVar _ p => .foVar Option.none (untrack p)
  | _, .foLet _ p => .foLet Option.none (untrack p)
  | _, .foConst _ p => .foConst Option.none (untrack p)
  | _, .foPatt p => .foPatt (untrack p)
  | _, .catchClause _ p b => .catchClause Option.none (untrack p) (untrack b)
  | _, .caseClause _ test items => .caseClause Option.none (untrack test) (untrack items)

end Esprit
