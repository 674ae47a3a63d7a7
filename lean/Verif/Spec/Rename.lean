import Verif.Spec.Tokens
import Verif.Model.Ast

/-!
Specification of renaming: identifiers are replaced by others throughout, and literals by
others of their kind (C72).
-/

namespace Esprit

/-- What the words that are identifiers and the literals are replaced by. -/
structure Renaming where
  name : Str → Str
  string : StringLiteral → StringLiteral
  number : NumberLiteral → NumberLiteral
  regExp : RegExpLiteral → RegExpLiteral

/-- `g` renames identifiers: different words become different words, and the words that have
a meaning of their own remain as they are (so no other word becomes one of them).  Literals
may be replaced by any others of their kind. -/
structure IsRenaming (g : Renaming) : Prop where
  inj : ∀ v w, g.name v = g.name w → v = w
  reserved : ∀ w r, (w, r) ∈ Lex.reservedWords → g.name w = w
  contextual : ∀ w a, (w, a) ∈ Lex.contextualWords → g.name w = w

/-- The renamed name: the words with a meaning of their own remain as they are. -/
def Name.rename (g : Renaming) : Name → Name
  | .atom a => .atom a
  | .string w => .string (g.name w)

/-- The identifier with its name renamed. -/
def Id.rename (g : Renaming) (i : Id) : Id := { i with name := i.name.rename g }

/-- The renamed property name after a dot. -/
def DotKey.rename (g : Renaming) (k : DotKey) : DotKey := { k with value := g.name k.value }

/-- The renamed property name. -/
def PropKey.rename (g : Renaming) : PropKey → PropKey
  | .id l w => .id l (g.name w)
  | .string l s => .string l (g.string s)
  | .number l n => .number l (g.number n)

/-- The renamed token. -/
def TokenData.rename (g : Renaming) : TokenData → TokenData
  | .identifier n => .identifier (n.rename g)
  | .string s => .string (g.string s)
  | .number n => .number (g.number n)
  | .regExp r => .regExp (g.regExp r)
  | v => v

/-- The directive with its literal replaced. -/
def Dir.rename (g : Renaming) (d : Dir) : Dir := { d with string := g.string d.string }

/-- The tree with its identifiers renamed and its literals replaced. -/
def Ast.rename (g : Renaming) : {c : Cat} → Ast c → Ast c
  | _, .nil => .nil
  | _, .cons h t => .cons (rename g h) (rename g t)
  | _, .none => .none
  | _, .some x => .some (rename g x)
  | _, .ident i => .ident (i.rename g)
  | _, .key k => .key (k.rename g)
  | _, .iExpr e => .iExpr (rename g e)
  | _, .iSpread l e => .iSpread l (rename g e)
  | _, .eThis l => .eThis l
  | _, .eId i => .eId (i.rename g)
  | _, .eArr l es => .eArr l (rename g es)
  | _, .eObj l ps => .eObj l (rename g ps)
  | _, .eFun f => .eFun (rename g f)
  | _, .eSeq l es => .eSeq l (rename g es)
  | _, .eUnop l op e => .eUnop l op (rename g e)
  | _, .eBinop l op a b => .eBinop l op (rename g a) (rename g b)
  | _, .eLogop l op a b => .eLogop l op (rename g a) (rename g b)
  | _, .ePreInc l t => .ePreInc l (rename g t)
  | _, .ePostInc l t => .ePostInc l (rename g t)
  | _, .ePreDec l t => .ePreDec l (rename g t)
  | _, .ePostDec l t => .ePostDec l (rename g t)
  | _, .eAssign l p e => .eAssign l (rename g p) (rename g e)
  | _, .eBinAssign l op t e => .eBinAssign l op (rename g t) (rename g e)
  | _, .eCond l test thn alt => .eCond l (rename g test) (rename g thn) (rename g alt)
  | _, .eCall l callee args => .eCall l (rename g callee) (rename g args)
  | _, .eNew l callee args => .eNew l (rename g callee) (rename g args)
  | _, .eDot l e k => .eDot l (rename g e) (k.rename g)
  | _, .eBrack l e prop => .eBrack l (rename g e) (rename g prop)
  | _, .eNewTarget l => .eNewTarget l
  | _, .eTrue l => .eTrue l
  | _, .eFalse l => .eFalse l
  | _, .eNull l => .eNull l
  | _, .eNumber l n => .eNumber l (g.number n)
  | _, .eRegExp l r => .eRegExp l (g.regExp r)
  | _, .eString l s => .eString l (g.string s)
  | _, .tId i => .tId (i.rename g)
  | _, .tDot l e k => .tDot l (rename g e) (k.rename g)
  | _, .tBrack l e prop => .tBrack l (rename g e) (rename g prop)
  | _, .pSimple t => .pSimple (rename g t)
  | _, .pCompound p => .pCompound (rename g p)
  | _, .cArr l es r => .cArr l (rename g es) (rename g r)
  | _, .cObj l ps => .cObj l (rename g ps)
  | _, .restPatt l p => .restPatt l (rename g p)
  | _, .ppRegular l k p => .ppRegular l (k.rename g) (rename g p)
  | _, .ppShorthand i => .ppShorthand (i.rename g)
  | _, .prRegular l k v => .prRegular l (k.rename g) (rename g v)
  | _, .prMethod f => .prMethod (rename g f)
  | _, .prShorthand i => .prShorthand (i.rename g)
  | _, .vInit e => .vInit (rename g e)
  | _, .vGet l b => .vGet l (rename g b)
  | _, .vSet l p b => .vSet l (rename g p) (rename g b)
  | _, .func l id ps b gen => .func l (rename g id) (rename g ps) (rename g b) gen
  | _, .params l ps r => .params l (rename g ps) (rename g r)
  | _, .body l dirs items => .body l (dirs.map (Dir.rename g)) (rename g items)
  | _, .siDecl d => .siDecl (rename g d)
  | _, .siStmt s => .siStmt (rename g s)
  | _, .miImport i => .miImport (rename g i)
  | _, .miExport e => .miExport (rename g e)
  | _, .miItem i => .miItem (rename g i)
  | _, .importForEffect l s => .importForEffect l s
  | _, .exportVar l ds semi => .exportVar l (rename g ds) semi
  | _, .exportDecl d => .exportDecl (rename g d)
  | _, .dFun f => .dFun (rename g f)
  | _, .dLet l ds semi => .dLet l (rename g ds) semi
  | _, .dConst l ds semi => .dConst l (rename g ds) semi
  | _, .dtSimple l i init => .dtSimple l (i.rename g) (rename g init)
  | _, .dtCompound l p init => .dtCompound l (rename g p) (rename g init)
  | _, .constDtor l p value => .constDtor l (rename g p) (rename g value)
  | _, .block l items => .block l (rename g items)
  | _, .sEmpty l => .sEmpty l
  | _, .sBlock b => .sBlock (rename g b)
  | _, .sVar l ds semi => .sVar l (rename g ds) semi
  | _, .sExpr l e semi => .sExpr l (rename g e) semi
  | _, .sIf l test thn alt => .sIf l (rename g test) (rename g thn) (rename g alt)
  | _, .sLabel l i s => .sLabel l (i.rename g) (rename g s)
  | _, .sBreak l i semi => .sBreak l (i.map (Id.rename g)) semi
  | _, .sCont l i semi => .sCont l (i.map (Id.rename g)) semi
  | _, .sWith l obj s => .sWith l (rename g obj) (rename g s)
  | _, .sSwitch l disc cases => .sSwitch l (rename g disc) (rename g cases)
  | _, .sReturn l arg semi => .sReturn l (rename g arg) semi
  | _, .sThrow l arg semi => .sThrow l (rename g arg) semi
  | _, .sTry l b c f => .sTry l (rename g b) (rename g c) (rename g f)
  | _, .sWhile l test s => .sWhile l (rename g test) (rename g s)
  | _, .sDoWhile l s test semi => .sDoWhile l (rename g s) (rename g test) semi
  | _, .sFor l head test update s => .sFor l (rename g head) (rename g test) (rename g update) (rename g s)
  | _, .sForIn l head obj s => .sForIn l (rename g head) (rename g obj) (rename g s)
  | _, .sForOf l head obj s => .sForOf l (rename g head) (rename g obj) (rename g s)
  | _, .sDebugger l semi => .sDebugger l semi
  | _, .fhVar l ds => .fhVar l (rename g ds)
  | _, .fhLet l ds => .fhLet l (rename g ds)
  | _, .fhConst l ds => .fhConst l (rename g ds)
  | _, .fhExpr l e => .fhExpr l (rename g e)
  | _, .fiVarInit l i init => .fiVarInit l (i.rename g) (rename g init)
  | _, .fiVar l p => .fiVar l (rename g p)
  | _, .fiLet l p => .fiLet l (rename g p)
  | _, .fiConst l p => .fiConst l (rename g p)
  | _, .fiPatt p => .fiPatt (rename g p)
  | _, .foVar l p => .foVar l (rename g p)
  | _, .foLet l p => .foLet l (rename g p)
  | _, .foConst l p => .foConst l (rename g p)
  | _, .foPatt p => .foPatt (rename g p)
  | _, .catchClause l p b => .catchClause l (rename g p) (rename g b)
  | _, .caseClause l test items => .caseClause l (rename g test) (rename g items)

/-- The tokens `ts'` are the tokens `ts` with the identifiers renamed and the literals replaced, wherever they are; line
terminators precede the same tokens. -/
def RenamedTokens (g : Renaming) (ts ts' : List Token) : Prop :=
  ts'.map (fun t => (t.value, t.newline)) = ts.map fun t => (t.value.rename g, t.newline)

end Esprit
