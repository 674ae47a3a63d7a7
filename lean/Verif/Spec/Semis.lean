import Verif.Spec.Tokens
import Verif.Model.Ast

/-!
Specification of writing out semicolons: how many of the semicolons of a tree were inserted, and
what it means to add semicolons to tokens and to a text (C74).
-/

namespace Esprit

/-- 1 if the semicolon was inserted, 0 if it is in the text. -/
def Semi.missing : Semi → Nat
  | .inserted => 1
  | .explicit _ => 0

/-- The number of semicolons of the tree that are not in the text. -/
def Ast.missing : {c : Cat} → Ast c → Nat
  | _, .nil => 0
  | _, .cons h t => missing h + missing t
  | _, .none => 0
  | _, .some x => missing x
  | _, .ident _ => 0
  | _, .key _ => 0
  | _, .iExpr e => missing e
  | _, .iSpread _ e => missing e
  | _, .eThis _ => 0
  | _, .eId _ => 0
  | _, .eArr _ es => missing es
  | _, .eObj _ ps => missing ps
  | _, .eFun f => missing f
  | _, .eSeq _ es => missing es
  | _, .eUnop _ _ e => missing e
  | _, .eBinop _ _ a b => missing a + missing b
  | _, .eLogop _ _ a b => missing a + missing b
  | _, .ePreInc _ t => missing t
  | _, .ePostInc _ t => missing t
  | _, .ePreDec _ t => missing t
  | _, .ePostDec _ t => missing t
  | _, .eAssign _ p e => missing p + missing e
  | _, .eBinAssign _ _ t e => missing t + missing e
  | _, .eCond _ test thn alt => missing test + missing thn + missing alt
  | _, .eCall _ callee args => missing callee + missing args
  | _, .eNew _ callee args => missing callee + missing args
  | _, .eDot _ e _ => missing e
  | _, .eBrack _ e prop => missing e + missing prop
  | _, .eNewTarget _ => 0
  | _, .eTrue _ => 0
  | _, .eFalse _ => 0
  | _, .eNull _ => 0
  | _, .eNumber _ _ => 0
  | _, .eRegExp _ _ => 0
  | _, .eString _ _ => 0
  | _, .tId _ => 0
  | _, .tDot _ e _ => missing e
  | _, .tBrack _ e prop => missing e + missing prop
  | _, .pSimple t => missing t
  | _, .pCompound p => missing p
  | _, .cArr _ es r => missing es + missing r
  | _, .cObj _ ps => missing ps
  | _, .restPatt _ p => missing p
  | _, .ppRegular _ _ p => missing p
  | _, .ppShorthand _ => 0
  | _, .prRegular _ _ v => missing v
  | _, .prMethod f => missing f
  | _, .prShorthand _ => 0
  | _, .vInit e => missing e
  | _, .vGet _ b => missing b
  | _, .vSet _ p b => missing p + missing b
  | _, .func _ id ps b _ => missing id + missing ps + missing b
  | _, .params _ ps r => missing ps + missing r
  | _, .body _ dirs items => missing items + (dirs.map fun d => d.semi.missing).sum
  | _, .siDecl d => missing d
  | _, .siStmt s => missing s
  | _, .miImport i => missing i
  | _, .miExport e => missing e
  | _, .miItem i => missing i
  | _, .importForEffect _ _ => 0
  | _, .exportVar _ ds semi => missing ds + semi.missing
  | _, .exportDecl d => missing d
  | _, .dFun f => missing f
  | _, .dLet _ ds semi => missing ds + semi.missing
  | _, .dConst _ ds semi => missing ds + semi.missing
  | _, .dtSimple _ _ init => missing init
  | _, .dtCompound _ p init => missing p + missing init
  | _, .constDtor _ p value => missing p + missing value
  | _, .block _ items => missing items
  | _, .sEmpty _ => 0
  | _, .sBlock b => missing b
  | _, .sVar _ ds semi => missing ds + semi.missing
  | _, .sExpr _ e semi => missing e + semi.missing
  | _, .sIf _ test thn alt => missing test + missing thn + missing alt
  | _, .sLabel _ _ s => missing s
  | _, .sBreak _ _ semi => semi.missing
  | _, .sCont _ _ semi => semi.missing
  | _, .sWith _ obj s => missing obj + missing s
  | _, .sSwitch _ disc cases => missing disc + missing cases
  | _, .sReturn _ arg semi => missing arg + semi.missing
  | _, .sThrow _ arg semi => missing arg + semi.missing
  | _, .sTry _ b c f => missing b + missing c + missing f
  | _, .sWhile _ test s => missing test + missing s
  | _, .sDoWhile _ s test semi => missing s + missing test + semi.missing
  | _, .sFor _ head test update s => missing head + missing test + missing update + missing s
  | _, .sForIn _ head obj s => missing head + missing obj + missing s
  | _, .sForOf _ head obj s => missing head + missing obj + missing s
  | _, .sDebugger _ semi => semi.missing
  | _, .fhVar _ ds => missing ds
  | _, .fhLet _ ds => missing ds
  | _, .fhConst _ ds => missing ds
  | _, .fhExpr _ e => missing e
  | _, .fiVarInit _ _ init => missing init
  | _, .fiVar _ p => missing p
  | _, .fiLet _ p => missing p
  | _, .fiConst _ p => missing p
  | _, .fiPatt p => missing p
  | _, .foVar _ p => missing p
  | _, .foLet _ p => missing p
  | _, .foConst _ p => missing p
  | _, .foPatt p => missing p
  | _, .catchClause _ p b => missing p + missing b
  | _, .caseClause _ test items => missing test + missing items

/-- The tokens `ts'` are the tokens `ts` with `n` more semicolons, none of which starts a line;
line terminators precede the same tokens otherwise. -/
inductive SemisAdded : Nat → List Token → List Token → Prop where
  | nil : SemisAdded 0 [] []
  | keep {n : Nat} {t t' : Token} {ts ts' : List Token} : t'.value = t.value → t'.newline = t.newline →
      SemisAdded n ts ts' → SemisAdded n (t :: ts) (t' :: ts')
  | add {n : Nat} {t' : Token} {ts ts' : List Token} : t'.value = .semi → t'.newline = false →
      SemisAdded n ts ts' → SemisAdded (n + 1) ts (t' :: ts')

/-- The text `s'` is the text `s` with `n` more characters `;`. -/
inductive SemisWritten : Nat → Str → Str → Prop where
  | nil : SemisWritten 0 [] []
  | keep {n : Nat} {c : Char} {s s' : Str} : SemisWritten n s s' → SemisWritten n (c :: s) (c :: s')
  | add {n : Nat} {s s' : Str} : SemisWritten n s s' → SemisWritten (n + 1) s (';' :: s')

end Esprit
