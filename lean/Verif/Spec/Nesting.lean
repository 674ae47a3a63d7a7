import Verif.Spec.Tokens
import Verif.Model.Ast

/-!
Specification of balanced brackets (C80), and of the semicolons that a tree stands for (C81).
-/

namespace Esprit

/-- The kinds of brackets. -/
inductive Bracket where
  | paren | brack | brace
  deriving DecidableEq, Repr

/-- The kind of an opening bracket. -/
def opens : TokenData → Option Bracket
  | .lParen => some .paren
  | .lBrack => some .brack
  | .lBrace => some .brace
  | _ => none

/-- The kind of a closing bracket. -/
def closes : TokenData → Option Bracket
  | .rParen => some .paren
  | .rBrack => some .brack
  | .rBrace => some .brace
  | _ => none

/-- The open brackets after a token, the innermost first, where `st` are open before it.  A closing bracket
must be of the kind of the innermost open one. -/
def openStep (st : List Bracket) (v : TokenData) : Option (List Bracket) :=
  match opens v, closes v with
  | some b, _ => some (b :: st)
  | none, some b => if st.head? = some b then some st.tail else none
  | none, none => some st

/-- The open brackets after some tokens. -/
def openAfter : List Bracket → List Token → Option (List Bracket)
  | st, [] => some st
  | st, t :: ts => (openStep st t.value).bind fun st => openAfter st ts

/-- Each opening bracket has its closing bracket, and they are properly nested. -/
def Nested (ts : List Token) : Prop := openAfter [] ts = some []

instance {ts : List Token} : Decidable (Nested ts) := inferInstanceAs (Decidable (_ = _))

/-- The number of semicolons among the tokens. -/
def semicolons (ts : List Token) : Nat := (ts.filter fun t => t.value = .semi).length

/-- 1 if the semicolon is in the text, 0 if it was inserted. -/
def Semi.written : Semi → Nat
  | .explicit _ => 1
  | .inserted => 0

/-- The number of semicolons that the tree stands for: those that end a statement and are in the text, one for
each empty statement, and two for each `for` loop with three parts. -/
def Ast.semicolons : {c : Cat} → Ast c → Nat
  | _, .nil => 0
  | _, .cons h t => semicolons h + semicolons t
  | _, .none => 0
  | _, .some x => semicolons x
  | _, .ident _ => 0
  | _, .key _ => 0
  | _, .iExpr e => semicolons e
  | _, .iSpread _ e => semicolons e
  | _, .eThis _ => 0
  | _, .eId _ => 0
  | _, .eArr _ es => semicolons es
  | _, .eObj _ ps => semicolons ps
  | _, .eFun f => semicolons f
  | _, .eSeq _ es => semicolons es
  | _, .eUnop _ _ e => semicolons e
  | _, .eBinop _ _ a b => semicolons a + semicolons b
  | _, .eLogop _ _ a b => semicolons a + semicolons b
  | _, .ePreInc _ t => semicolons t
  | _, .ePostInc _ t => semicolons t
  | _, .ePreDec _ t => semicolons t
  | _, .ePostDec _ t => semicolons t
  | _, .eAssign _ p e => semicolons p + semicolons e
  | _, .eBinAssign _ _ t e => semicolons t + semicolons e
  | _, .eCond _ test thn alt => semicolons test + semicolons thn + semicolons alt
  | _, .eCall _ callee args => semicolons callee + semicolons args
  | _, .eNew _ callee args => semicolons callee + semicolons args
  | _, .eDot _ e _ => semicolons e
  | _, .eBrack _ e prop => semicolons e + semicolons prop
  | _, .eNewTarget _ => 0
  | _, .eTrue _ => 0
  | _, .eFalse _ => 0
  | _, .eNull _ => 0
  | _, .eNumber _ _ => 0
  | _, .eRegExp _ _ => 0
  | _, .eString _ _ => 0
  | _, .tId _ => 0
  | _, .tDot _ e _ => semicolons e
  | _, .tBrack _ e prop => semicolons e + semicolons prop
  | _, .pSimple t => semicolons t
  | _, .pCompound p => semicolons p
  | _, .cArr _ es r => semicolons es + semicolons r
  | _, .cObj _ ps => semicolons ps
  | _, .restPatt _ p => semicolons p
  | _, .ppRegular _ _ p => semicolons p
  | _, .ppShorthand _ => 0
  | _, .prRegular _ _ v => semicolons v
  | _, .prMethod f => semicolons f
  | _, .prShorthand _ => 0
  | _, .vInit e => semicolons e
  | _, .vGet _ b => semicolons b
  | _, .vSet _ p b => semicolons p + semicolons b
  | _, .func _ id ps b _ => semicolons id + semicolons ps + semicolons b
  | _, .params _ ps r => semicolons ps + semicolons r
  | _, .body _ dirs items => semicolons items + (dirs.map fun d => d.semi.written).sum
  | _, .siDecl d => semicolons d
  | _, .siStmt s => semicolons s
  | _, .miImport i => semicolons i
  | _, .miExport e => semicolons e
  | _, .miItem i => semicolons i
  | _, .importForEffect _ _ => 0
  | _, .exportVar _ ds semi => semicolons ds + semi.written
  | _, .exportDecl d => semicolons d
  | _, .dFun f => semicolons f
  | _, .dLet _ ds semi => semicolons ds + semi.written
  | _, .dConst _ ds semi => semicolons ds + semi.written
  | _, .dtSimple _ _ init => semicolons init
  | _, .dtCompound _ p init => semicolons p + semicolons init
  | _, .constDtor _ p value => semicolons p + semicolons value
  | _, .block _ items => semicolons items
  | _, .sEmpty _ => 1
  | _, .sBlock b => semicolons b
  | _, .sVar _ ds semi => semicolons ds + semi.written
  | _, .sExpr _ e semi => semicolons e + semi.written
  | _, .sIf _ test thn alt => semicolons test + semicolons thn + semicolons alt
  | _, .sLabel _ _ s => semicolons s
  | _, .sBreak _ _ semi => semi.written
  | _, .sCont _ _ semi => semi.written
  | _, .sWith _ obj s => semicolons obj + semicolons s
  | _, .sSwitch _ disc cases => semicolons disc + semicolons cases
  | _, .sReturn _ arg semi => semicolons arg + semi.written
  | _, .sThrow _ arg semi => semicolons arg + semi.written
  | _, .sTry _ b c f => semicolons b + semicolons c + semicolons f
  | _, .sWhile _ test s => semicolons test + semicolons s
  | _, .sDoWhile _ s test semi => semicolons s + semicolons test + semi.written
  | _, .sFor _ head test update s => semicolons head + semicolons test + semicolons update + semicolons s + 2
  | _, .sForIn _ head obj s => semicolons head + semicolons obj + semicolons s
  | _, .sForOf _ head obj s => semicolons head + semicolons obj + semicolons s
  | _, .sDebugger _ semi => semi.written
  | _, .fhVar _ ds => semicolons ds
  | _, .fhLet _ ds => semicolons ds
  | _, .fhConst _ ds => semicolons ds
  | _, .fhExpr _ e => semicolons e
  | _, .fiVarInit _ _ init => semicolons init
  | _, .fiVar _ p => semicolons p
  | _, .fiLet _ p => semicolons p
  | _, .fiConst _ p => semicolons p
  | _, .fiPatt p => semicolons p
  | _, .foVar _ p => semicolons p
  | _, .foLet _ p => semicolons p
  | _, .foConst _ p => semicolons p
  | _, .foPatt p => semicolons p
  | _, .catchClause _ p b => semicolons p + semicolons b
  | _, .caseClause _ test items => semicolons test + semicolons items

end Esprit
