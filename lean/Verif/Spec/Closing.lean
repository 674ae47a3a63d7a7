import Verif.Spec.Tokens
import Verif.Model.Ast

/-!
Specification of leaving out semicolons: which semicolons of a tree stand before a closing brace (C75)
or at the end of the source (C77), and what it means to replace semicolons of a text by spaces.
-/

namespace Esprit

/-- The token at the offset `n` is a semicolon that does not start a line, and the next one is `}`. -/
def beforeBrace : List Token → Nat → Bool
  | t :: b :: ts, n =>
    decide (t.value = .semi ∧ t.location.start.offset = n ∧ t.newline = false ∧ b.value = .rBrace) ||
      beforeBrace (b :: ts) n
  | _, _ => false

/-- The statements that can have no argument. -/
def jumps : List TokenData := [.reserved .break, .reserved .continue, .reserved .return]

/-- The token at the offset `n` is a semicolon that does not start a line, the next one is the end of the
source, and the one before it is not `break`, `continue` or `return`. -/
def beforeEnd : List Token → Nat → Bool
  | a :: t :: b :: ts, n =>
    decide (a.value ∉ jumps ∧ t.value = .semi ∧ t.location.start.offset = n ∧ t.newline = false ∧
      b.value = .eof) || beforeEnd (t :: b :: ts) n
  | _, _ => false

/-- 1 if the semicolon is in the text, at a position in `P`. -/
def Semi.closing (P : Posn → Bool) : Semi → Nat
  | .explicit (some p) => (P p).toNat
  | _ => 0

/-- The number of semicolons of the tree that are in the text, at positions in `P`. -/
def Ast.closing (P : Posn → Bool) : {c : Cat} → Ast c → Nat
  | _, .nil => 0
  | _, .cons h t => closing P h + closing P t
  | _, .none => 0
  | _, .some x => closing P x
  | _, .ident _ => 0
  | _, .key _ => 0
  | _, .iExpr e => closing P e
  | _, .iSpread _ e => closing P e
  | _, .eThis _ => 0
  | _, .eId _ => 0
  | _, .eArr _ es => closing P es
  | _, .eObj _ ps => closing P ps
  | _, .eFun f => closing P f
  | _, .eSeq _ es => closing P es
  | _, .eUnop _ _ e => closing P e
  | _, .eBinop _ _ a b => closing P a + closing P b
  | _, .eLogop _ _ a b => closing P a + closing P b
  | _, .ePreInc _ t => closing P t
  | _, .ePostInc _ t => closing P t
  | _, .ePreDec _ t => closing P t
  | _, .ePostDec _ t => closing P t
  | _, .eAssign _ p e => closing P p + closing P e
  | _, .eBinAssign _ _ t e => closing P t + closing P e
  | _, .eCond _ test thn alt => closing P test + closing P thn + closing P alt
  | _, .eCall _ callee args => closing P callee + closing P args
  | _, .eNew _ callee args => closing P callee + closing P args
  | _, .eDot _ e _ => closing P e
  | _, .eBrack _ e prop => closing P e + closing P prop
  | _, .eNewTarget _ => 0
  | _, .eTrue _ => 0
  | _, .eFalse _ => 0
  | _, .eNull _ => 0
  | _, .eNumber _ _ => 0
  | _, .eRegExp _ _ => 0
  | _, .eString _ _ => 0
  | _, .tId _ => 0
  | _, .tDot _ e _ => closing P e
  | _, .tBrack _ e prop => closing P e + closing P prop
  | _, .pSimple t => closing P t
  | _, .pCompound p => closing P p
  | _, .cArr _ es r => closing P es + closing P r
  | _, .cObj _ ps => closing P ps
  | _, .restPatt _ p => closing P p
  | _, .ppRegular _ _ p => closing P p
  | _, .ppShorthand _ => 0
  | _, .prRegular _ _ v => closing P v
  | _, .prMethod f => closing P f
  | _, .prShorthand _ => 0
  | _, .vInit e => closing P e
  | _, .vGet _ b => closing P b
  | _, .vSet _ p b => closing P p + closing P b
  | _, .func _ id ps b _ => closing P id + closing P ps + closing P b
  | _, .params _ ps r => closing P ps + closing P r
  | _, .body _ dirs items => closing P items + (dirs.map fun d => d.semi.closing P).sum
  | _, .siDecl d => closing P d
  | _, .siStmt s => closing P s
  | _, .miImport i => closing P i
  | _, .miExport e => closing P e
  | _, .miItem i => closing P i
  | _, .importForEffect _ _ => 0
  | _, .exportVar _ ds semi => closing P ds + semi.closing P
  | _, .exportDecl d => closing P d
  | _, .dFun f => closing P f
  | _, .dLet _ ds semi => closing P ds + semi.closing P
  | _, .dConst _ ds semi => closing P ds + semi.closing P
  | _, .dtSimple _ _ init => closing P init
  | _, .dtCompound _ p init => closing P p + closing P init
  | _, .constDtor _ p value => closing P p + closing P value
  | _, .block _ items => closing P items
  | _, .sEmpty _ => 0
  | _, .sBlock b => closing P b
  | _, .sVar _ ds semi => closing P ds + semi.closing P
  | _, .sExpr _ e semi => closing P e + semi.closing P
  | _, .sIf _ test thn alt => closing P test + closing P thn + closing P alt
  | _, .sLabel _ _ s => closing P s
  | _, .sBreak _ _ semi => semi.closing P
  | _, .sCont _ _ semi => semi.closing P
  | _, .sWith _ obj s => closing P obj + closing P s
  | _, .sSwitch _ disc cases => closing P disc + closing P cases
  | _, .sReturn _ arg semi => closing P arg + semi.closing P
  | _, .sThrow _ arg semi => closing P arg + semi.closing P
  | _, .sTry _ b c f => closing P b + closing P c + closing P f
  | _, .sWhile _ test s => closing P test + closing P s
  | _, .sDoWhile _ s test semi => closing P s + closing P test + semi.closing P
  | _, .sFor _ head test update s => closing P head + closing P test + closing P update + closing P s
  | _, .sForIn _ head obj s => closing P head + closing P obj + closing P s
  | _, .sForOf _ head obj s => closing P head + closing P obj + closing P s
  | _, .sDebugger _ semi => semi.closing P
  | _, .fhVar _ ds => closing P ds
  | _, .fhLet _ ds => closing P ds
  | _, .fhConst _ ds => closing P ds
  | _, .fhExpr _ e => closing P e
  | _, .fiVarInit _ _ init => closing P init
  | _, .fiVar _ p => closing P p
  | _, .fiLet _ p => closing P p
  | _, .fiConst _ p => closing P p
  | _, .fiPatt p => closing P p
  | _, .foVar _ p => closing P p
  | _, .foLet _ p => closing P p
  | _, .foConst _ p => closing P p
  | _, .foPatt p => closing P p
  | _, .catchClause _ p b => closing P p + closing P b
  | _, .caseClause _ test items => closing P test + closing P items

/-- A statement of the tree ends with a semicolon of the text at the offset `n`. -/
def Ast.endsAt {c : Cat} (x : Ast c) (n : Nat) : Bool := 0 < x.closing fun p => p.offset == n

/-- The text with the characters at the offsets in `Q` replaced by spaces; the first one is at `k`. -/
def blankAt (Q : Nat → Bool) : Nat → Str → Str
  | _, [] => []
  | k, c :: s => (if Q k then ' ' else c) :: blankAt Q (k + 1) s

end Esprit
