import Verif.Spec.Grammar
import Verif.Model.Parser.Program

/-!
Specification of the places in a syntax tree: which nodes occur in it, and what
surrounds each of them.
-/

namespace Esprit

/-- A node of a syntax tree. -/
abbrev Node := (c : Cat) × Ast c

/-- What surrounds a node of a syntax tree, up to the enclosing function. -/
structure Place where
  /-- inside a function -/
  function : Bool
  /-- inside a loop of this function -/
  iteration : Bool
  /-- inside a `switch` of this function -/
  switch : Bool
  /-- the enclosing labels in this function, and whether they are labels of loops -/
  labels : List (Name × Bool)
  deriving DecidableEq

namespace Place

/-- The root of a tree. -/
def top : Place := ⟨false, false, false, []⟩

/-- The body of a function. -/
def inFunction (_ : Place) : Place := ⟨true, false, false, []⟩

/-- The body of a loop. -/
def inLoop (w : Place) : Place := { w with iteration := true }

/-- The cases of a `switch`. -/
def inSwitch (w : Place) : Place := { w with switch := true }

/-- The body of a labelled statement. -/
def inLabel (w : Place) (n : Name) (loop : Bool) : Place :=
  { w with labels := (n, loop) :: w.labels }

end Place

open Grammar in
/-- The children of a node at the place `w`, with their places. -/
def Ast.kids (w : Place) : {c : Cat} → Ast c → List (Place × Node)
  | _, .nil => []
  | _, .cons h t => [(w, ⟨_, h⟩), (w, ⟨_, t⟩)]
  | _, .none => []
  | _, .some x => [(w, ⟨_, x⟩)]
  | _, .ident _ => []
  | _, .key _ => []
  | _, .iExpr e => [(w, ⟨_, e⟩)]
  | _, .iSpread _ e => [(w, ⟨_, e⟩)]
  | _, .eThis _ => []
  | _, .eId _ => []
  | _, .eArr _ es => [(w, ⟨_, es⟩)]
  | _, .eObj _ ps => [(w, ⟨_, ps⟩)]
  | _, .eFun f => [(w, ⟨_, f⟩)]
  | _, .eSeq _ es => [(w, ⟨_, es⟩)]
  | _, .eUnop _ _ e => [(w, ⟨_, e⟩)]
  | _, .eBinop _ _ a b => [(w, ⟨_, a⟩), (w, ⟨_, b⟩)]
  | _, .eLogop _ _ a b => [(w, ⟨_, a⟩), (w, ⟨_, b⟩)]
  | _, .ePreInc _ t => [(w, ⟨_, t⟩)]
  | _, .ePostInc _ t => [(w, ⟨_, t⟩)]
  | _, .ePreDec _ t => [(w, ⟨_, t⟩)]
  | _, .ePostDec _ t => [(w, ⟨_, t⟩)]
  | _, .eAssign _ p e => [(w, ⟨_, p⟩), (w, ⟨_, e⟩)]
  | _, .eBinAssign _ _ t e => [(w, ⟨_, t⟩), (w, ⟨_, e⟩)]
  | _, .eCond _ test thn alt => [(w, ⟨_, test⟩), (w, ⟨_, thn⟩), (w, ⟨_, alt⟩)]
  | _, .eCall _ callee args => [(w, ⟨_, callee⟩), (w, ⟨_, args⟩)]
  | _, .eNew _ callee args => [(w, ⟨_, callee⟩), (w, ⟨_, args⟩)]
  | _, .eDot _ e _ => [(w, ⟨_, e⟩)]
  | _, .eBrack _ e prop => [(w, ⟨_, e⟩), (w, ⟨_, prop⟩)]
  | _, .eNewTarget _ => []
  | _, .eTrue _ => []
  | _, .eFalse _ => []
  | _, .eNull _ => []
  | _, .eNumber _ _ => []
  | _, .eRegExp _ _ => []
  | _, .eString _ _ => []
  | _, .tId _ => []
  | _, .tDot _ e _ => [(w, ⟨_, e⟩)]
  | _, .tBrack _ e prop => [(w, ⟨_, e⟩), (w, ⟨_, prop⟩)]
  | _, .pSimple t => [(w, ⟨_, t⟩)]
  | _, .pCompound p => [(w, ⟨_, p⟩)]
  | _, .cArr _ es r => [(w, ⟨_, es⟩), (w, ⟨_, r⟩)]
  | _, .cObj _ ps => [(w, ⟨_, ps⟩)]
  | _, .restPatt _ p => [(w, ⟨_, p⟩)]
  | _, .ppRegular _ _ p => [(w, ⟨_, p⟩)]
  | _, .ppShorthand _ => []
  | _, .prRegular _ _ v => [(w, ⟨_, v⟩)]
  | _, .prMethod f => [(w, ⟨_, f⟩)]
  | _, .prShorthand _ => []
  | _, .vInit e => [(w, ⟨_, e⟩)]
  | _, .vGet _ b => [(w.inFunction, ⟨_, b⟩)]
  | _, .vSet _ p b => [(w, ⟨_, p⟩), (w.inFunction, ⟨_, b⟩)]
  | _, .func _ id ps b _ => [(w, ⟨_, id⟩), (w, ⟨_, ps⟩), (w.inFunction, ⟨_, b⟩)]
  | _, .params _ ps r => [(w, ⟨_, ps⟩), (w, ⟨_, r⟩)]
  | _, .body _ _ items => [(w, ⟨_, items⟩)]
  | _, .siDecl d => [(w, ⟨_, d⟩)]
  | _, .siStmt s => [(w, ⟨_, s⟩)]
  | _, .miImport i => [(w, ⟨_, i⟩)]
  | _, .miExport e => [(w, ⟨_, e⟩)]
  | _, .miItem i => [(w, ⟨_, i⟩)]
  | _, .importForEffect _ _ => []
  | _, .exportVar _ ds _ => [(w, ⟨_, ds⟩)]
  | _, .exportDecl d => [(w, ⟨_, d⟩)]
  | _, .dFun f => [(w, ⟨_, f⟩)]
  | _, .dLet _ ds _ => [(w, ⟨_, ds⟩)]
  | _, .dConst _ ds _ => [(w, ⟨_, ds⟩)]
  | _, .dtSimple _ _ init => [(w, ⟨_, init⟩)]
  | _, .dtCompound _ p init => [(w, ⟨_, p⟩), (w, ⟨_, init⟩)]
  | _, .constDtor _ p value => [(w, ⟨_, p⟩), (w, ⟨_, value⟩)]
  | _, .block _ items => [(w, ⟨_, items⟩)]
  | _, .sEmpty _ => []
  | _, .sBlock b => [(w, ⟨_, b⟩)]
  | _, .sVar _ ds _ => [(w, ⟨_, ds⟩)]
  | _, .sExpr _ e _ => [(w, ⟨_, e⟩)]
  | _, .sIf _ test thn alt => [(w, ⟨_, test⟩), (w, ⟨_, thn⟩), (w, ⟨_, alt⟩)]
  | _, .sLabel _ i s => [((w.inLabel i.name (isLoop s)), ⟨_, s⟩)]
  | _, .sBreak _ _ _ => []
  | _, .sCont _ _ _ => []
  | _, .sWith _ obj s => [(w, ⟨_, obj⟩), (w, ⟨_, s⟩)]
  | _, .sSwitch _ disc cases => [(w, ⟨_, disc⟩), (w.inSwitch, ⟨_, cases⟩)]
  | _, .sReturn _ arg _ => [(w, ⟨_, arg⟩)]
  | _, .sThrow _ arg _ => [(w, ⟨_, arg⟩)]
  | _, .sTry _ b c f => [(w, ⟨_, b⟩), (w, ⟨_, c⟩), (w, ⟨_, f⟩)]
  | _, .sWhile _ test s => [(w, ⟨_, test⟩), (w.inLoop, ⟨_, s⟩)]
  | _, .sDoWhile _ s test _ => [(w.inLoop, ⟨_, s⟩), (w, ⟨_, test⟩)]
  | _, .sFor _ head test update s => [(w, ⟨_, head⟩), (w, ⟨_, test⟩), (w, ⟨_, update⟩), (w.inLoop, ⟨_, s⟩)]
  | _, .sForIn _ head obj s => [(w, ⟨_, head⟩), (w, ⟨_, obj⟩), (w.inLoop, ⟨_, s⟩)]
  | _, .sForOf _ head obj s => [(w, ⟨_, head⟩), (w, ⟨_, obj⟩), (w.inLoop, ⟨_, s⟩)]
  | _, .sDebugger _ _ => []
  | _, .fhVar _ ds => [(w, ⟨_, ds⟩)]
  | _, .fhLet _ ds => [(w, ⟨_, ds⟩)]
  | _, .fhConst _ ds => [(w, ⟨_, ds⟩)]
  | _, .fhExpr _ e => [(w, ⟨_, e⟩)]
  | _, .fiVarInit _ _ init => [(w, ⟨_, init⟩)]
  | _, .fiVar _ p => [(w, ⟨_, p⟩)]
  | _, .fiLet _ p => [(w, ⟨_, p⟩)]
  | _, .fiConst _ p => [(w, ⟨_, p⟩)]
  | _, .fiPatt p => [(w, ⟨_, p⟩)]
  | _, .foVar _ p => [(w, ⟨_, p⟩)]
  | _, .foLet _ p => [(w, ⟨_, p⟩)]
  | _, .foConst _ p => [(w, ⟨_, p⟩)]
  | _, .foPatt p => [(w, ⟨_, p⟩)]
  | _, .catchClause _ p b => [(w, ⟨_, p⟩), (w, ⟨_, b⟩)]
  | _, .caseClause _ test items => [(w, ⟨_, test⟩), (w, ⟨_, items⟩)]

/-- `Occurs w x v y`: the node `y` occurs at the place `v` in the tree `x`, which
is at the place `w`. -/
inductive Occurs : Place → Node → Place → Node → Prop where
  | here {w : Place} {x : Node} : Occurs w x w x
  | under {w w' v : Place} {x x' y : Node} : (w', x') ∈ x.2.kids w → Occurs w' x' v y →
      Occurs w x v y

/-- The identifiers of a node itself: references, labels and (`true`) bindings. -/
def Ast.ownIds : {c : Cat} → Ast c → List (Bool × Id)
  | _, .ident i => [(true, i)]
  | _, .eId i => [(false, i)]
  | _, .tId i => [(false, i)]
  | _, .prShorthand i => [(false, i)]
  | .propPatt c, .ppShorthand i => [(decide (c = .id), i)]
  | _, .sLabel _ i _ => [(false, i)]
  | _, .sBreak _ i _ => i.toList.map fun i => (false, i)
  | _, .sCont _ i _ => i.toList.map fun i => (false, i)
  | _, .dtSimple _ i _ => [(true, i)]
  | _, .fiVarInit _ i _ => [(true, i)]
  | _, _ => []

/-- The terminator of a statement, declaration or directive. -/
def Ast.terminator : {c : Cat} → Ast c → Option Semi
  | _, .sVar _ _ semi => Option.some semi
  | _, .sExpr _ _ semi => Option.some semi
  | _, .sBreak _ _ semi => Option.some semi
  | _, .sCont _ _ semi => Option.some semi
  | _, .sReturn _ _ semi => Option.some semi
  | _, .sThrow _ _ semi => Option.some semi
  | _, .sDoWhile _ _ _ semi => Option.some semi
  | _, .sDebugger _ semi => Option.some semi
  | _, .dLet _ _ semi => Option.some semi
  | _, .dConst _ _ semi => Option.some semi
  | _, _ => Option.none

/-- The terminator `semi` of a statement whose tokens are `mine`, before the tokens
`rest`: the last token is the semicolon, or there is none, and the next token is
`}`, the end of the source or the first one of its line, or the statement is a
`do` statement. -/
def Terminated (isDo : Bool) (mine rest : List Token) : Semi → Prop
  | .explicit p => ∃ t, mine.getLast? = some t ∧ t.value = .semi ∧ p = some t.location.start
  | .inserted => ∃ t r, rest = t :: r ∧
      (t.value = .rBrace ∨ t.value = .eof ∨ t.newline = true ∨ isDo = true)

/-- `do` statements. -/
def Ast.isDo : {c : Cat} → Ast c → Bool
  | _, .sDoWhile .. => true
  | _, _ => false

/-- The trees that the parser returns for the source `s`: by `script`, `strict`,
`module` and `program`.  The flags say if the code is strict and if it is
module code. -/
inductive Returned [Env] (s : Str) : Bool → Bool → Node → Prop where
  | script {t : Script} : script s = .ok t → Returned s false false ⟨_, t⟩
  | strict {t : Script} : strict s = .ok t → Returned s true false ⟨_, t⟩
  | module {t : Module} : parseModule s = .ok t → Returned s true true ⟨_, t⟩
  | program {t : Script} {checks : List Check} : program s = .ok (.ambiguous checks t) →
      Returned s false false ⟨_, t⟩

end Esprit
