import Verif.Model.Untrack
import Verif.Model.AstEq

/-!
Specification of what is in a syntax tree (locations, semicolons, numbers), and
of the two ways in which trees can be the same: up to locations (C21) and up to
surface differences (C22).
-/

namespace Esprit

/-- The location slots of a key. -/
def PropKey.locs : PropKey → List Loc
  | .id l _ | .string l _ | .number l _ => [l]

/-- The numbers in a key. -/
def PropKey.numbers : PropKey → List NumberLiteral
  | .number _ n => [n]
  | _ => []

namespace Ast

/-- All location slots of a tree: those of the nodes, and of the identifiers,
keys, operators and directives in it. -/
def locs : {c : Cat} → Ast c → List Loc
  | _, .nil => []
  | _, .cons h t => locs h ++ locs t
  | _, .none => []
  | _, .some x => locs x
  | _, .ident i => [i.location]
  | _, .key k => k.locs
  | _, .iExpr e => locs e
  | _, .iSpread l e => [l] ++ locs e
  | _, .eThis l => [l]
  | _, .eId i => [i.location]
  | _, .eArr l es => [l] ++ locs es
  | _, .eObj l ps => [l] ++ locs ps
  | _, .eFun f => locs f
  | _, .eSeq l es => [l] ++ locs es
  | _, .eUnop l op e => [l] ++ [op.location] ++ locs e
  | _, .eBinop l op a b => [l] ++ [op.location] ++ locs a ++ locs b
  | _, .eLogop l op a b => [l] ++ [op.location] ++ locs a ++ locs b
  | _, .ePreInc l t => [l] ++ locs t
  | _, .ePostInc l t => [l] ++ locs t
  | _, .ePreDec l t => [l] ++ locs t
  | _, .ePostDec l t => [l] ++ locs t
  | _, .eAssign l p e => [l] ++ locs p ++ locs e
  | _, .eBinAssign l op t e => [l] ++ [op.location] ++ locs t ++ locs e
  | _, .eCond l test thn alt => [l] ++ locs test ++ locs thn ++ locs alt
  | _, .eCall l callee args => [l] ++ locs callee ++ locs args
  | _, .eNew l callee args => [l] ++ locs callee ++ locs args
  | _, .eDot l e k => [l] ++ locs e ++ [k.location]
  | _, .eBrack l e prop => [l] ++ locs e ++ locs prop
  | _, .eNewTarget l => [l]
  | _, .eTrue l => [l]
  | _, .eFalse l => [l]
  | _, .eNull l => [l]
  | _, .eNumber l _ => [l]
  | _, .eRegExp l _ => [l]
  | _, .eString l _ => [l]
  | _, .tId i => [i.location]
  | _, .tDot l e k => [l] ++ locs e ++ [k.location]
  | _, .tBrack l e prop => [l] ++ locs e ++ locs prop
  | _, .pSimple t => locs t
  | _, .pCompound p => locs p
  | _, .cArr l es r => [l] ++ locs es ++ locs r
  | _, .cObj l ps => [l] ++ locs ps
  | _, .restPatt l p => [l] ++ locs p
  | _, .ppRegular l k p => [l] ++ k.locs ++ locs p
  | _, .ppShorthand i => [i.location]
  | _, .prRegular l k v => [l] ++ k.locs ++ locs v
  | _, .prMethod f => locs f
  | _, .prShorthand i => [i.location]
  | _, .vInit e => locs e
  | _, .vGet l b => [l] ++ locs b
  | _, .vSet l p b => [l] ++ locs p ++ locs b
  | _, .func l id ps b _ => [l] ++ locs id ++ locs ps ++ locs b
  | _, .params l ps r => [l] ++ locs ps ++ locs r
  | _, .body l dirs items => [l] ++ dirs.map Dir.location ++ locs items
  | _, .siDecl d => locs d
  | _, .siStmt s => locs s
  | _, .miImport i => locs i
  | _, .miExport e => locs e
  | _, .miItem i => locs i
  | _, .importForEffect l _ => [l]
  | _, .exportVar l ds _ => [l] ++ locs ds
  | _, .exportDecl d => locs d
  | _, .dFun f => locs f
  | _, .dLet l ds _ => [l] ++ locs ds
  | _, .dConst l ds _ => [l] ++ locs ds
  | _, .dtSimple l i init => [l] ++ [i.location] ++ locs init
  | _, .dtCompound l p init => [l] ++ locs p ++ locs init
  | _, .constDtor l p value => [l] ++ locs p ++ locs value
  | _, .block l items => [l] ++ locs items
  | _, .sEmpty l => [l]
  | _, .sBlock b => locs b
  | _, .sVar l ds _ => [l] ++ locs ds
  | _, .sExpr l e _ => [l] ++ locs e
  | _, .sIf l test thn alt => [l] ++ locs test ++ locs thn ++ locs alt
  | _, .sLabel l i s => [l] ++ [i.location] ++ locs s
  | _, .sBreak l i _ => [l] ++ i.toList.map Id.location
  | _, .sCont l i _ => [l] ++ i.toList.map Id.location
  | _, .sWith l obj s => [l] ++ locs obj ++ locs s
  | _, .sSwitch l disc cases => [l] ++ locs disc ++ locs cases
  | _, .sReturn l arg _ => [l] ++ locs arg
  | _, .sThrow l arg _ => [l] ++ locs arg
  | _, .sTry l b c f => [l] ++ locs b ++ locs c ++ locs f
  | _, .sWhile l test s => [l] ++ locs test ++ locs s
  | _, .sDoWhile l s test _ => [l] ++ locs s ++ locs test
  | _, .sFor l head test update s => [l] ++ locs head ++ locs test ++ locs update ++ locs s
  | _, .sForIn l head obj s => [l] ++ locs head ++ locs obj ++ locs s
  | _, .sForOf l head obj s => [l] ++ locs head ++ locs obj ++ locs s
  | _, .sDebugger l _ => [l]
  | _, .fhVar l ds => [l] ++ locs ds
  | _, .fhLet l ds => [l] ++ locs ds
  | _, .fhConst l ds => [l] ++ locs ds
  | _, .fhExpr l e => [l] ++ locs e
  | _, .fiVarInit l i init => [l] ++ [i.location] ++ locs init
  | _, .fiVar l p => [l] ++ locs p
  | _, .fiLet l p => [l] ++ locs p
  | _, .fiConst l p => [l] ++ locs p
  | _, .fiPatt p => locs p
  | _, .foVar l p => [l] ++ locs p
  | _, .foLet l p => [l] ++ locs p
  | _, .foConst l p => [l] ++ locs p
  | _, .foPatt p => locs p
  | _, .catchClause l p b => [l] ++ locs p ++ locs b
  | _, .caseClause l test items => [l] ++ locs test ++ locs items

/-- All semicolons of a tree. -/
def semis : {c : Cat} → Ast c → List Semi
  | _, .nil => []
  | _, .cons h t => semis h ++ semis t
  | _, .none => []
  | _, .some x => semis x
  | _, .ident _ => []
  | _, .key _ => []
  | _, .iExpr e => semis e
  | _, .iSpread _ e => semis e
  | _, .eThis _ => []
  | _, .eId _ => []
  | _, .eArr _ es => semis es
  | _, .eObj _ ps => semis ps
  | _, .eFun f => semis f
  | _, .eSeq _ es => semis es
  | _, .eUnop _ _ e => semis e
  | _, .eBinop _ _ a b => semis a ++ semis b
  | _, .eLogop _ _ a b => semis a ++ semis b
  | _, .ePreInc _ t => semis t
  | _, .ePostInc _ t => semis t
  | _, .ePreDec _ t => semis t
  | _, .ePostDec _ t => semis t
  | _, .eAssign _ p e => semis p ++ semis e
  | _, .eBinAssign _ _ t e => semis t ++ semis e
  | _, .eCond _ test thn alt => semis test ++ semis thn ++ semis alt
  | _, .eCall _ callee args => semis callee ++ semis args
  | _, .eNew _ callee args => semis callee ++ semis args
  | _, .eDot _ e _ => semis e
  | _, .eBrack _ e prop => semis e ++ semis prop
  | _, .eNewTarget _ => []
  | _, .eTrue _ => []
  | _, .eFalse _ => []
  | _, .eNull _ => []
  | _, .eNumber _ _ => []
  | _, .eRegExp _ _ => []
  | _, .eString _ _ => []
  | _, .tId _ => []
  | _, .tDot _ e _ => semis e
  | _, .tBrack _ e prop => semis e ++ semis prop
  | _, .pSimple t => semis t
  | _, .pCompound p => semis p
  | _, .cArr _ es r => semis es ++ semis r
  | _, .cObj _ ps => semis ps
  | _, .restPatt _ p => semis p
  | _, .ppRegular _ _ p => semis p
  | _, .ppShorthand _ => []
  | _, .prRegular _ _ v => semis v
  | _, .prMethod f => semis f
  | _, .prShorthand _ => []
  | _, .vInit e => semis e
  | _, .vGet _ b => semis b
  | _, .vSet _ p b => semis p ++ semis b
  | _, .func _ id ps b _ => semis id ++ semis ps ++ semis b
  | _, .params _ ps r => semis ps ++ semis r
  | _, .body _ dirs items => dirs.map Dir.semi ++ semis items
  | _, .siDecl d => semis d
  | _, .siStmt s => semis s
  | _, .miImport i => semis i
  | _, .miExport e => semis e
  | _, .miItem i => semis i
  | _, .importForEffect _ _ => []
  | _, .exportVar _ ds semi => semis ds ++ [semi]
  | _, .exportDecl d => semis d
  | _, .dFun f => semis f
  | _, .dLet _ ds semi => semis ds ++ [semi]
  | _, .dConst _ ds semi => semis ds ++ [semi]
  | _, .dtSimple _ _ init => semis init
  | _, .dtCompound _ p init => semis p ++ semis init
  | _, .constDtor _ p value => semis p ++ semis value
  | _, .block _ items => semis items
  | _, .sEmpty _ => []
  | _, .sBlock b => semis b
  | _, .sVar _ ds semi => semis ds ++ [semi]
  | _, .sExpr _ e semi => semis e ++ [semi]
  | _, .sIf _ test thn alt => semis test ++ semis thn ++ semis alt
  | _, .sLabel _ _ s => semis s
  | _, .sBreak _ _ semi => [semi]
  | _, .sCont _ _ semi => [semi]
  | _, .sWith _ obj s => semis obj ++ semis s
  | _, .sSwitch _ disc cases => semis disc ++ semis cases
  | _, .sReturn _ arg semi => semis arg ++ [semi]
  | _, .sThrow _ arg semi => semis arg ++ [semi]
  | _, .sTry _ b c f => semis b ++ semis c ++ semis f
  | _, .sWhile _ test s => semis test ++ semis s
  | _, .sDoWhile _ s test semi => semis s ++ semis test ++ [semi]
  | _, .sFor _ head test update s => semis head ++ semis test ++ semis update ++ semis s
  | _, .sForIn _ head obj s => semis head ++ semis obj ++ semis s
  | _, .sForOf _ head obj s => semis head ++ semis obj ++ semis s
  | _, .sDebugger _ semi => [semi]
  | _, .fhVar _ ds => semis ds
  | _, .fhLet _ ds => semis ds
  | _, .fhConst _ ds => semis ds
  | _, .fhExpr _ e => semis e
  | _, .fiVarInit _ _ init => semis init
  | _, .fiVar _ p => semis p
  | _, .fiLet _ p => semis p
  | _, .fiConst _ p => semis p
  | _, .fiPatt p => semis p
  | _, .foVar _ p => semis p
  | _, .foLet _ p => semis p
  | _, .foConst _ p => semis p
  | _, .foPatt p => semis p
  | _, .catchClause _ p b => semis p ++ semis b
  | _, .caseClause _ test items => semis test ++ semis items

/-- All number literals of a tree. -/
def numbers : {c : Cat} → Ast c → List NumberLiteral
  | _, .nil => []
  | _, .cons h t => numbers h ++ numbers t
  | _, .none => []
  | _, .some x => numbers x
  | _, .ident _ => []
  | _, .key k => k.numbers
  | _, .iExpr e => numbers e
  | _, .iSpread _ e => numbers e
  | _, .eThis _ => []
  | _, .eId _ => []
  | _, .eArr _ es => numbers es
  | _, .eObj _ ps => numbers ps
  | _, .eFun f => numbers f
  | _, .eSeq _ es => numbers es
  | _, .eUnop _ _ e => numbers e
  | _, .eBinop _ _ a b => numbers a ++ numbers b
  | _, .eLogop _ _ a b => numbers a ++ numbers b
  | _, .ePreInc _ t => numbers t
  | _, .ePostInc _ t => numbers t
  | _, .ePreDec _ t => numbers t
  | _, .ePostDec _ t => numbers t
  | _, .eAssign _ p e => numbers p ++ numbers e
  | _, .eBinAssign _ _ t e => numbers t ++ numbers e
  | _, .eCond _ test thn alt => numbers test ++ numbers thn ++ numbers alt
  | _, .eCall _ callee args => numbers callee ++ numbers args
  | _, .eNew _ callee args => numbers callee ++ numbers args
  | _, .eDot _ e _ => numbers e
  | _, .eBrack _ e prop => numbers e ++ numbers prop
  | _, .eNewTarget _ => []
  | _, .eTrue _ => []
  | _, .eFalse _ => []
  | _, .eNull _ => []
  | _, .eNumber _ n => [n]
  | _, .eRegExp _ _ => []
  | _, .eString _ _ => []
  | _, .tId _ => []
  | _, .tDot _ e _ => numbers e
  | _, .tBrack _ e prop => numbers e ++ numbers prop
  | _, .pSimple t => numbers t
  | _, .pCompound p => numbers p
  | _, .cArr _ es r => numbers es ++ numbers r
  | _, .cObj _ ps => numbers ps
  | _, .restPatt _ p => numbers p
  | _, .ppRegular _ k p => k.numbers ++ numbers p
  | _, .ppShorthand _ => []
  | _, .prRegular _ k v => k.numbers ++ numbers v
  | _, .prMethod f => numbers f
  | _, .prShorthand _ => []
  | _, .vInit e => numbers e
  | _, .vGet _ b => numbers b
  | _, .vSet _ p b => numbers p ++ numbers b
  | _, .func _ id ps b _ => numbers id ++ numbers ps ++ numbers b
  | _, .params _ ps r => numbers ps ++ numbers r
  | _, .body _ _ items => numbers items
  | _, .siDecl d => numbers d
  | _, .siStmt s => numbers s
  | _, .miImport i => numbers i
  | _, .miExport e => numbers e
  | _, .miItem i => numbers i
  | _, .importForEffect _ _ => []
  | _, .exportVar _ ds _ => numbers ds
  | _, .exportDecl d => numbers d
  | _, .dFun f => numbers f
  | _, .dLet _ ds _ => numbers ds
  | _, .dConst _ ds _ => numbers ds
  | _, .dtSimple _ _ init => numbers init
  | _, .dtCompound _ p init => numbers p ++ numbers init
  | _, .constDtor _ p value => numbers p ++ numbers value
  | _, .block _ items => numbers items
  | _, .sEmpty _ => []
  | _, .sBlock b => numbers b
  | _, .sVar _ ds _ => numbers ds
  | _, .sExpr _ e _ => numbers e
  | _, .sIf _ test thn alt => numbers test ++ numbers thn ++ numbers alt
  | _, .sLabel _ _ s => numbers s
  | _, .sBreak _ _ _ => []
  | _, .sCont _ _ _ => []
  | _, .sWith _ obj s => numbers obj ++ numbers s
  | _, .sSwitch _ disc cases => numbers disc ++ numbers cases
  | _, .sReturn _ arg _ => numbers arg
  | _, .sThrow _ arg _ => numbers arg
  | _, .sTry _ b c f => numbers b ++ numbers c ++ numbers f
  | _, .sWhile _ test s => numbers test ++ numbers s
  | _, .sDoWhile _ s test _ => numbers s ++ numbers test
  | _, .sFor _ head test update s => numbers head ++ numbers test ++ numbers update ++ numbers s
  | _, .sForIn _ head obj s => numbers head ++ numbers obj ++ numbers s
  | _, .sForOf _ head obj s => numbers head ++ numbers obj ++ numbers s
  | _, .sDebugger _ _ => []
  | _, .fhVar _ ds => numbers ds
  | _, .fhLet _ ds => numbers ds
  | _, .fhConst _ ds => numbers ds
  | _, .fhExpr _ e => numbers e
  | _, .fiVarInit _ _ init => numbers init
  | _, .fiVar _ p => numbers p
  | _, .fiLet _ p => numbers p
  | _, .fiConst _ p => numbers p
  | _, .fiPatt p => numbers p
  | _, .foVar _ p => numbers p
  | _, .foLet _ p => numbers p
  | _, .foConst _ p => numbers p
  | _, .foPatt p => numbers p
  | _, .catchClause _ p b => numbers p ++ numbers b
  | _, .caseClause _ test items => numbers test ++ numbers items

end Ast

/-- The same key up to its location. -/
inductive PropKey.Similar : PropKey → PropKey → Prop where
  | id {l l' : Loc} {s : Str} : Similar (.id l s) (.id l' s)
  | string {l l' : Loc} {s : StringLiteral} : Similar (.string l s) (.string l' s)
  | number {l l' : Loc} {n : NumberLiteral} : Similar (.number l n) (.number l' n)

/-- `Similar a b`: the trees differ only in locations and in the origin of
semicolons. -/
inductive Ast.Similar : {c : Cat} → Ast c → Ast c → Prop where
  | nil {c : Cat} : Similar (Ast.nil : Ast (.list c)) (Ast.nil : Ast (.list c))
  | cons {c : Cat} {h h' : Ast c} {t t' : Ast (.list c)} :
      Similar h h' → Similar t t' → Similar (Ast.cons h t) (Ast.cons h' t')
  | none {c : Cat} : Similar (Ast.none : Ast (.opt c)) (Ast.none : Ast (.opt c))
  | some {c : Cat} {x x' : Ast c} : Similar x x' → Similar (Ast.some x) (Ast.some x')
  | ident {i i' : Id} : i.name = i'.name → Similar (Ast.ident i) (Ast.ident i')
  | key {k k' : PropKey} : k.Similar k' → Similar (Ast.key k) (Ast.key k')
  | iExpr {e e' : Ast .expr} : Similar e e' → Similar (Ast.iExpr e) (Ast.iExpr e')
  | iSpread {l l' : Loc} {e e' : Ast .expr} :
      Similar e e' → Similar (Ast.iSpread l e) (Ast.iSpread l' e')
  | eThis {l l' : Loc} : Similar (Ast.eThis l) (Ast.eThis l')
  | eId {i i' : Id} : i.name = i'.name → Similar (Ast.eId i) (Ast.eId i')
  | eArr {l l' : Loc} {es es' : Ast (.list (.opt .item))} :
      Similar es es' → Similar (Ast.eArr l es) (Ast.eArr l' es')
  | eObj {l l' : Loc} {ps ps' : Ast (.list .prop)} :
      Similar ps ps' → Similar (Ast.eObj l ps) (Ast.eObj l' ps')
  | eFun {f f' : Ast (.func (.opt .id))} : Similar f f' → Similar (Ast.eFun f) (Ast.eFun f')
  | eSeq {l l' : Loc} {es es' : Ast (.list .expr)} :
      Similar es es' → Similar (Ast.eSeq l es) (Ast.eSeq l' es')
  | eUnop {l l' : Loc} {op op' : Op UnopTag} {e e' : Ast .expr} :
      op.tag = op'.tag → Similar e e' → Similar (Ast.eUnop l op e) (Ast.eUnop l' op' e')
  | eBinop {l l' : Loc} {op op' : Op BinopTag} {a a' : Ast .expr} {b b' : Ast .expr} :
      op.tag = op'.tag → Similar a a' → Similar b b' →
      Similar (Ast.eBinop l op a b) (Ast.eBinop l' op' a' b')
  | eLogop {l l' : Loc} {op op' : Op LogopTag} {a a' : Ast .expr} {b b' : Ast .expr} :
      op.tag = op'.tag → Similar a a' → Similar b b' →
      Similar (Ast.eLogop l op a b) (Ast.eLogop l' op' a' b')
  | ePreInc {l l' : Loc} {t t' : Ast .target} :
      Similar t t' → Similar (Ast.ePreInc l t) (Ast.ePreInc l' t')
  | ePostInc {l l' : Loc} {t t' : Ast .target} :
      Similar t t' → Similar (Ast.ePostInc l t) (Ast.ePostInc l' t')
  | ePreDec {l l' : Loc} {t t' : Ast .target} :
      Similar t t' → Similar (Ast.ePreDec l t) (Ast.ePreDec l' t')
  | ePostDec {l l' : Loc} {t t' : Ast .target} :
      Similar t t' → Similar (Ast.ePostDec l t) (Ast.ePostDec l' t')
  | eAssign {l l' : Loc} {p p' : Ast (.patt .target)} {e e' : Ast .expr} :
      Similar p p' → Similar e e' → Similar (Ast.eAssign l p e) (Ast.eAssign l' p' e')
  | eBinAssign {l l' : Loc} {op op' : Op AssopTag} {t t' : Ast .target} {e e' : Ast .expr} :
      op.tag = op'.tag → Similar t t' → Similar e e' →
      Similar (Ast.eBinAssign l op t e) (Ast.eBinAssign l' op' t' e')
  | eCond {l l' : Loc} {test test' : Ast .expr} {thn thn' : Ast .expr} {alt alt' : Ast .expr} :
      Similar test test' → Similar thn thn' → Similar alt alt' →
      Similar (Ast.eCond l test thn alt) (Ast.eCond l' test' thn' alt')
  | eCall {l l' : Loc} {callee callee' : Ast .expr} {args args' : Ast (.list .item)} :
      Similar callee callee' → Similar args args' →
      Similar (Ast.eCall l callee args) (Ast.eCall l' callee' args')
  | eNew {l l' : Loc} {callee callee' : Ast .expr} {args args' : Ast (.opt (.list .item))} :
      Similar callee callee' → Similar args args' →
      Similar (Ast.eNew l callee args) (Ast.eNew l' callee' args')
  | eDot {l l' : Loc} {e e' : Ast .expr} {k k' : DotKey} :
      Similar e e' → k.value = k'.value → Similar (Ast.eDot l e k) (Ast.eDot l' e' k')
  | eBrack {l l' : Loc} {e e' : Ast .expr} {prop prop' : Ast .expr} :
      Similar e e' → Similar prop prop' → Similar (Ast.eBrack l e prop) (Ast.eBrack l' e' prop')
  | eNewTarget {l l' : Loc} : Similar (Ast.eNewTarget l) (Ast.eNewTarget l')
  | eTrue {l l' : Loc} : Similar (Ast.eTrue l) (Ast.eTrue l')
  | eFalse {l l' : Loc} : Similar (Ast.eFalse l) (Ast.eFalse l')
  | eNull {l l' : Loc} : Similar (Ast.eNull l) (Ast.eNull l')
  | eNumber {l l' : Loc} {n : NumberLiteral} : Similar (Ast.eNumber l n) (Ast.eNumber l' n)
  | eRegExp {l l' : Loc} {r : RegExpLiteral} : Similar (Ast.eRegExp l r) (Ast.eRegExp l' r)
  | eString {l l' : Loc} {s : StringLiteral} : Similar (Ast.eString l s) (Ast.eString l' s)
  | tId {i i' : Id} : i.name = i'.name → Similar (Ast.tId i) (Ast.tId i')
  | tDot {l l' : Loc} {e e' : Ast .expr} {k k' : DotKey} :
      Similar e e' → k.value = k'.value → Similar (Ast.tDot l e k) (Ast.tDot l' e' k')
  | tBrack {l l' : Loc} {e e' : Ast .expr} {prop prop' : Ast .expr} :
      Similar e e' → Similar prop prop' → Similar (Ast.tBrack l e prop) (Ast.tBrack l' e' prop')
  | pSimple {c : Cat} {t t' : Ast c} : Similar t t' → Similar (Ast.pSimple t) (Ast.pSimple t')
  | pCompound {c : Cat} {p p' : Ast (.comp c)} :
      Similar p p' → Similar (Ast.pCompound p) (Ast.pCompound p')
  | cArr {c : Cat} {l l' : Loc} {es es' : Ast (.list (.opt (.patt c)))} {r r' : Ast (.opt (.rest c))} :
      Similar es es' → Similar r r' → Similar (Ast.cArr l es r) (Ast.cArr l' es' r')
  | cObj {c : Cat} {l l' : Loc} {ps ps' : Ast (.list (.propPatt c))} :
      Similar ps ps' → Similar (Ast.cObj l ps) (Ast.cObj l' ps')
  | restPatt {c : Cat} {l l' : Loc} {p p' : Ast (.patt c)} :
      Similar p p' → Similar (Ast.restPatt l p) (Ast.restPatt l' p')
  | ppRegular {c : Cat} {l l' : Loc} {k k' : PropKey} {p p' : Ast (.patt c)} :
      k.Similar k' → Similar p p' → Similar (Ast.ppRegular l k p) (Ast.ppRegular l' k' p')
  | ppShorthand {c : Cat} {i i' : Id} :
      i.name = i'.name → Similar (Ast.ppShorthand (c := c) i) (Ast.ppShorthand (c := c) i')
  | prRegular {l l' : Loc} {k k' : PropKey} {v v' : Ast .propVal} :
      k.Similar k' → Similar v v' → Similar (Ast.prRegular l k v) (Ast.prRegular l' k' v')
  | prMethod {f f' : Ast (.func .propKey)} :
      Similar f f' → Similar (Ast.prMethod f) (Ast.prMethod f')
  | prShorthand {i i' : Id} : i.name = i'.name → Similar (Ast.prShorthand i) (Ast.prShorthand i')
  | vInit {e e' : Ast .expr} : Similar e e' → Similar (Ast.vInit e) (Ast.vInit e')
  | vGet {l l' : Loc} {b b' : Ast (.body .sitem)} :
      Similar b b' → Similar (Ast.vGet l b) (Ast.vGet l' b')
  | vSet {l l' : Loc} {p p' : Ast (.patt .id)} {b b' : Ast (.body .sitem)} :
      Similar p p' → Similar b b' → Similar (Ast.vSet l p b) (Ast.vSet l' p' b')
  | func {c : Cat} {l l' : Loc} {id id' : Ast c} {ps ps' : Ast .params} {b b' : Ast (.body .sitem)} {gen : Bool} :
      Similar id id' → Similar ps ps' → Similar b b' →
      Similar (Ast.func l id ps b gen) (Ast.func l' id' ps' b' gen)
  | params {l l' : Loc} {ps ps' : Ast (.list (.patt .id))} {r r' : Ast (.opt (.rest .id))} :
      Similar ps ps' → Similar r r' → Similar (Ast.params l ps r) (Ast.params l' ps' r')
  | body {c : Cat} {l l' : Loc} {dirs dirs' : List Dir} {items items' : Ast (.list c)} :
      dirs.map Dir.string = dirs'.map Dir.string → Similar items items' →
      Similar (Ast.body l dirs items) (Ast.body l' dirs' items')
  | siDecl {d d' : Ast .decl} : Similar d d' → Similar (Ast.siDecl d) (Ast.siDecl d')
  | siStmt {s s' : Ast .stmt} : Similar s s' → Similar (Ast.siStmt s) (Ast.siStmt s')
  | miImport {i i' : Ast .«import»} : Similar i i' → Similar (Ast.miImport i) (Ast.miImport i')
  | miExport {e e' : Ast .«export»} : Similar e e' → Similar (Ast.miExport e) (Ast.miExport e')
  | miItem {i i' : Ast .sitem} : Similar i i' → Similar (Ast.miItem i) (Ast.miItem i')
  | importForEffect {l l' : Loc} {s : StringLiteral} :
      Similar (Ast.importForEffect l s) (Ast.importForEffect l' s)
  | exportVar {l l' : Loc} {ds ds' : Ast (.list .dtor)} {semi semi' : Semi} :
      Similar ds ds' → Similar (Ast.exportVar l ds semi) (Ast.exportVar l' ds' semi')
  | exportDecl {d d' : Ast .decl} : Similar d d' → Similar (Ast.exportDecl d) (Ast.exportDecl d')
  | dFun {f f' : Ast (.func .id)} : Similar f f' → Similar (Ast.dFun f) (Ast.dFun f')
  | dLet {l l' : Loc} {ds ds' : Ast (.list .dtor)} {semi semi' : Semi} :
      Similar ds ds' → Similar (Ast.dLet l ds semi) (Ast.dLet l' ds' semi')
  | dConst {l l' : Loc} {ds ds' : Ast (.list .constDtor)} {semi semi' : Semi} :
      Similar ds ds' → Similar (Ast.dConst l ds semi) (Ast.dConst l' ds' semi')
  | dtSimple {l l' : Loc} {i i' : Id} {init init' : Ast (.opt .expr)} :
      i.name = i'.name → Similar init init' →
      Similar (Ast.dtSimple l i init) (Ast.dtSimple l' i' init')
  | dtCompound {l l' : Loc} {p p' : Ast (.comp .id)} {init init' : Ast .expr} :
      Similar p p' → Similar init init' →
      Similar (Ast.dtCompound l p init) (Ast.dtCompound l' p' init')
  | constDtor {l l' : Loc} {p p' : Ast (.patt .id)} {value value' : Ast .expr} :
      Similar p p' → Similar value value' →
      Similar (Ast.constDtor l p value) (Ast.constDtor l' p' value')
  | block {l l' : Loc} {items items' : Ast (.list .sitem)} :
      Similar items items' → Similar (Ast.block l items) (Ast.block l' items')
  | sEmpty {l l' : Loc} : Similar (Ast.sEmpty l) (Ast.sEmpty l')
  | sBlock {b b' : Ast .block} : Similar b b' → Similar (Ast.sBlock b) (Ast.sBlock b')
  | sVar {l l' : Loc} {ds ds' : Ast (.list .dtor)} {semi semi' : Semi} :
      Similar ds ds' → Similar (Ast.sVar l ds semi) (Ast.sVar l' ds' semi')
  | sExpr {l l' : Loc} {e e' : Ast .expr} {semi semi' : Semi} :
      Similar e e' → Similar (Ast.sExpr l e semi) (Ast.sExpr l' e' semi')
  | sIf {l l' : Loc} {test test' : Ast .expr} {thn thn' : Ast .stmt} {alt alt' : Ast (.opt .stmt)} :
      Similar test test' → Similar thn thn' → Similar alt alt' →
      Similar (Ast.sIf l test thn alt) (Ast.sIf l' test' thn' alt')
  | sLabel {l l' : Loc} {i i' : Id} {s s' : Ast .stmt} :
      i.name = i'.name → Similar s s' → Similar (Ast.sLabel l i s) (Ast.sLabel l' i' s')
  | sBreak {l l' : Loc} {i i' : Option Id} {semi semi' : Semi} :
      i.map Id.name = i'.map Id.name → Similar (Ast.sBreak l i semi) (Ast.sBreak l' i' semi')
  | sCont {l l' : Loc} {i i' : Option Id} {semi semi' : Semi} :
      i.map Id.name = i'.map Id.name → Similar (Ast.sCont l i semi) (Ast.sCont l' i' semi')
  | sWith {l l' : Loc} {obj obj' : Ast .expr} {s s' : Ast .stmt} :
      Similar obj obj' → Similar s s' → Similar (Ast.sWith l obj s) (Ast.sWith l' obj' s')
  | sSwitch {l l' : Loc} {disc disc' : Ast .expr} {cases cases' : Ast (.list .case)} :
      Similar disc disc' → Similar cases cases' →
      Similar (Ast.sSwitch l disc cases) (Ast.sSwitch l' disc' cases')
  | sReturn {l l' : Loc} {arg arg' : Ast (.opt .expr)} {semi semi' : Semi} :
      Similar arg arg' → Similar (Ast.sReturn l arg semi) (Ast.sReturn l' arg' semi')
  | sThrow {l l' : Loc} {arg arg' : Ast .expr} {semi semi' : Semi} :
      Similar arg arg' → Similar (Ast.sThrow l arg semi) (Ast.sThrow l' arg' semi')
  | sTry {l l' : Loc} {b b' : Ast .block} {c c' : Ast (.opt .«catch»)} {f f' : Ast (.opt .block)} :
      Similar b b' → Similar c c' → Similar f f' →
      Similar (Ast.sTry l b c f) (Ast.sTry l' b' c' f')
  | sWhile {l l' : Loc} {test test' : Ast .expr} {s s' : Ast .stmt} :
      Similar test test' → Similar s s' → Similar (Ast.sWhile l test s) (Ast.sWhile l' test' s')
  | sDoWhile {l l' : Loc} {s s' : Ast .stmt} {test test' : Ast .expr} {semi semi' : Semi} :
      Similar s s' → Similar test test' →
      Similar (Ast.sDoWhile l s test semi) (Ast.sDoWhile l' s' test' semi')
  | sFor {l l' : Loc} {head head' : Ast (.opt .forHead)} {test test' : Ast (.opt .expr)} {update update' : Ast (.opt .expr)} {s s' : Ast .stmt} :
      Similar head head' → Similar test test' → Similar update update' → Similar s s' →
      Similar (Ast.sFor l head test update s) (Ast.sFor l' head' test' update' s')
  | sForIn {l l' : Loc} {head head' : Ast .forInHead} {obj obj' : Ast .expr} {s s' : Ast .stmt} :
      Similar head head' → Similar obj obj' → Similar s s' →
      Similar (Ast.sForIn l head obj s) (Ast.sForIn l' head' obj' s')
  | sForOf {l l' : Loc} {head head' : Ast .forOfHead} {obj obj' : Ast .expr} {s s' : Ast .stmt} :
      Similar head head' → Similar obj obj' → Similar s s' →
      Similar (Ast.sForOf l head obj s) (Ast.sForOf l' head' obj' s')
  | sDebugger {l l' : Loc} {semi semi' : Semi} :
      Similar (Ast.sDebugger l semi) (Ast.sDebugger l' semi')
  | fhVar {l l' : Loc} {ds ds' : Ast (.list .dtor)} :
      Similar ds ds' → Similar (Ast.fhVar l ds) (Ast.fhVar l' ds')
  | fhLet {l l' : Loc} {ds ds' : Ast (.list .dtor)} :
      Similar ds ds' → Similar (Ast.fhLet l ds) (Ast.fhLet l' ds')
  | fhConst {l l' : Loc} {ds ds' : Ast (.list .constDtor)} :
      Similar ds ds' → Similar (Ast.fhConst l ds) (Ast.fhConst l' ds')
  | fhExpr {l l' : Loc} {e e' : Ast .expr} :
      Similar e e' → Similar (Ast.fhExpr l e) (Ast.fhExpr l' e')
  | fiVarInit {l l' : Loc} {i i' : Id} {init init' : Ast .expr} :
      i.name = i'.name → Similar init init' →
      Similar (Ast.fiVarInit l i init) (Ast.fiVarInit l' i' init')
  | fiVar {l l' : Loc} {p p' : Ast (.patt .id)} :
      Similar p p' → Similar (Ast.fiVar l p) (Ast.fiVar l' p')
  | fiLet {l l' : Loc} {p p' : Ast (.patt .id)} :
      Similar p p' → Similar (Ast.fiLet l p) (Ast.fiLet l' p')
  | fiConst {l l' : Loc} {p p' : Ast (.patt .id)} :
      Similar p p' → Similar (Ast.fiConst l p) (Ast.fiConst l' p')
  | fiPatt {p p' : Ast (.patt .target)} : Similar p p' → Similar (Ast.fiPatt p) (Ast.fiPatt p')
  | foVar {l l' : Loc} {p p' : Ast (.patt .id)} :
      Similar p p' → Similar (Ast.foVar l p) (Ast.foVar l' p')
  | foLet {l l' : Loc} {p p' : Ast (.patt .id)} :
      Similar p p' → Similar (Ast.foLet l p) (Ast.foLet l' p')
  | foConst {l l' : Loc} {p p' : Ast (.patt .id)} :
      Similar p p' → Similar (Ast.foConst l p) (Ast.foConst l' p')
  | foPatt {p p' : Ast (.patt .target)} : Similar p p' → Similar (Ast.foPatt p) (Ast.foPatt p')
  | catchClause {l l' : Loc} {p p' : Ast (.patt .id)} {b b' : Ast .block} :
      Similar p p' → Similar b b' → Similar (Ast.catchClause l p b) (Ast.catchClause l' p' b')
  | caseClause {l l' : Loc} {test test' : Ast (.opt .expr)} {items items' : Ast (.list .sitem)} :
      Similar test test' → Similar items items' →
      Similar (Ast.caseClause l test items) (Ast.caseClause l' test' items')

/-- The same number: not NaN, and the same value (so `0` and `-0` are the same,
as in IEEE comparisons). -/
inductive SameNumber : F64 → F64 → Prop where
  | inf {neg : Bool} : SameNumber (.inf neg) (.inf neg)
  | num {x y : F64} {q : Rat} : x.toRat? = some q → y.toRat? = some q → SameNumber x y

/-- The same key up to the source text of literals. -/
inductive PropKey.Agree : PropKey → PropKey → Prop where
  | id {l : Loc} {s : Str} : Agree (.id l s) (.id l s)
  | string {l : Loc} {s s' : StringLiteral} : s.value = s'.value → Agree (.string l s) (.string l s')
  | number {l : Loc} {n n' : NumberLiteral} : SameNumber n.value n'.value →
      Agree (.number l n) (.number l n')

/-- The same directives up to source text. -/
inductive DirsAgree : List Dir → List Dir → Prop where
  | nil : DirsAgree [] []
  | cons {d d' : Dir} {ds ds' : List Dir} : d.location = d'.location →
      d.string.value = d'.string.value → d.semi = d'.semi → DirsAgree ds ds' →
      DirsAgree (d :: ds) (d' :: ds')

/-- `Agree a b`: the trees agree up to the source text of literals, the order of
the flags of regular expressions, and omitted versus empty arguments of `new`;
numbers are compared by value. -/
inductive Ast.Agree : {c : Cat} → Ast c → Ast c → Prop where
  | nil {c : Cat} : Agree (Ast.nil : Ast (.list c)) (Ast.nil : Ast (.list c))
  | cons {c : Cat} {h h' : Ast c} {t t' : Ast (.list c)} :
      Agree h h' → Agree t t' → Agree (Ast.cons h t) (Ast.cons h' t')
  | none {c : Cat} : Agree (Ast.none : Ast (.opt c)) (Ast.none : Ast (.opt c))
  | some {c : Cat} {x x' : Ast c} : Agree x x' → Agree (Ast.some x) (Ast.some x')
  | ident {i : Id} : Agree (Ast.ident i) (Ast.ident i)
  | key {k k' : PropKey} : k.Agree k' → Agree (Ast.key k) (Ast.key k')
  | iExpr {e e' : Ast .expr} : Agree e e' → Agree (Ast.iExpr e) (Ast.iExpr e')
  | iSpread {l : Loc} {e e' : Ast .expr} : Agree e e' → Agree (Ast.iSpread l e) (Ast.iSpread l e')
  | eThis {l : Loc} : Agree (Ast.eThis l) (Ast.eThis l)
  | eId {i : Id} : Agree (Ast.eId i) (Ast.eId i)
  | eArr {l : Loc} {es es' : Ast (.list (.opt .item))} :
      Agree es es' → Agree (Ast.eArr l es) (Ast.eArr l es')
  | eObj {l : Loc} {ps ps' : Ast (.list .prop)} :
      Agree ps ps' → Agree (Ast.eObj l ps) (Ast.eObj l ps')
  | eFun {f f' : Ast (.func (.opt .id))} : Agree f f' → Agree (Ast.eFun f) (Ast.eFun f')
  | eSeq {l : Loc} {es es' : Ast (.list .expr)} :
      Agree es es' → Agree (Ast.eSeq l es) (Ast.eSeq l es')
  | eUnop {l : Loc} {op : Op UnopTag} {e e' : Ast .expr} :
      Agree e e' → Agree (Ast.eUnop l op e) (Ast.eUnop l op e')
  | eBinop {l : Loc} {op : Op BinopTag} {a a' : Ast .expr} {b b' : Ast .expr} :
      Agree a a' → Agree b b' → Agree (Ast.eBinop l op a b) (Ast.eBinop l op a' b')
  | eLogop {l : Loc} {op : Op LogopTag} {a a' : Ast .expr} {b b' : Ast .expr} :
      Agree a a' → Agree b b' → Agree (Ast.eLogop l op a b) (Ast.eLogop l op a' b')
  | ePreInc {l : Loc} {t t' : Ast .target} : Agree t t' → Agree (Ast.ePreInc l t) (Ast.ePreInc l t')
  | ePostInc {l : Loc} {t t' : Ast .target} :
      Agree t t' → Agree (Ast.ePostInc l t) (Ast.ePostInc l t')
  | ePreDec {l : Loc} {t t' : Ast .target} : Agree t t' → Agree (Ast.ePreDec l t) (Ast.ePreDec l t')
  | ePostDec {l : Loc} {t t' : Ast .target} :
      Agree t t' → Agree (Ast.ePostDec l t) (Ast.ePostDec l t')
  | eAssign {l : Loc} {p p' : Ast (.patt .target)} {e e' : Ast .expr} :
      Agree p p' → Agree e e' → Agree (Ast.eAssign l p e) (Ast.eAssign l p' e')
  | eBinAssign {l : Loc} {op : Op AssopTag} {t t' : Ast .target} {e e' : Ast .expr} :
      Agree t t' → Agree e e' → Agree (Ast.eBinAssign l op t e) (Ast.eBinAssign l op t' e')
  | eCond {l : Loc} {test test' : Ast .expr} {thn thn' : Ast .expr} {alt alt' : Ast .expr} :
      Agree test test' → Agree thn thn' → Agree alt alt' →
      Agree (Ast.eCond l test thn alt) (Ast.eCond l test' thn' alt')
  | eCall {l : Loc} {callee callee' : Ast .expr} {args args' : Ast (.list .item)} :
      Agree callee callee' → Agree args args' →
      Agree (Ast.eCall l callee args) (Ast.eCall l callee' args')
  | eNew {l : Loc} {callee callee' : Ast .expr} {args args' : Ast (.opt (.list .item))} :
      Agree callee callee' → Agree args args' →
      Agree (Ast.eNew l callee args) (Ast.eNew l callee' args')
  | eDot {l : Loc} {e e' : Ast .expr} {k : DotKey} :
      Agree e e' → Agree (Ast.eDot l e k) (Ast.eDot l e' k)
  | eBrack {l : Loc} {e e' : Ast .expr} {prop prop' : Ast .expr} :
      Agree e e' → Agree prop prop' → Agree (Ast.eBrack l e prop) (Ast.eBrack l e' prop')
  | eNewTarget {l : Loc} : Agree (Ast.eNewTarget l) (Ast.eNewTarget l)
  | eTrue {l : Loc} : Agree (Ast.eTrue l) (Ast.eTrue l)
  | eFalse {l : Loc} : Agree (Ast.eFalse l) (Ast.eFalse l)
  | eNull {l : Loc} : Agree (Ast.eNull l) (Ast.eNull l)
  | eNumber {l : Loc} {n n' : NumberLiteral} :
      SameNumber n.value n'.value → Agree (Ast.eNumber l n) (Ast.eNumber l n')
  | eRegExp {l : Loc} {r r' : RegExpLiteral} :
      r.pattern = r'.pattern → List.Perm r.flags r'.flags →
      Agree (Ast.eRegExp l r) (Ast.eRegExp l r')
  | eString {l : Loc} {s s' : StringLiteral} :
      s.value = s'.value → Agree (Ast.eString l s) (Ast.eString l s')
  | tId {i : Id} : Agree (Ast.tId i) (Ast.tId i)
  | tDot {l : Loc} {e e' : Ast .expr} {k : DotKey} :
      Agree e e' → Agree (Ast.tDot l e k) (Ast.tDot l e' k)
  | tBrack {l : Loc} {e e' : Ast .expr} {prop prop' : Ast .expr} :
      Agree e e' → Agree prop prop' → Agree (Ast.tBrack l e prop) (Ast.tBrack l e' prop')
  | pSimple {c : Cat} {t t' : Ast c} : Agree t t' → Agree (Ast.pSimple t) (Ast.pSimple t')
  | pCompound {c : Cat} {p p' : Ast (.comp c)} :
      Agree p p' → Agree (Ast.pCompound p) (Ast.pCompound p')
  | cArr {c : Cat} {l : Loc} {es es' : Ast (.list (.opt (.patt c)))} {r r' : Ast (.opt (.rest c))} :
      Agree es es' → Agree r r' → Agree (Ast.cArr l es r) (Ast.cArr l es' r')
  | cObj {c : Cat} {l : Loc} {ps ps' : Ast (.list (.propPatt c))} :
      Agree ps ps' → Agree (Ast.cObj l ps) (Ast.cObj l ps')
  | restPatt {c : Cat} {l : Loc} {p p' : Ast (.patt c)} :
      Agree p p' → Agree (Ast.restPatt l p) (Ast.restPatt l p')
  | ppRegular {c : Cat} {l : Loc} {k k' : PropKey} {p p' : Ast (.patt c)} :
      k.Agree k' → Agree p p' → Agree (Ast.ppRegular l k p) (Ast.ppRegular l k' p')
  | ppShorthand {c : Cat} {i : Id} : Agree (Ast.ppShorthand (c := c) i) (Ast.ppShorthand (c := c) i)
  | prRegular {l : Loc} {k k' : PropKey} {v v' : Ast .propVal} :
      k.Agree k' → Agree v v' → Agree (Ast.prRegular l k v) (Ast.prRegular l k' v')
  | prMethod {f f' : Ast (.func .propKey)} : Agree f f' → Agree (Ast.prMethod f) (Ast.prMethod f')
  | prShorthand {i : Id} : Agree (Ast.prShorthand i) (Ast.prShorthand i)
  | vInit {e e' : Ast .expr} : Agree e e' → Agree (Ast.vInit e) (Ast.vInit e')
  | vGet {l : Loc} {b b' : Ast (.body .sitem)} : Agree b b' → Agree (Ast.vGet l b) (Ast.vGet l b')
  | vSet {l : Loc} {p p' : Ast (.patt .id)} {b b' : Ast (.body .sitem)} :
      Agree p p' → Agree b b' → Agree (Ast.vSet l p b) (Ast.vSet l p' b')
  | func {c : Cat} {l : Loc} {id id' : Ast c} {ps ps' : Ast .params} {b b' : Ast (.body .sitem)} {gen : Bool} :
      Agree id id' → Agree ps ps' → Agree b b' →
      Agree (Ast.func l id ps b gen) (Ast.func l id' ps' b' gen)
  | params {l : Loc} {ps ps' : Ast (.list (.patt .id))} {r r' : Ast (.opt (.rest .id))} :
      Agree ps ps' → Agree r r' → Agree (Ast.params l ps r) (Ast.params l ps' r')
  | body {c : Cat} {l : Loc} {dirs dirs' : List Dir} {items items' : Ast (.list c)} :
      DirsAgree dirs dirs' → Agree items items' →
      Agree (Ast.body l dirs items) (Ast.body l dirs' items')
  | siDecl {d d' : Ast .decl} : Agree d d' → Agree (Ast.siDecl d) (Ast.siDecl d')
  | siStmt {s s' : Ast .stmt} : Agree s s' → Agree (Ast.siStmt s) (Ast.siStmt s')
  | miImport {i i' : Ast .«import»} : Agree i i' → Agree (Ast.miImport i) (Ast.miImport i')
  | miExport {e e' : Ast .«export»} : Agree e e' → Agree (Ast.miExport e) (Ast.miExport e')
  | miItem {i i' : Ast .sitem} : Agree i i' → Agree (Ast.miItem i) (Ast.miItem i')
  | importForEffect {l : Loc} {s s' : StringLiteral} :
      s.value = s'.value → Agree (Ast.importForEffect l s) (Ast.importForEffect l s')
  | exportVar {l : Loc} {ds ds' : Ast (.list .dtor)} {semi : Semi} :
      Agree ds ds' → Agree (Ast.exportVar l ds semi) (Ast.exportVar l ds' semi)
  | exportDecl {d d' : Ast .decl} : Agree d d' → Agree (Ast.exportDecl d) (Ast.exportDecl d')
  | dFun {f f' : Ast (.func .id)} : Agree f f' → Agree (Ast.dFun f) (Ast.dFun f')
  | dLet {l : Loc} {ds ds' : Ast (.list .dtor)} {semi : Semi} :
      Agree ds ds' → Agree (Ast.dLet l ds semi) (Ast.dLet l ds' semi)
  | dConst {l : Loc} {ds ds' : Ast (.list .constDtor)} {semi : Semi} :
      Agree ds ds' → Agree (Ast.dConst l ds semi) (Ast.dConst l ds' semi)
  | dtSimple {l : Loc} {i : Id} {init init' : Ast (.opt .expr)} :
      Agree init init' → Agree (Ast.dtSimple l i init) (Ast.dtSimple l i init')
  | dtCompound {l : Loc} {p p' : Ast (.comp .id)} {init init' : Ast .expr} :
      Agree p p' → Agree init init' → Agree (Ast.dtCompound l p init) (Ast.dtCompound l p' init')
  | constDtor {l : Loc} {p p' : Ast (.patt .id)} {value value' : Ast .expr} :
      Agree p p' → Agree value value' →
      Agree (Ast.constDtor l p value) (Ast.constDtor l p' value')
  | block {l : Loc} {items items' : Ast (.list .sitem)} :
      Agree items items' → Agree (Ast.block l items) (Ast.block l items')
  | sEmpty {l : Loc} : Agree (Ast.sEmpty l) (Ast.sEmpty l)
  | sBlock {b b' : Ast .block} : Agree b b' → Agree (Ast.sBlock b) (Ast.sBlock b')
  | sVar {l : Loc} {ds ds' : Ast (.list .dtor)} {semi : Semi} :
      Agree ds ds' → Agree (Ast.sVar l ds semi) (Ast.sVar l ds' semi)
  | sExpr {l : Loc} {e e' : Ast .expr} {semi : Semi} :
      Agree e e' → Agree (Ast.sExpr l e semi) (Ast.sExpr l e' semi)
  | sIf {l : Loc} {test test' : Ast .expr} {thn thn' : Ast .stmt} {alt alt' : Ast (.opt .stmt)} :
      Agree test test' → Agree thn thn' → Agree alt alt' →
      Agree (Ast.sIf l test thn alt) (Ast.sIf l test' thn' alt')
  | sLabel {l : Loc} {i : Id} {s s' : Ast .stmt} :
      Agree s s' → Agree (Ast.sLabel l i s) (Ast.sLabel l i s')
  | sBreak {l : Loc} {i : Option Id} {semi : Semi} :
      Agree (Ast.sBreak l i semi) (Ast.sBreak l i semi)
  | sCont {l : Loc} {i : Option Id} {semi : Semi} : Agree (Ast.sCont l i semi) (Ast.sCont l i semi)
  | sWith {l : Loc} {obj obj' : Ast .expr} {s s' : Ast .stmt} :
      Agree obj obj' → Agree s s' → Agree (Ast.sWith l obj s) (Ast.sWith l obj' s')
  | sSwitch {l : Loc} {disc disc' : Ast .expr} {cases cases' : Ast (.list .case)} :
      Agree disc disc' → Agree cases cases' →
      Agree (Ast.sSwitch l disc cases) (Ast.sSwitch l disc' cases')
  | sReturn {l : Loc} {arg arg' : Ast (.opt .expr)} {semi : Semi} :
      Agree arg arg' → Agree (Ast.sReturn l arg semi) (Ast.sReturn l arg' semi)
  | sThrow {l : Loc} {arg arg' : Ast .expr} {semi : Semi} :
      Agree arg arg' → Agree (Ast.sThrow l arg semi) (Ast.sThrow l arg' semi)
  | sTry {l : Loc} {b b' : Ast .block} {c c' : Ast (.opt .«catch»)} {f f' : Ast (.opt .block)} :
      Agree b b' → Agree c c' → Agree f f' → Agree (Ast.sTry l b c f) (Ast.sTry l b' c' f')
  | sWhile {l : Loc} {test test' : Ast .expr} {s s' : Ast .stmt} :
      Agree test test' → Agree s s' → Agree (Ast.sWhile l test s) (Ast.sWhile l test' s')
  | sDoWhile {l : Loc} {s s' : Ast .stmt} {test test' : Ast .expr} {semi : Semi} :
      Agree s s' → Agree test test' →
      Agree (Ast.sDoWhile l s test semi) (Ast.sDoWhile l s' test' semi)
  | sFor {l : Loc} {head head' : Ast (.opt .forHead)} {test test' : Ast (.opt .expr)} {update update' : Ast (.opt .expr)} {s s' : Ast .stmt} :
      Agree head head' → Agree test test' → Agree update update' → Agree s s' →
      Agree (Ast.sFor l head test update s) (Ast.sFor l head' test' update' s')
  | sForIn {l : Loc} {head head' : Ast .forInHead} {obj obj' : Ast .expr} {s s' : Ast .stmt} :
      Agree head head' → Agree obj obj' → Agree s s' →
      Agree (Ast.sForIn l head obj s) (Ast.sForIn l head' obj' s')
  | sForOf {l : Loc} {head head' : Ast .forOfHead} {obj obj' : Ast .expr} {s s' : Ast .stmt} :
      Agree head head' → Agree obj obj' → Agree s s' →
      Agree (Ast.sForOf l head obj s) (Ast.sForOf l head' obj' s')
  | sDebugger {l : Loc} {semi : Semi} : Agree (Ast.sDebugger l semi) (Ast.sDebugger l semi)
  | fhVar {l : Loc} {ds ds' : Ast (.list .dtor)} :
      Agree ds ds' → Agree (Ast.fhVar l ds) (Ast.fhVar l ds')
  | fhLet {l : Loc} {ds ds' : Ast (.list .dtor)} :
      Agree ds ds' → Agree (Ast.fhLet l ds) (Ast.fhLet l ds')
  | fhConst {l : Loc} {ds ds' : Ast (.list .constDtor)} :
      Agree ds ds' → Agree (Ast.fhConst l ds) (Ast.fhConst l ds')
  | fhExpr {l : Loc} {e e' : Ast .expr} : Agree e e' → Agree (Ast.fhExpr l e) (Ast.fhExpr l e')
  | fiVarInit {l : Loc} {i : Id} {init init' : Ast .expr} :
      Agree init init' → Agree (Ast.fiVarInit l i init) (Ast.fiVarInit l i init')
  | fiVar {l : Loc} {p p' : Ast (.patt .id)} : Agree p p' → Agree (Ast.fiVar l p) (Ast.fiVar l p')
  | fiLet {l : Loc} {p p' : Ast (.patt .id)} : Agree p p' → Agree (Ast.fiLet l p) (Ast.fiLet l p')
  | fiConst {l : Loc} {p p' : Ast (.patt .id)} :
      Agree p p' → Agree (Ast.fiConst l p) (Ast.fiConst l p')
  | fiPatt {p p' : Ast (.patt .target)} : Agree p p' → Agree (Ast.fiPatt p) (Ast.fiPatt p')
  | foVar {l : Loc} {p p' : Ast (.patt .id)} : Agree p p' → Agree (Ast.foVar l p) (Ast.foVar l p')
  | foLet {l : Loc} {p p' : Ast (.patt .id)} : Agree p p' → Agree (Ast.foLet l p) (Ast.foLet l p')
  | foConst {l : Loc} {p p' : Ast (.patt .id)} :
      Agree p p' → Agree (Ast.foConst l p) (Ast.foConst l p')
  | foPatt {p p' : Ast (.patt .target)} : Agree p p' → Agree (Ast.foPatt p) (Ast.foPatt p')
  | catchClause {l : Loc} {p p' : Ast (.patt .id)} {b b' : Ast .block} :
      Agree p p' → Agree b b' → Agree (Ast.catchClause l p b) (Ast.catchClause l p' b')
  | caseClause {l : Loc} {test test' : Ast (.opt .expr)} {items items' : Ast (.list .sitem)} :
      Agree test test' → Agree items items' →
      Agree (Ast.caseClause l test items) (Ast.caseClause l test' items')
  | newNoArgs {l : Loc} {callee callee' : Ast .expr} : Agree callee callee' →
      Agree (Ast.eNew l callee .none) (Ast.eNew l callee' (.some .nil))
  | newEmptyArgs {l : Loc} {callee callee' : Ast .expr} : Agree callee callee' →
      Agree (Ast.eNew l callee (.some .nil)) (Ast.eNew l callee' .none)

end Esprit
