import Verif.Model.Punc

/-!
Model of the syntax tree of `crates/easter/src` and of the derived
`TrackingRef`/`TrackingMut`/`Untrack` implementations (`crates/derive/src/lib.rs`).

The mutually recursive (and generic) Rust types are the members of one
inductive family `Ast`, indexed by a syntactic category `Cat`: `Expr` is
`Ast .expr`, `Vec<T>` is `Ast (.list t)`, `Patt<T>` is `Ast (.patt t)`,
`Fun<Option<Id>>` is `Ast (.func (.opt .id))`, and so on.  `Box` is erased.
-/

namespace Esprit

/-- The type of a location slot, `Option<Span>`. -/
abbrev Loc := Option Span

/-- easter id.rs:9-12 `Id`. -/
structure Id where
  location : Loc
  name : Name
  deriving DecidableEq, Repr

/-- easter obj.rs:11-14 `DotKey`. -/
structure DotKey where
  location : Loc
  value : Str
  deriving DecidableEq, Repr

/-- easter obj.rs:28-32 `PropKey`. -/
inductive PropKey where
  | id (l : Loc) (s : Str)
  | string (l : Loc) (s : StringLiteral)
  | number (l : Loc) (n : NumberLiteral)
  deriving DecidableEq, Repr

/-- easter stmt.rs:123-127 `Dir`. -/
structure Dir where
  location : Loc
  string : StringLiteral
  semi : Semi
  deriving DecidableEq, Repr

/-- easter stmt.rs:130-136 `Dir::pragma`. -/
def Dir.pragma (d : Dir) : Str :=
  match d.string.source with
  | some source => source
  | none => d.string.value

/-- Syntactic categories: one for each Rust type of the syntax tree. -/
inductive Cat where
  | list (c : Cat) | opt (c : Cat)
  | id | propKey | expr | item | target
  | patt (c : Cat) | comp (c : Cat) | rest (c : Cat) | propPatt (c : Cat)
  | prop | propVal | func (c : Cat) | params | body (c : Cat)
  | sitem | modItem | «import» | «export» | decl | dtor | constDtor
  | block | stmt | forHead | forInHead | forOfHead | «catch» | case
  deriving DecidableEq, Repr

/-- The syntax tree: one group of constructors for each Rust type (files in
`crates/easter/src`). -/
inductive Ast : Cat → Type where
  -- Rust `Vec<T>`
  | nil {c : Cat} : Ast (.list c)
  | cons {c : Cat} (h : Ast c) (t : Ast (.list c)) : Ast (.list c)
  -- Rust `Option<T>`
  | none {c : Cat} : Ast (.opt c)
  | some {c : Cat} (x : Ast c) : Ast (.opt c)
  -- id.rs:9-12 `Id`
  | ident (i : Id) : Ast .id
  -- obj.rs:28-32 `PropKey`
  | key (k : PropKey) : Ast .propKey
  -- expr.rs:13-16 `ExprListItem`
  | iExpr (e : Ast .expr) : Ast .item
  | iSpread (l : Loc) (e : Ast .expr) : Ast .item
  -- expr.rs:19-47 `Expr`
  | eThis (l : Loc) : Ast .expr
  | eId (i : Id) : Ast .expr
  | eArr (l : Loc) (es : Ast (.list (.opt .item))) : Ast .expr
  | eObj (l : Loc) (ps : Ast (.list .prop)) : Ast .expr
  | eFun (f : Ast (.func (.opt .id))) : Ast .expr
  | eSeq (l : Loc) (es : Ast (.list .expr)) : Ast .expr
  | eUnop (l : Loc) (op : Op UnopTag) (e : Ast .expr) : Ast .expr
  | eBinop (l : Loc) (op : Op BinopTag) (a : Ast .expr) (b : Ast .expr) : Ast .expr
  | eLogop (l : Loc) (op : Op LogopTag) (a : Ast .expr) (b : Ast .expr) : Ast .expr
  | ePreInc (l : Loc) (t : Ast .target) : Ast .expr
  | ePostInc (l : Loc) (t : Ast .target) : Ast .expr
  | ePreDec (l : Loc) (t : Ast .target) : Ast .expr
  | ePostDec (l : Loc) (t : Ast .target) : Ast .expr
  | eAssign (l : Loc) (p : Ast (.patt .target)) (e : Ast .expr) : Ast .expr
  | eBinAssign (l : Loc) (op : Op AssopTag) (t : Ast .target) (e : Ast .expr) : Ast .expr
  | eCond (l : Loc) (test : Ast .expr) (thn : Ast .expr) (alt : Ast .expr) : Ast .expr
  | eCall (l : Loc) (callee : Ast .expr) (args : Ast (.list .item)) : Ast .expr
  | eNew (l : Loc) (callee : Ast .expr) (args : Ast (.opt (.list .item))) : Ast .expr
  | eDot (l : Loc) (e : Ast .expr) (k : DotKey) : Ast .expr
  | eBrack (l : Loc) (e : Ast .expr) (prop : Ast .expr) : Ast .expr
  | eNewTarget (l : Loc) : Ast .expr
  | eTrue (l : Loc) : Ast .expr
  | eFalse (l : Loc) : Ast .expr
  | eNull (l : Loc) : Ast .expr
  | eNumber (l : Loc) (n : NumberLiteral) : Ast .expr
  | eRegExp (l : Loc) (r : RegExpLiteral) : Ast .expr
  | eString (l : Loc) (s : StringLiteral) : Ast .expr
  -- patt.rs:59-63 `AssignTarget`
  | tId (i : Id) : Ast .target
  | tDot (l : Loc) (e : Ast .expr) (k : DotKey) : Ast .target
  | tBrack (l : Loc) (e : Ast .expr) (prop : Ast .expr) : Ast .target
  -- patt.rs:26-29 `Patt<T>`
  | pSimple {c : Cat} (t : Ast c) : Ast (.patt c)
  | pCompound {c : Cat} (p : Ast (.comp c)) : Ast (.patt c)
  -- patt.rs:14-17 `CompoundPatt<T>`
  | cArr {c : Cat} (l : Loc) (es : Ast (.list (.opt (.patt c)))) (r : Ast (.opt (.rest c))) : Ast (.comp c)
  | cObj {c : Cat} (l : Loc) (ps : Ast (.list (.propPatt c))) : Ast (.comp c)
  -- patt.rs:8-11 `RestPatt<T>`
  | restPatt {c : Cat} (l : Loc) (p : Ast (.patt c)) : Ast (.rest c)
  -- patt.rs:20-23 `PropPatt<T>`
  | ppRegular {c : Cat} (l : Loc) (k : PropKey) (p : Ast (.patt c)) : Ast (.propPatt c)
  | ppShorthand {c : Cat} (i : Id) : Ast (.propPatt c)
  -- obj.rs:21-25 `Prop`
  | prRegular (l : Loc) (k : PropKey) (v : Ast .propVal) : Ast .prop
  | prMethod (f : Ast (.func .propKey)) : Ast .prop
  | prShorthand (i : Id) : Ast .prop
  -- obj.rs:41-45 `PropVal`
  | vInit (e : Ast .expr) : Ast .propVal
  | vGet (l : Loc) (b : Ast (.body .sitem)) : Ast .propVal
  | vSet (l : Loc) (p : Ast (.patt .id)) (b : Ast (.body .sitem)) : Ast .propVal
  -- fun.rs:15-21 `Fun<Id>`
  | func {c : Cat} (l : Loc) (id : Ast c) (ps : Ast .params) (b : Ast (.body .sitem)) (gen : Bool) : Ast (.func c)
  -- fun.rs:8-12 `Params`
  | params (l : Loc) (ps : Ast (.list (.patt .id))) (r : Ast (.opt (.rest .id))) : Ast .params
  -- stmt.rs:34-38 `Body<Item>`
  | body {c : Cat} (l : Loc) (dirs : List Dir) (items : Ast (.list c)) : Ast (.body c)
  -- stmt.rs:147-150 `StmtListItem`
  | siDecl (d : Ast .decl) : Ast .sitem
  | siStmt (s : Ast .stmt) : Ast .sitem
  -- stmt.rs:140-144 `ModItem`
  | miImport (i : Ast .«import») : Ast .modItem
  | miExport (e : Ast .«export») : Ast .modItem
  | miItem (i : Ast .sitem) : Ast .modItem
  -- decl.rs:11-14 `Import`
  | importForEffect (l : Loc) (s : StringLiteral) : Ast .«import»
  -- decl.rs:17-21 `Export`
  | exportVar (l : Loc) (ds : Ast (.list .dtor)) (semi : Semi) : Ast .«export»
  | exportDecl (d : Ast .decl) : Ast .«export»
  -- decl.rs:24-28 `Decl`
  | dFun (f : Ast (.func .id)) : Ast .decl
  | dLet (l : Loc) (ds : Ast (.list .dtor)) (semi : Semi) : Ast .decl
  | dConst (l : Loc) (ds : Ast (.list .constDtor)) (semi : Semi) : Ast .decl
  -- decl.rs:31-34 `Dtor`
  | dtSimple (l : Loc) (i : Id) (init : Ast (.opt .expr)) : Ast .dtor
  | dtCompound (l : Loc) (p : Ast (.comp .id)) (init : Ast .expr) : Ast .dtor
  -- decl.rs:37-41 `ConstDtor`
  | constDtor (l : Loc) (p : Ast (.patt .id)) (value : Ast .expr) : Ast .constDtor
  -- stmt.rs:41-44 `Block`
  | block (l : Loc) (items : Ast (.list .sitem)) : Ast .block
  -- stmt.rs:11-31 `Stmt`
  | sEmpty (l : Loc) : Ast .stmt
  | sBlock (b : Ast .block) : Ast .stmt
  | sVar (l : Loc) (ds : Ast (.list .dtor)) (semi : Semi) : Ast .stmt
  | sExpr (l : Loc) (e : Ast .expr) (semi : Semi) : Ast .stmt
  | sIf (l : Loc) (test : Ast .expr) (thn : Ast .stmt) (alt : Ast (.opt .stmt)) : Ast .stmt
  | sLabel (l : Loc) (i : Id) (s : Ast .stmt) : Ast .stmt
  | sBreak (l : Loc) (i : Option Id) (semi : Semi) : Ast .stmt
  | sCont (l : Loc) (i : Option Id) (semi : Semi) : Ast .stmt
  | sWith (l : Loc) (obj : Ast .expr) (s : Ast .stmt) : Ast .stmt
  | sSwitch (l : Loc) (disc : Ast .expr) (cases : Ast (.list .case)) : Ast .stmt
  | sReturn (l : Loc) (arg : Ast (.opt .expr)) (semi : Semi) : Ast .stmt
  | sThrow (l : Loc) (arg : Ast .expr) (semi : Semi) : Ast .stmt
  | sTry (l : Loc) (b : Ast .block) (c : Ast (.opt .«catch»)) (f : Ast (.opt .block)) : Ast .stmt
  | sWhile (l : Loc) (test : Ast .expr) (s : Ast .stmt) : Ast .stmt
  | sDoWhile (l : Loc) (s : Ast .stmt) (test : Ast .expr) (semi : Semi) : Ast .stmt
  | sFor (l : Loc) (head : Ast (.opt .forHead)) (test : Ast (.opt .expr)) (update : Ast (.opt .expr)) (s : Ast .stmt) : Ast .stmt
  | sForIn (l : Loc) (head : Ast .forInHead) (obj : Ast .expr) (s : Ast .stmt) : Ast .stmt
  | sForOf (l : Loc) (head : Ast .forOfHead) (obj : Ast .expr) (s : Ast .stmt) : Ast .stmt
  | sDebugger (l : Loc) (semi : Semi) : Ast .stmt
  -- stmt.rs:84-89 `ForHead`
  | fhVar (l : Loc) (ds : Ast (.list .dtor)) : Ast .forHead
  | fhLet (l : Loc) (ds : Ast (.list .dtor)) : Ast .forHead
  | fhConst (l : Loc) (ds : Ast (.list .constDtor)) : Ast .forHead
  | fhExpr (l : Loc) (e : Ast .expr) : Ast .forHead
  -- stmt.rs:92-98 `ForInHead`
  | fiVarInit (l : Loc) (i : Id) (init : Ast .expr) : Ast .forInHead
  | fiVar (l : Loc) (p : Ast (.patt .id)) : Ast .forInHead
  | fiLet (l : Loc) (p : Ast (.patt .id)) : Ast .forInHead
  | fiConst (l : Loc) (p : Ast (.patt .id)) : Ast .forInHead
  | fiPatt (p : Ast (.patt .target)) : Ast .forInHead
  -- stmt.rs:101-106 `ForOfHead`
  | foVar (l : Loc) (p : Ast (.patt .id)) : Ast .forOfHead
  | foLet (l : Loc) (p : Ast (.patt .id)) : Ast .forOfHead
  | foConst (l : Loc) (p : Ast (.patt .id)) : Ast .forOfHead
  | foPatt (p : Ast (.patt .target)) : Ast .forOfHead
  -- stmt.rs:109-113 `Catch`
  | catchClause (l : Loc) (p : Ast (.patt .id)) (b : Ast .block) : Ast .«catch»
  -- stmt.rs:116-120 `Case`
  | caseClause (l : Loc) (test : Ast (.opt .expr)) (items : Ast (.list .sitem)) : Ast .case

/-- easter `Expr`. -/
abbrev Expr := Ast .expr
/-- easter `Stmt`. -/
abbrev Stmt := Ast .stmt
/-- easter `StmtListItem`. -/
abbrev StmtListItem := Ast .sitem
/-- easter `AssignTarget`. -/
abbrev AssignTarget := Ast .target
/-- easter `Patt<Id>`: binding patterns. -/
abbrev PattId := Ast (.patt .id)
/-- easter `Patt<AssignTarget>`: assignment patterns. -/
abbrev PattTarget := Ast (.patt .target)
/-- easter stmt.rs:46 `Script`. -/
abbrev Script := Ast (.body .sitem)
/-- easter stmt.rs:48 `Module`. -/
abbrev Module := Ast (.body .modItem)

namespace Ast

/-- What `elems` returns: a list for the category of vectors. -/
def Elems : Cat → Type
  | .list c => List (Ast c)
  | _ => Unit

/-- The elements of a `Vec` (defined on every category, so that the recursion
is structural; see `toList`). -/
def elems : {c : Cat} → Ast c → Elems c
  | .list _, .cons h t => (h :: elems t : List (Ast _))
  | .list _, .nil => ([] : List (Ast _))
  | .opt _, _ | .id, _ | .propKey, _ | .expr, _ | .item, _ | .target, _ | .patt _, _ | .comp _, _
  | .rest _, _ | .propPatt _, _ | .prop, _ | .propVal, _ | .func _, _ | .params, _ | .body _, _
  | .sitem, _ | .modItem, _ | .«import», _ | .«export», _ | .decl, _ | .dtor, _ | .constDtor, _
  | .block, _ | .stmt, _ | .forHead, _ | .forInHead, _ | .forOfHead, _ | .«catch», _ | .case, _ => ()

/-- The elements of a `Vec`. -/
def toList {c : Cat} (xs : Ast (.list c)) : List (Ast c) := elems xs

@[simp] theorem toList_nil {c : Cat} : (Ast.nil : Ast (.list c)).toList = [] := rfl
@[simp] theorem toList_cons {c : Cat} (h : Ast c) (t : Ast (.list c)) :
    (Ast.cons h t).toList = h :: t.toList := rfl

/-- An `Option` node as an `Option`. -/
def toOption {c : Cat} : Ast (.opt c) → Option (Ast c)
  | .none => Option.none
  | .some x => Option.some x

/-- The `Vec` with the given elements. -/
def ofList {c : Cat} : List (Ast c) → Ast (.list c)
  | [] => .nil
  | h :: t => .cons h (ofList t)

/-- The `Option` as a node. -/
def ofOption {c : Cat} : Option (Ast c) → Ast (.opt c)
  | Option.none => .none
  | Option.some x => .some x

end Ast

/-- easter obj.rs:27 derived `TrackingRef for PropKey`. -/
def PropKey.loc : PropKey → Loc
  | .id l _ => l
  | .string l _ => l
  | .number l _ => l

/-- easter obj.rs:27 derived `TrackingMut for PropKey`. -/
def PropKey.setLoc (l : Loc) : PropKey → PropKey
  | .id _ s => .id l s
  | .string _ s => .string l s
  | .number _ n => .number l n

namespace Ast

/-- derive/src/lib.rs:46-90 the derived `TrackingRef::tracking_ref` (and the
hand-written one of `Patt`, easter patt.rs:40-47): the first field if it is an
`Option<Span>`, the location of the first field otherwise.  `Vec` and
`Option` have none; their value here is irrelevant. -/
def loc : {c : Cat} → Ast c → Loc
  | _, .nil => Option.none
  | _, .cons _ _ => Option.none
  | _, .none => Option.none
  | _, .some _ => Option.none
  | _, .ident i => i.location
  | _, .key k => k.loc
  | _, .iExpr e => loc e
  | _, .iSpread l _ => l
  | _, .eThis l => l
  | _, .eId i => i.location
  | _, .eArr l _ => l
  | _, .eObj l _ => l
  | _, .eFun f => loc f
  | _, .eSeq l _ => l
  | _, .eUnop l _ _ => l
  | _, .eBinop l _ _ _ => l
  | _, .eLogop l _ _ _ => l
  | _, .ePreInc l _ => l
  | _, .ePostInc l _ => l
  | _, .ePreDec l _ => l
  | _, .ePostDec l _ => l
  | _, .eAssign l _ _ => l
  | _, .eBinAssign l _ _ _ => l
  | _, .eCond l _ _ _ => l
  | _, .eCall l _ _ => l
  | _, .eNew l _ _ => l
  | _, .eDot l _ _ => l
  | _, .eBrack l _ _ => l
  | _, .eNewTarget l => l
  | _, .eTrue l => l
  | _, .eFalse l => l
  | _, .eNull l => l
  | _, .eNumber l _ => l
  | _, .eRegExp l _ => l
  | _, .eString l _ => l
  | _, .tId i => i.location
  | _, .tDot l _ _ => l
  | _, .tBrack l _ _ => l
  | _, .pSimple t => loc t
  | _, .pCompound p => loc p
  | _, .cArr l _ _ => l
  | _, .cObj l _ => l
  | _, .restPatt l _ => l
  | _, .ppRegular l _ _ => l
  | _, .ppShorthand i => i.location
  | _, .prRegular l _ _ => l
  | _, .prMethod f => loc f
  | _, .prShorthand i => i.location
  | _, .vInit e => loc e
  | _, .vGet l _ => l
  | _, .vSet l _ _ => l
  | _, .func l _ _ _ _ => l
  | _, .params l _ _ => l
  | _, .body l _ _ => l
  | _, .siDecl d => loc d
  | _, .siStmt s => loc s
  | _, .miImport i => loc i
  | _, .miExport e => loc e
  | _, .miItem i => loc i
  | _, .importForEffect l _ => l
  | _, .exportVar l _ _ => l
  | _, .exportDecl d => loc d
  | _, .dFun f => loc f
  | _, .dLet l _ _ => l
  | _, .dConst l _ _ => l
  | _, .dtSimple l _ _ => l
  | _, .dtCompound l _ _ => l
  | _, .constDtor l _ _ => l
  | _, .block l _ => l
  | _, .sEmpty l => l
  | _, .sBlock b => loc b
  | _, .sVar l _ _ => l
  | _, .sExpr l _ _ => l
  | _, .sIf l _ _ _ => l
  | _, .sLabel l _ _ => l
  | _, .sBreak l _ _ => l
  | _, .sCont l _ _ => l
  | _, .sWith l _ _ => l
  | _, .sSwitch l _ _ => l
  | _, .sReturn l _ _ => l
  | _, .sThrow l _ _ => l
  | _, .sTry l _ _ _ => l
  | _, .sWhile l _ _ => l
  | _, .sDoWhile l _ _ _ => l
  | _, .sFor l _ _ _ _ => l
  | _, .sForIn l _ _ _ => l
  | _, .sForOf l _ _ _ => l
  | _, .sDebugger l _ => l
  | _, .fhVar l _ => l
  | _, .fhLet l _ => l
  | _, .fhConst l _ => l
  | _, .fhExpr l _ => l
  | _, .fiVarInit l _ _ => l
  | _, .fiVar l _ => l
  | _, .fiLet l _ => l
  | _, .fiConst l _ => l
  | _, .fiPatt p => loc p
  | _, .foVar l _ => l
  | _, .foLet l _ => l
  | _, .foConst l _ => l
  | _, .foPatt p => loc p
  | _, .catchClause l _ _ => l
  | _, .caseClause l _ _ => l

/-- derive/src/lib.rs:46-90 the derived `TrackingMut::tracking_mut`: overwrite
the location slot that `loc` reads. -/
def setLoc (loc : Loc) : {c : Cat} → Ast c → Ast c
  | _, .nil => .nil
  | _, .cons h t => .cons h t
  | _, .none => .none
  | _, .some x => .some x
  | _, .ident i => .ident { i with location := loc }
  | _, .key k => .key (k.setLoc loc)
  | _, .iExpr e => .iExpr (setLoc loc e)
  | _, .iSpread _ e => .iSpread loc e
  | _, .eThis _ => .eThis loc
  | _, .eId i => .eId { i with location := loc }
  | _, .eArr _ es => .eArr loc es
  | _, .eObj _ ps => .eObj loc ps
  | _, .eFun f => .eFun (setLoc loc f)
  | _, .eSeq _ es => .eSeq loc es
  | _, .eUnop _ op e => .eUnop loc op e
  | _, .eBinop _ op a b => .eBinop loc op a b
  | _, .eLogop _ op a b => .eLogop loc op a b
  | _, .ePreInc _ t => .ePreInc loc t
  | _, .ePostInc _ t => .ePostInc loc t
  | _, .ePreDec _ t => .ePreDec loc t
  | _, .ePostDec _ t => .ePostDec loc t
  | _, .eAssign _ p e => .eAssign loc p e
  | _, .eBinAssign _ op t e => .eBinAssign loc op t e
  | _, .eCond _ test thn alt => .eCond loc test thn alt
  | _, .eCall _ callee args => .eCall loc callee args
  | _, .eNew _ callee args => .eNew loc callee args
  | _, .eDot _ e k => .eDot loc e k
  | _, .eBrack _ e prop => .eBrack loc e prop
  | _, .eNewTarget _ => .eNewTarget loc
  | _, .eTrue _ => .eTrue loc
  | _, .eFalse _ => .eFalse loc
  | _, .eNull _ => .eNull loc
  | _, .eNumber _ n => .eNumber loc n
  | _, .eRegExp _ r => .eRegExp loc r
  | _, .eString _ s => .eString loc s
  | _, .tId i => .tId { i with location := loc }
  | _, .tDot _ e k => .tDot loc e k
  | _, .tBrack _ e prop => .tBrack loc e prop
  | _, .pSimple t => .pSimple (setLoc loc t)
  | _, .pCompound p => .pCompound (setLoc loc p)
  | _, .cArr _ es r => .cArr loc es r
  | _, .cObj _ ps => .cObj loc ps
  | _, .restPatt _ p => .restPatt loc p
  | _, .ppRegular _ k p => .ppRegular loc k p
  | _, .ppShorthand i => .ppShorthand { i with location := loc }
  | _, .prRegular _ k v => .prRegular loc k v
  | _, .prMethod f => .prMethod (setLoc loc f)
  | _, .prShorthand i => .prShorthand { i with location := loc }
  | _, .vInit e => .vInit (setLoc loc e)
  | _, .vGet _ b => .vGet loc b
  | _, .vSet _ p b => .vSet loc p b
  | _, .func _ id ps b gen => .func loc id ps b gen
  | _, .params _ ps r => .params loc ps r
  | _, .body _ dirs items => .body loc dirs items
  | _, .siDecl d => .siDecl (setLoc loc d)
  | _, .siStmt s => .siStmt (setLoc loc s)
  | _, .miImport i => .miImport (setLoc loc i)
  | _, .miExport e => .miExport (setLoc loc e)
  | _, .miItem i => .miItem (setLoc loc i)
  | _, .importForEffect _ s => .importForEffect loc s
  | _, .exportVar _ ds semi => .exportVar loc ds semi
  | _, .exportDecl d => .exportDecl (setLoc loc d)
  | _, .dFun f => .dFun (setLoc loc f)
  | _, .dLet _ ds semi => .dLet loc ds semi
  | _, .dConst _ ds semi => .dConst loc ds semi
  | _, .dtSimple _ i init => .dtSimple loc i init
  | _, .dtCompound _ p init => .dtCompound loc p init
  | _, .constDtor _ p value => .constDtor loc p value
  | _, .block _ items => .block loc items
  | _, .sEmpty _ => .sEmpty loc
  | _, .sBlock b => .sBlock (setLoc loc b)
  | _, .sVar _ ds semi => .sVar loc ds semi
  | _, .sExpr _ e semi => .sExpr loc e semi
  | _, .sIf _ test thn alt => .sIf loc test thn alt
  | _, .sLabel _ i s => .sLabel loc i s
  | _, .sBreak _ i semi => .sBreak loc i semi
  | _, .sCont _ i semi => .sCont loc i semi
  | _, .sWith _ obj s => .sWith loc obj s
  | _, .sSwitch _ disc cases => .sSwitch loc disc cases
  | _, .sReturn _ arg semi => .sReturn loc arg semi
  | _, .sThrow _ arg semi => .sThrow loc arg semi
  | _, .sTry _ b c f => .sTry loc b c f
  | _, .sWhile _ test s => .sWhile loc test s
  | _, .sDoWhile _ s test semi => .sDoWhile loc s test semi
  | _, .sFor _ head test update s => .sFor loc head test update s
  | _, .sForIn _ head obj s => .sForIn loc head obj s
  | _, .sForOf _ head obj s => .sForOf loc head obj s
  | _, .sDebugger _ semi => .sDebugger loc semi
  | _, .fhVar _ ds => .fhVar loc ds
  | _, .fhLet _ ds => .fhLet loc ds
  | _, .fhConst _ ds => .fhConst loc ds
  | _, .fhExpr _ e => .fhExpr loc e
  | _, .fiVarInit _ i init => .fiVarInit loc i init
  | _, .fiVar _ p => .fiVar loc p
  | _, .fiLet _ p => .fiLet loc p
  | _, .fiConst _ p => .fiConst loc p
  | _, .fiPatt p => .fiPatt (setLoc loc p)
  | _, .foVar _ p => .foVar loc p
  | _, .foLet _ p => .foLet loc p
  | _, .foConst _ p => .foConst loc p
  | _, .foPatt p => .foPatt (setLoc loc p)
  | _, .catchClause _ p b => .catchClause loc p b
  | _, .caseClause _ test items => .caseClause loc test items

/-- The location slot of a node (joker track.rs:38-44). -/
instance {c : Cat} : Tracking (Ast c) := ⟨loc, fun l n => setLoc l n⟩

end Ast

end Esprit
