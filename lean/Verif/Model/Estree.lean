import Verif.Model.Unjson
import Verif.Model.Cover
import Verif.Model.Parser.Base

/-!
Model of `crates/estree/src`: conversion of ESTree JSON to syntax trees.

A Rust function that takes `&mut self` (an object whose fields it extracts) is
a computation in `J`.  A Rust function that takes `self` is a function of the
object.  The mutual recursion between expressions, statements, functions and
properties goes through a record `Rec` of the functions `into_expr` and
`into_stmt_list_item`; `recOf n` unfolds it `n` times.
-/

namespace Esprit

namespace Estree

/-- tag.rs:10-55 `Tag`. -/
inductive Tag where
  | identifier | literal | binaryExpression | assignmentExpression | logicalExpression
  | unaryExpression | updateExpression | memberExpression | callExpression | newExpression
  | arrayExpression | functionExpression | sequenceExpression | objectExpression
  | conditionalExpression | thisExpression | metaProperty | spreadElement | restElement
  | functionDeclaration | variableDeclaration | emptyStatement | expressionStatement
  | ifStatement | doWhileStatement | whileStatement | forStatement | forInStatement
  | forOfStatement | blockStatement | returnStatement | labeledStatement | breakStatement
  | continueStatement | switchStatement | withStatement | throwStatement | debuggerStatement
  | tryStatement
  deriving DecidableEq, Repr

/-- tag.rs:57-61 `Display for Tag`, `{:?}`: the name of the variant. -/
def Tag.debug : Tag → Str
  | .identifier => c!"Identifier"
  | .literal => c!"Literal"
  | .binaryExpression => c!"BinaryExpression"
  | .assignmentExpression => c!"AssignmentExpression"
  | .logicalExpression => c!"LogicalExpression"
  | .unaryExpression => c!"UnaryExpression"
  | .updateExpression => c!"UpdateExpression"
  | .memberExpression => c!"MemberExpression"
  | .callExpression => c!"CallExpression"
  | .newExpression => c!"NewExpression"
  | .arrayExpression => c!"ArrayExpression"
  | .functionExpression => c!"FunctionExpression"
  | .sequenceExpression => c!"SequenceExpression"
  | .objectExpression => c!"ObjectExpression"
  | .conditionalExpression => c!"ConditionalExpression"
  | .thisExpression => c!"ThisExpression"
  | .metaProperty => c!"MetaProperty"
  | .spreadElement => c!"SpreadElement"
  | .restElement => c!"RestElement"
  | .functionDeclaration => c!"FunctionDeclaration"
  | .variableDeclaration => c!"VariableDeclaration"
  | .emptyStatement => c!"EmptyStatement"
  | .expressionStatement => c!"ExpressionStatement"
  | .ifStatement => c!"IfStatement"
  | .doWhileStatement => c!"DoWhileStatement"
  | .whileStatement => c!"WhileStatement"
  | .forStatement => c!"ForStatement"
  | .forInStatement => c!"ForInStatement"
  | .forOfStatement => c!"ForOfStatement"
  | .blockStatement => c!"BlockStatement"
  | .returnStatement => c!"ReturnStatement"
  | .labeledStatement => c!"LabeledStatement"
  | .breakStatement => c!"BreakStatement"
  | .continueStatement => c!"ContinueStatement"
  | .switchStatement => c!"SwitchStatement"
  | .withStatement => c!"WithStatement"
  | .throwStatement => c!"ThrowStatement"
  | .debuggerStatement => c!"DebuggerStatement"
  | .tryStatement => c!"TryStatement"

/-- tag.rs:67-106: the strings that `Tag::from_str` knows. -/
def tagTable : List (Str × Tag) := [
  (c!"Identifier", .identifier),
  (c!"Literal", .literal),
  (c!"BinaryExpression", .binaryExpression),
  (c!"AssignmentExpression", .assignmentExpression),
  (c!"LogicalExpression", .logicalExpression),
  (c!"UnaryExpression", .unaryExpression),
  (c!"UpdateExpression", .updateExpression),
  (c!"MemberExpression", .memberExpression),
  (c!"CallExpression", .callExpression),
  (c!"NewExpression", .newExpression),
  (c!"ArrayExpression", .arrayExpression),
  (c!"FunctionExpression", .functionExpression),
  (c!"SequenceExpression", .sequenceExpression),
  (c!"ObjectExpression", .objectExpression),
  (c!"ConditionalExpression", .conditionalExpression),
  (c!"ThisExpression", .thisExpression),
  (c!"MetaProperty", .metaProperty),
  (c!"FunctionDeclaration", .functionDeclaration),
  (c!"VariableDeclaration", .variableDeclaration),
  (c!"SpreadElement", .spreadElement),
  (c!"RestElement", .restElement),
  (c!"EmptyStatement", .emptyStatement),
  (c!"ExpressionStatement", .expressionStatement),
  (c!"IfStatement", .ifStatement),
  (c!"DoWhileStatement", .doWhileStatement),
  (c!"WhileStatement", .whileStatement),
  (c!"ForStatement", .forStatement),
  (c!"ForInStatement", .forInStatement),
  (c!"ForOfStatement", .forOfStatement),
  (c!"BlockStatement", .blockStatement),
  (c!"ReturnStatement", .returnStatement),
  (c!"LabeledStatement", .labeledStatement),
  (c!"BreakStatement", .breakStatement),
  (c!"ContinueStatement", .continueStatement),
  (c!"SwitchStatement", .switchStatement),
  (c!"WithStatement", .withStatement),
  (c!"ThrowStatement", .throwStatement),
  (c!"DebuggerStatement", .debuggerStatement),
  (c!"TryStatement", .tryStatement)]


/-- error.rs:13-20 `Error`. -/
inductive EError where
  | json (e : JsonError)
  | invalidTypeTag (s : Str)
  | nodeTypeMismatch (expected : Str) (actual : Tag)
  | unexpectedInitializer (e : Expr)
  | invalidLHS (name : Str)
  | uninitializedPattern (p : PattId)

/-- result.rs:4 `Result<T>`; also a panic. -/
abbrev Result (α : Type) := Res EError α

/-- error.rs:52-56 `From<unjson::error::Error> for Error`, applied by `?`. -/
def ofJson {α : Type} : JsonResult α → Result α
  | .ok a => .ok a
  | .error e => .err (.json e)

/-- error.rs:58-60 `type_error`. -/
def typeError {α : Type} (expected : Str) (actual : Ty) : Result α :=
  ofJson (Esprit.typeError expected actual)

/-- error.rs:66-68 `array_error`. -/
def arrayError {α : Type} (expected actual : Nat) : Result α :=
  .err (.json (.wrongArrayLength expected actual))

/-- error.rs:74-76 `string_error`. -/
def stringError {α : Type} (expected actual : Str) : Result α :=
  .err (.json (.illegalString expected actual))

/-- error.rs:82-84 `node_type_error`. -/
def nodeTypeError {α : Type} (expected : Str) (actual : Tag) : Result α :=
  .err (.nodeTypeMismatch expected actual)

/-- A computation with a `&mut Object` receiver.  (After an error every caller
drops the object.) -/
def J (α : Type) : Type := Object → Result (α × Object)

instance : Monad J where
  pure a := fun o => .ok (a, o)
  bind x f := fun o => (x o).bind fun r => f r.1 r.2

/-- A computation that does not use the receiver. -/
def lift {α : Type} (x : Result α) : J α := fun o => x.map fun a => (a, o)

/-- An extraction with `?`. -/
def extract {α : Type} (f : Object → JsonResult α × Object) : J α :=
  fun o => (ofJson (f o).1).map fun a => (a, (f o).2)

/-- The result of a computation whose receiver is then dropped. -/
def J.run {α : Type} (x : J α) (o : Object) : Result α := (x o).map (·.1)

/-- result.rs:10-18 `Map for Vec<T>`. -/
def mapList {α β : Type} (f : α → Result β) : List α → Result (List β)
  | [] => .ok []
  | a :: as => (f a).bind fun b => (mapList f as).bind fun bs => .ok (b :: bs)

/-- tag.rs:63-110 `FromStr for Tag`. -/
def Tag.fromStr (s : Str) : Option Tag := (tagTable.find? fun e => e.1 = s).map (·.2)

/-- tag.rs:116-122 `TagOf for Object`. -/
def tag (o : Object) : Result Tag :=
  (ofJson (o.getString c!"type")).bind fun str =>
    match Tag.fromStr str with
    | some t => .ok t
    | none => .err (.invalidTypeTag str)

/-- The recursive functions. -/
structure Rec where
  /-- expr.rs:25-140 `into_expr`. -/
  expr : Object → Result Expr
  /-- stmt.rs:120-241 `into_stmt_list_item`. -/
  item : Object → Bool → Result StmtListItem

/-! ### Literals and identifiers -/

/-- lit.rs:7-14 `IntoStringLiteral for String`. -/
def stringLiteral (s : Str) : StringLiteral := ⟨none, s⟩

/-- Rust `u64::to_string`. -/
def natToString (n : Nat) : Str := Nat.toDigits 10 n

/-- Rust `i64::to_string`. -/
def intToString : Int → Str
  | .ofNat n => natToString n
  | .negSucc n => '-' :: natToString (n + 1)

/-- lit.rs:20-27 `IntoNumberLiteral for i64`. -/
def i64Literal (i : Int) : NumberLiteral :=
  ⟨some (.decimalInt (intToString i) none), .ofInt i⟩

/-- lit.rs:29-36 `IntoNumberLiteral for u64`. -/
def u64Literal (n : Nat) : NumberLiteral :=
  ⟨some (.decimalInt (natToString n) none), .ofInt n⟩

/-- lit.rs:38-45 `IntoNumberLiteral for f64`. -/
def f64Literal (x : F64) : NumberLiteral := ⟨none, x⟩

/-- id.rs:15-24 `into_id`. -/
def intoId (o : Object) : Result Id :=
  (tag o).bind fun t =>
    if t ≠ .identifier then nodeTypeError c!"identifier" t
    else (ofJson (o.extractString c!"name").1).bind fun name => .ok ⟨none, .from name⟩

/-- patt.rs:13-15 `into_patt`. -/
def intoPatt (o : Object) : Result PattId := (intoId o).map fun i => .pSimple (.ident i)

/-- expr.rs:162-168: a regular expression literal. -/
def intoRegExp : J Expr := do
  let regex ← extract (Object.extractObject c!"regex")
  lift (J.run (do
    let pattern ← extract (Object.extractString c!"pattern")
    let flags ← extract (Object.extractString c!"flags")
    pure (.eRegExp none ⟨pattern, flags⟩)) regex)

/-- expr.rs:151-172 `into_lit`. -/
def intoLit : Object → Result Expr := J.run do
  let json ← extract (Object.extractField c!"value")
  let o ← (fun o => .ok (o, o) : J Object)
  match json with
  | .null => if !o.containsKey c!"regex" then pure (.eNull none) else intoRegExp
  | .bool true => pure (.eTrue none)
  | .bool false => pure (.eFalse none)
  | .string value => pure (.eString none (stringLiteral value))
  | .i64 v => pure (.eNumber none (i64Literal v))
  | .u64 v => pure (.eNumber none (u64Literal v))
  | .f64 v => pure (.eNumber none (f64Literal v))
  | .object _ => intoRegExp
  | .array _ => lift (typeError c!"null, number, boolean, string, or object" json.ty)

/-- obj.rs:50-60 `into_prop_key`. -/
def intoPropKey (o : Object) : Result PropKey :=
  (tag o).bind fun t =>
    if t = .identifier then (intoId o).bind fun i => .ok (.id none i.name.intoString)
    else (intoLit o).bind fun
      | .eNumber _ lit => .ok (.number none lit)
      | .eString _ lit => .ok (.string none lit)
      | _ => typeError c!"identifier, number literal, or string literal" .object

/-! ### Nodes in fields -/

/-- node.rs:55-57 `extract_id`. -/
def extractId (name : Str) : J Id := do
  let o ← extract (Object.extractObject name)
  lift (intoId o)

/-- node.rs:59-64 `extract_id_opt`. -/
def extractIdOpt (name : Str) : J (Option Id) := do
  match ← extract (Object.extractObjectOpt name) with
  | some o => return some (← lift (intoId o))
  | none => return none

/-- node.rs:137-139 `extract_patt`. -/
def extractPatt (name : Str) : J PattId := do
  let o ← extract (Object.extractObject name)
  lift (intoPatt o)

/-- node.rs:86-88 `extract_expr`. -/
def extractExpr (r : Rec) (name : Str) : J Expr := do
  let o ← extract (Object.extractObject name)
  lift (r.expr o)

/-- node.rs:90-95 `extract_expr_opt`. -/
def extractExprOpt (r : Rec) (name : Str) : J (Option Expr) := do
  match ← extract (Object.extractObjectOpt name) with
  | some o => return some (← lift (r.expr o))
  | none => return none

/-- node.rs:66-72 `extract_assign_target`. -/
def extractAssignTarget (r : Rec) (name : Str) : J AssignTarget := do
  let expr ← extractExpr r name
  match Cover.intoAssignTarget expr with
  | .ok t => pure t
  | .error _ => lift (.err (.invalidLHS name))

/-- node.rs:74-80 `extract_assign_patt`. -/
def extractAssignPatt (r : Rec) (name : Str) : J PattTarget := do
  let expr ← extractExpr r name
  match Cover.intoAssignPatt expr with
  | .ok p => pure p
  | .error _ => lift (.err (.invalidLHS name))

/-- stmt.rs:244-249 `into_stmt`. -/
def intoStmt (r : Rec) (o : Object) : Result Stmt :=
  (r.item o false).bind fun
    | .siStmt s => .ok s
    | _ => .panic .unreachable

/-- node.rs:82-84 `extract_stmt`. -/
def extractStmt (r : Rec) (name : Str) : J Stmt := do
  let o ← extract (Object.extractObject name)
  lift (intoStmt r o)

/-- node.rs:120-125 `extract_stmt_opt`. -/
def extractStmtOpt (r : Rec) (name : Str) : J (Option Stmt) := do
  match ← extract (Object.extractObjectOpt name) with
  | some o => return some (← lift (intoStmt r o))
  | none => return none

/-- node.rs:98-99 (and the like): the elements of an array, as objects. -/
def extractObjects (name : Str) : J (List Object) := do
  let list ← extract (Object.extractArray name)
  lift (mapList (fun v => ofJson v.intoObject) list)

/-- expr.rs:142-149 `into_expr_list_item`. -/
def intoExprListItem (r : Rec) (o : Object) : Result (Ast .item) :=
  (tag o).bind fun
    | .spreadElement => (J.run (extractExpr r c!"argument") o).bind fun e => .ok (.iSpread none e)
    | _ => (r.expr o).map .iExpr

/-- node.rs:97-101 `extract_expr_list`. -/
def extractExprList (r : Rec) (name : Str) : J (Ast (.list .item)) := do
  let objs ← extractObjects name
  return Ast.ofList (← lift (mapList (intoExprListItem r) objs))

/-- node.rs:104-108 `extract_exprs`. -/
def extractExprs (r : Rec) (name : Str) : J (Ast (.list .expr)) := do
  let objs ← extractObjects name
  return Ast.ofList (← lift (mapList r.expr objs))

/-- node.rs:110-118 `extract_expr_opt_list`. -/
def extractExprOptList (r : Rec) (name : Str) : J (Ast (.list (.opt .item))) := do
  let list ← extract (Object.extractArray name)
  return Ast.ofList (← lift (mapList (fun v =>
    (ofJson v.intoObjectOpt).bind fun
      | none => .ok .none
      | some o => (intoExprListItem r o).map .some) list))

/-- node.rs:127-131 `extract_stmt_list`. -/
def extractStmtList (r : Rec) (name : Str) : J (List StmtListItem) := do
  let objs ← extractObjects name
  lift (mapList (fun o => r.item o true) objs)

/-- stmt.rs:267-275 `into_block`. -/
def intoBlock (r : Rec) (o : Object) : Result (Ast .block) :=
  (tag o).bind fun
    | .blockStatement =>
      (J.run (extractStmtList r c!"body") o).bind fun items => .ok (.block none (Ast.ofList items))
    | t => nodeTypeError c!"block statement" t

/-- node.rs:133-135 `extract_block`. -/
def extractBlock (r : Rec) (name : Str) : J (Ast .block) := do
  let o ← extract (Object.extractObject name)
  lift (intoBlock r o)

/-- node.rs:144-154: split off a rest parameter. -/
def splitRestParam (objs : List Object) : Result (List Object × Ast (.opt (.rest .id))) :=
  match objs.getLast? with
  | some last => (tag last).bind fun t =>
      if t = .restElement then
        (J.run (extractPatt c!"argument") last).bind fun p =>
          .ok (objs.dropLast, .some (.restPatt none p))
      else .ok (objs, .none)
  | none => .ok (objs, .none)

/-- node.rs:141-160 `extract_params`: the patterns and the rest parameter. -/
def extractParams (name : Str) : J (List PattId × Ast (.opt (.rest .id))) := do
  let objs ← extractObjects name
  let s ← lift (splitRestParam objs)
  return (← lift (mapList intoPatt s.1), s.2)

/-- easter stmt.rs:51-56 and 153-158 `is_directive`. -/
def isDirective : StmtListItem → Bool
  | .siStmt (.sExpr _ (.eString _ _) _) => true
  | _ => false

/-- easter stmt.rs:58-67 and 160-165 `to_directive`. -/
def toDirective : StmtListItem → Option Dir
  | .siStmt (.sExpr location (.eString _ s) semi) => some ⟨location, s, semi⟩
  | _ => none

/-- node.rs:45-52 `split_prefix`: what is left in the vector, and the result. -/
def splitPrefix {α : Type} (p : α → Bool) (v : List α) : List α × List α :=
  match v.findIdx? (fun x => !p x) with
  | some i => (v.take i, v.drop i)
  | none => (v, [])

/-- node.rs:187-198 `extract_script`. -/
def extractScript (r : Rec) (name : Str) : J Script := do
  let list ← extractStmtList r name
  let (list, items) := splitPrefix isDirective list
  let prolog := list.filterMap toDirective
  pure (.body none prolog (Ast.ofList items))

/-- The fields of a `Fun` (fun.rs of easter) other than its name. -/
structure FunParts where
  params : List PattId
  rest : Ast (.opt (.rest .id))
  body : Script
  generator : Bool

/-- fun.rs:13-19 `into_fun`, up to the name. -/
def intoFunParts (r : Rec) : Object → Result FunParts := J.run do
  let generator := (← extract (Object.extractBoolOpt c!"generator")).getD false
  let (params, rest) ← extractParams c!"params"
  let obj ← extract (Object.extractObject c!"body")
  let body ← lift (J.run (extractScript r c!"body") obj)
  pure ⟨params, rest, body, generator⟩

/-- fun.rs:13-19 `into_fun`. -/
def intoFun (r : Rec) {c : Cat} (id : Ast c) (o : Object) : Result (Ast (.func c)) :=
  (intoFunParts r o).map fun f =>
    .func none id (.params none (Ast.ofList f.params) f.rest) f.body f.generator

/-- obj.rs:20-48 `into_prop`. -/
def intoProp (r : Rec) : Object → Result (Ast .prop) := J.run do
  let key ← extract (Object.extractObject c!"key")
  let val ← extract (Object.extractObject c!"value")
  let kind ← extract (Object.extractString c!"kind")
  if kind = c!"init" then
    if ← extract (Object.extractBool c!"method") then
      let k ← lift (intoPropKey key)
      return .prMethod (← lift (intoFun r (.key k) val))
    else if ← extract (Object.extractBool c!"shorthand") then
      return .prShorthand (← lift (intoId key))
    else
      let v ← lift (r.expr val)
      return .prRegular none (← lift (intoPropKey key)) (.vInit v)
  else if kind = c!"get" then
    let body ← lift (J.run (extract (Object.extractObject c!"body")) val)
    let b ← lift (J.run (extractScript r c!"body") body)
    return .prRegular none (← lift (intoPropKey key)) (.vGet none b)
  else if kind = c!"set" then
    let f ← lift (intoFunParts r val)
    if f.params.length ≠ 1 then lift (arrayError 1 f.params.length)
    else match f.params with
      | param :: _ => return .prRegular none (← lift (intoPropKey key)) (.vSet none param f.body)
      | [] => lift (.panic .unwrapNone)
  else lift (typeError c!"'init', 'get', or 'set'" .string)

/-- node.rs:162-166 `extract_prop_list`. -/
def extractPropList (r : Rec) (name : Str) : J (Ast (.list .prop)) := do
  let objs ← extractObjects name
  return Ast.ofList (← lift (mapList (intoProp r) objs))

/-- easter decl.rs:66-76 `Dtor::from_init_opt`; `none` is `Err(lhs)`. -/
def dtorFromInitOpt (lhs : PattId) (rhs : Option Expr) : Option (Ast .dtor) :=
  match lhs, rhs with
  | .pSimple (.ident i), rhs => some (.dtSimple i.location i (Ast.ofOption rhs))
  | .pCompound _, none => none
  | .pCompound p, some rhs => some (Dtor.fromCompoundInit p rhs)

/-- decl.rs:14-18 `into_dtor`. -/
def intoDtor (r : Rec) : Object → Result (Ast .dtor) := J.run do
  let lhs ← extractPatt c!"id"
  let init ← extractExprOpt r c!"init"
  match dtorFromInitOpt lhs init with
  | some d => pure d
  | none => lift (.err (.uninitializedPattern lhs))

/-- node.rs:168-172 `extract_dtor_list`. -/
def extractDtorList (r : Rec) (name : Str) : J (List (Ast .dtor)) := do
  let objs ← extractObjects name
  lift (mapList (intoDtor r) objs)

/-- decl.rs:28-38: one element of `into_const`. -/
def intoConstDtor : Ast .dtor → Result (Ast .constDtor)
  | .dtSimple _ i (.some e) => .ok (ConstDtor.fromInit (.pSimple (.ident i)) e)
  | .dtSimple _ i .none => .err (.uninitializedPattern (.pSimple (.ident i)))
  | .dtCompound _ p e => .ok (ConstDtor.fromInit (.pCompound p) e)

/-- decl.rs:26-40 `into_const`. -/
def intoConst (ds : List (Ast .dtor)) : Result (List (Ast .constDtor)) := mapList intoConstDtor ds

/-! ### Expressions -/

/-- Rust `str.parse()` for an operator, easter punc.rs:54-63. -/
def parseOp {T : Type} (fromStr : Str → Option T) (expected str : Str) : Result (Op T) :=
  match fromStr str with
  | some t => .ok ⟨none, t⟩
  | none => stringError expected str

/-- expr.rs:25-140 `into_expr`. -/
def intoExpr (r : Rec) (o : Object) : Result Expr :=
  (tag o).bind fun tag => match tag with
    | .identifier => (intoId o).map .eId
    | .literal => intoLit o
    | .binaryExpression => J.run (do
        let str ← extract (Object.extractString c!"operator")
        let op ← lift (parseOp BinopTag.fromStr c!"binary operator" str)
        let left ← extractExpr r c!"left"
        let right ← extractExpr r c!"right"
        pure (.eBinop none op left right)) o
    | .assignmentExpression => J.run (do
        let str ← extract (Object.extractString c!"operator")
        let right ← extractExpr r c!"right"
        if str = c!"=" then
          return .eAssign none (← extractAssignPatt r c!"left") right
        else
          let op ← lift (parseOp AssopTag.fromStr c!"assignment operator" str)
          return .eBinAssign none op (← extractAssignTarget r c!"left") right) o
    | .logicalExpression => J.run (do
        let str ← extract (Object.extractString c!"operator")
        let op ← lift (parseOp LogopTag.fromStr c!"logical operator" str)
        let left ← extractExpr r c!"left"
        let right ← extractExpr r c!"right"
        pure (.eLogop none op left right)) o
    | .unaryExpression => J.run (do
        let str ← extract (Object.extractString c!"operator")
        let op ← lift (parseOp UnopTag.fromStr c!"unary operator" str)
        let arg ← extractExpr r c!"argument"
        pure (.eUnop none op arg)) o
    | .updateExpression => J.run (do
        let op ← extract (Object.extractString c!"operator")
        let arg ← extractAssignTarget r c!"argument"
        let pre ← extract (Object.extractBool c!"prefix")
        if op = c!"++" then
          if pre then pure (.ePreInc none arg) else pure (.ePostInc none arg)
        else if op = c!"--" then
          if pre then pure (.ePreDec none arg) else pure (.ePostDec none arg)
        else lift (stringError c!"'++' or '--'" op)) o
    | .memberExpression => J.run (do
        let obj ← extractExpr r c!"object"
        if ← extract (Object.extractBool c!"computed") then
          return .eBrack none obj (← extractExpr r c!"property")
        else
          let id ← extractId c!"property"
          return .eDot none obj ⟨none, id.name.intoString⟩) o
    | .callExpression => J.run (do
        let callee ← extractExpr r c!"callee"
        let args ← extractExprList r c!"arguments"
        pure (.eCall none callee args)) o
    | .newExpression => J.run (do
        let callee ← extractExpr r c!"callee"
        let args ← extractExprList r c!"arguments"
        pure (.eNew none callee (.some args))) o
    | .arrayExpression => J.run (do
        let elts ← extractExprOptList r c!"elements"
        pure (.eArr none elts)) o
    | .functionExpression => J.run (do
        let id ← extractIdOpt c!"id"
        let o ← (fun o => .ok (o, o) : J Object)
        return .eFun (← lift (intoFun r (Ast.ofOption (id.map .ident)) o))) o
    | .sequenceExpression => J.run (do
        let exprs ← extractExprs r c!"expressions"
        pure (.eSeq none exprs)) o
    | .objectExpression => J.run (do
        let props ← extractPropList r c!"properties"
        pure (.eObj none props)) o
    | .conditionalExpression => J.run (do
        let test ← extractExpr r c!"test"
        let cons ← extractExpr r c!"consequent"
        let alt ← extractExpr r c!"alternate"
        pure (.eCond none test cons alt)) o
    | .thisExpression => .ok (.eThis none)
    | .metaProperty => J.run (do
        let meta1 := (← extractId c!"meta").name.intoString
        let prop := (← extractId c!"property").name.intoString
        if meta1 = c!"new" ∧ prop = c!"target" then pure (.eNewTarget none)
        else lift (stringError c!"new.target" (meta1 ++ c!"." ++ prop))) o
    | _ => nodeTypeError c!"expression" tag

/-! ### Statements -/

/-- stmt.rs:22-36 `into_for_head`. -/
def intoForHead (r : Rec) (o : Object) : Result (Ast .forHead) :=
  (tag o).bind fun
    | .variableDeclaration => J.run (do
        let dtors ← extractDtorList r c!"declarations"
        let kind ← extract (Object.extractString c!"kind")
        if kind = c!"var" then pure (.fhVar none (Ast.ofList dtors))
        else if kind = c!"let" then pure (.fhLet none (Ast.ofList dtors))
        else if kind = c!"const" then
          return .fhConst none (Ast.ofList (← lift (intoConst dtors)))
        else lift (stringError c!"var or let" kind)) o
    | _ => (r.expr o).map (.fhExpr none)

/-- stmt.rs:55-66: the `match` at the end of the first branch of `into_for_in_head`. -/
def forInHead (kind : Str) (lhs : PattId) (init : Option Expr) : Result (Ast .forInHead) :=
  match lhs, init with
  | .pSimple (.ident i), some init =>
    if kind = c!"var" then .ok (.fiVarInit none i init)
    else .err (.unexpectedInitializer init)
  | .pCompound _, some init => .err (.unexpectedInitializer init)
  | lhs, none =>
    if kind = c!"var" then .ok (.fiVar none lhs)
    else if kind = c!"let" then .ok (.fiLet none lhs)
    else if kind = c!"const" then .ok (.fiConst none lhs)
    else stringError c!"var or let" kind

/-- stmt.rs:44-76 `into_for_in_head`. -/
def intoForInHead (r : Rec) (o : Object) : Result (Ast .forInHead) :=
  (tag o).bind fun
    | .variableDeclaration => J.run (do
        let dtors ← extract (Object.extractArray c!"declarations")
        let kind ← extract (Object.extractString c!"kind")
        match dtors with
        | [d] => do
          let obj ← lift (ofJson d.intoObject)
          lift (J.run (do
            let lhs ← extractPatt c!"id"
            let init ← extractExprOpt r c!"init"
            lift (forInHead kind lhs init)) obj)
        | _ => lift (arrayError 1 dtors.length)) o
    | _ => (r.expr o).bind fun expr =>
        match Cover.intoAssignPatt expr with
        | .ok patt => .ok (.fiPatt patt)
        | .error _ => .err (.invalidLHS c!"left")

/-- stmt.rs:84-109 `into_for_of_head`. -/
def intoForOfHead (r : Rec) (o : Object) : Result (Ast .forOfHead) :=
  (tag o).bind fun
    | .variableDeclaration => J.run (do
        let dtors ← extract (Object.extractArray c!"declarations")
        let kind ← extract (Object.extractString c!"kind")
        match dtors with
        | [d] => do
          let obj ← lift (ofJson d.intoObject)
          let lhs ← lift (J.run (extractPatt c!"id") obj)
          if kind = c!"var" then pure (.foVar none lhs)
          else if kind = c!"let" then pure (.foLet none lhs)
          else if kind = c!"const" then pure (.foConst none lhs)
          else lift (stringError c!"var or let" kind)
        | _ => lift (arrayError 1 dtors.length)) o
    | _ => (r.expr o).bind fun expr =>
        match Cover.intoAssignPatt expr with
        | .ok patt => .ok (.foPatt patt)
        | .error _ => .err (.invalidLHS c!"left")

/-- stmt.rs:255-259 `into_case`. -/
def intoCase (r : Rec) : Object → Result (Ast .case) := J.run do
  let test ← extractExprOpt r c!"test"
  let body ← extractStmtList r c!"consequent"
  pure (.caseClause none (Ast.ofOption test) (Ast.ofList body))

/-- node.rs:174-178 `extract_case_list`. -/
def extractCaseList (r : Rec) (name : Str) : J (Ast (.list .case)) := do
  let objs ← extractObjects name
  return Ast.ofList (← lift (mapList (intoCase r) objs))

/-- stmt.rs:261-265 `into_catch`. -/
def intoCatch (r : Rec) : Object → Result (Ast .«catch») := J.run do
  let param ← extractPatt c!"param"
  let body ← extractBlock r c!"body"
  pure (.catchClause none param body)

/-- node.rs:180-185 `extract_catch_opt`. -/
def extractCatchOpt (r : Rec) (name : Str) : J (Option (Ast .«catch»)) := do
  match ← extract (Object.extractObjectOpt name) with
  | some o => return some (← lift (intoCatch r o))
  | none => return none

/-- stmt.rs:172-175: the head of a `for` statement. -/
def extractForHeadOpt (r : Rec) (name : Str) : J (Option (Ast .forHead)) := do
  match ← extract (Object.extractObjectOpt name) with
  | some o => return some (← lift (intoForHead r o))
  | none => return none

/-- stmt.rs:233-236: the `finally` block of a `try` statement. -/
def extractBlockOpt (r : Rec) (name : Str) : J (Option (Ast .block)) := do
  match ← extract (Object.extractObjectOpt name) with
  | some o => return some (← lift (intoBlock r o))
  | none => return none

/-- The semicolon of every converted statement, `Semi::Explicit(None)`. -/
def semi : Semi := .explicit none

/-- stmt.rs:120-241 `into_stmt_list_item`. -/
def intoItem (r : Rec) (o : Object) (allowDecl : Bool) : Result StmtListItem :=
  (tag o).bind fun tag =>
    let stmt (x : J Stmt) : Result StmtListItem := (J.run x o).map .siStmt
    match tag with
    | .functionDeclaration =>
      if !allowDecl then nodeTypeError c!"statement" tag
      else J.run (do
        let id ← extractId c!"id"
        let o ← (fun o => .ok (o, o) : J Object)
        return .siDecl (.dFun (← lift (intoFun r (.ident id) o)))) o
    | .variableDeclaration => J.run (do
        let dtors ← extractDtorList r c!"declarations"
        let kind ← extract (Object.extractString c!"kind")
        if kind = c!"var" then pure (.siStmt (.sVar none (Ast.ofList dtors) semi))
        else if kind = c!"let" then
          if !allowDecl then lift (stringError c!"var" kind)
          else pure (.siDecl (.dLet none (Ast.ofList dtors) semi))
        else if kind = c!"const" then
          if !allowDecl then lift (stringError c!"var" kind)
          else return .siDecl (.dConst none (Ast.ofList (← lift (intoConst dtors))) semi)
        else lift (stringError c!"var or let" kind)) o
    | .emptyStatement => .ok (.siStmt (.sEmpty none))
    | .expressionStatement => stmt do
        let expr ← extractExpr r c!"expression"
        pure (.sExpr none expr semi)
    | .ifStatement => stmt do
        let test ← extractExpr r c!"test"
        let cons ← extractStmt r c!"consequent"
        let alt ← extractStmtOpt r c!"alternate"
        pure (.sIf none test cons (Ast.ofOption alt))
    | .doWhileStatement => stmt do
        let body ← extractStmt r c!"body"
        let test ← extractExpr r c!"test"
        pure (.sDoWhile none body test semi)
    | .whileStatement => stmt do
        let test ← extractExpr r c!"test"
        let body ← extractStmt r c!"body"
        pure (.sWhile none test body)
    | .forStatement => stmt do
        let init ← extractForHeadOpt r c!"init"
        let test ← extractExprOpt r c!"test"
        let update ← extractExprOpt r c!"update"
        let body ← extractStmt r c!"body"
        pure (.sFor none (Ast.ofOption init) (Ast.ofOption test) (Ast.ofOption update) body)
    | .forInStatement => stmt do
        let obj ← extract (Object.extractObject c!"left")
        let left ← lift (intoForInHead r obj)
        let right ← extractExpr r c!"right"
        let body ← extractStmt r c!"body"
        pure (.sForIn none left right body)
    | .forOfStatement => stmt do
        let obj ← extract (Object.extractObject c!"left")
        let left ← lift (intoForOfHead r obj)
        let right ← extractExpr r c!"right"
        let body ← extractStmt r c!"body"
        pure (.sForOf none left right body)
    | .blockStatement => (intoBlock r o).map fun b => .siStmt (.sBlock b)
    | .returnStatement => stmt do
        let arg ← extractExprOpt r c!"argument"
        pure (.sReturn none (Ast.ofOption arg) semi)
    | .labeledStatement => stmt do
        let label ← extractId c!"label"
        let body ← extractStmt r c!"body"
        pure (.sLabel none label body)
    | .breakStatement => stmt do
        let label ← extractIdOpt c!"label"
        pure (.sBreak none label semi)
    | .continueStatement => stmt do
        let label ← extractIdOpt c!"label"
        pure (.sCont none label semi)
    | .switchStatement => stmt do
        let disc ← extractExpr r c!"discriminant"
        let cases ← extractCaseList r c!"cases"
        pure (.sSwitch none disc cases)
    | .withStatement => stmt do
        let obj ← extractExpr r c!"object"
        let body ← extractStmt r c!"body"
        pure (.sWith none obj body)
    | .throwStatement => stmt do
        let arg ← extractExpr r c!"argument"
        pure (.sThrow none arg semi)
    | .debuggerStatement => .ok (.siStmt (.sDebugger none semi))
    | .tryStatement => stmt do
        let body ← extractBlock r c!"block"
        let handler ← extractCatchOpt r c!"handler"
        let finalizer ← extractBlockOpt r c!"finalizer"
        pure (.sTry none body (Ast.ofOption handler) (Ast.ofOption finalizer))
    | _ => nodeTypeError (if allowDecl then c!"statement or declaration" else c!"statement") tag

/-- The recursive functions, unfolded `n` times. -/
def recOf : Nat → Rec
  | 0 => ⟨fun _ => .fuel, fun _ _ => .fuel⟩
  | n + 1 => ⟨intoExpr (recOf n), intoItem (recOf n)⟩

mutual

/-- Nesting depth of a JSON value. -/
def depth : Json → Nat
  | .array xs => depthList xs + 1
  | .object o => depthFields o + 1
  | _ => 0

/-- Nesting depth of the elements of an array. -/
def depthList : List Json → Nat
  | [] => 0
  | x :: xs => max (depth x) (depthList xs)

/-- Nesting depth of the fields of an object. -/
def depthFields : List (Str × Json) → Nat
  | [] => 0
  | x :: xs => max (depth x.2) (depthFields xs)

end

/-- prog.rs:11-13 `into_script`; the recursion budget is the depth of the object. -/
def intoScript (o : Object) : Result Script :=
  J.run (extractScript (recOf (depthFields o)) c!"body") o

end Estree

end Esprit
