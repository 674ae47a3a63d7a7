import Verif.Model.Unjson
import Verif.Spec.Tree
import Verif.Spec.Ast

/-!
Specification of the ESTree format (https://github.com/estree/estree, the parts up
to ES6 that have a counterpart in the syntax tree): which JSON values encode a
syntax tree.  Fields may come in any order, and there may be further fields (such
as `loc`, `range` or `raw`).  Locations, and the source text of literals, are not
part of the encoding.
-/

namespace Esprit

namespace Estree

/-- The field `name` is present and its value satisfies `P`. -/
def Field (o : Object) (name : Str) (P : Json → Prop) : Prop := ∃ j, o.get name = some j ∧ P j

/-- A node of the given type. -/
def NodeOf (type : Str) (j : Json) (P : Object → Prop) : Prop :=
  ∃ o : Object, j = .object o ∧ o.get c!"type" = some (.string type) ∧ P o

/-- An identifier with the given name. -/
def EncName (s : Str) (j : Json) : Prop :=
  NodeOf c!"Identifier" j fun o => o.get c!"name" = some (.string s)

/-- An identifier.  (A name that is the text of a keyword-like atom is represented
by that atom, as it is by the lexer.) -/
def EncId (i : Id) (j : Json) : Prop := EncName i.name.intoString j ∧ i.name = .from i.name.intoString

/-- An optional identifier. -/
def EncIdOpt : Option Id → Json → Prop
  | none, j => j = .null
  | some i, j => EncId i j

/-- A number. -/
def EncNumber (v : F64) : Json → Prop
  | .i64 i => SameNumber (.ofInt i) v
  | .u64 n => SameNumber (.ofInt n) v
  | .f64 x => SameNumber x v
  | _ => False

/-- A literal whose value satisfies `P`. -/
def EncLiteral (j : Json) (P : Json → Prop) : Prop :=
  NodeOf c!"Literal" j fun o => Field o c!"value" P ∧ o.get c!"regex" = none

/-- A property key. -/
def EncKey : PropKey → Json → Prop
  | .id _ s, j => EncName s j
  | .string _ s, j => EncLiteral j fun v => v = .string s.value
  | .number _ n, j => EncLiteral j (EncNumber n.value)

/-- The text of a unary operator. -/
def unopText : UnopTag → Str
  | .minus => c!"-"
  | .plus => c!"+"
  | .not => c!"!"
  | .bitNot => c!"~"
  | .typeof => c!"typeof"
  | .void => c!"void"
  | .delete => c!"delete"

/-- The name of a function expression or declaration is encoded by `j`. -/
def EncFunName {c : Cat} : Ast (.func c) → Json → Prop
  | .func _ (.ident i) _ _ _, j => EncId i j
  | .func _ (.some (.ident i)) _ _ _, j => EncId i j
  | .func _ .none _ _ _, j => j = .null
  | _, _ => False

/-- The key of a method is encoded by `j`. -/
def EncMethodKey : Ast (.func .propKey) → Json → Prop
  | .func _ (.key k) _ _ _, j => EncKey k j

/-- Directives: expression statements that consist of a string literal. -/
def EncDirs : List Dir → List Json → Prop
  | [], js => js = []
  | d :: ds, js => ∃ j js', js = j :: js' ∧
      (NodeOf c!"ExpressionStatement" j fun o =>
        Field o c!"expression" fun e => EncLiteral e fun v => v = .string d.string.value) ∧
      EncDirs ds js'

/-- A property that is not a method, getter or setter. -/
def PlainProperty (o : Object) (shorthand : Bool) : Prop :=
  o.get c!"kind" = some (.string c!"init") ∧ o.get c!"method" = some (.bool false) ∧
    o.get c!"shorthand" = some (.bool shorthand) ∧ o.get c!"computed" = some (.bool false)

/-- An accessor property. -/
def AccessorProperty (o : Object) (kind : Str) : Prop :=
  o.get c!"kind" = some (.string kind) ∧ o.get c!"method" = some (.bool false) ∧
    o.get c!"shorthand" = some (.bool false) ∧ o.get c!"computed" = some (.bool false)

/-- An anonymous function expression that is not a generator. -/
def Accessor (j : Json) (P : Object → Prop) : Prop :=
  NodeOf c!"FunctionExpression" j fun o => o.get c!"id" = some .null ∧
    o.get c!"generator" = some (.bool false) ∧ P o

/-- A member expression. -/
def EncMember (j : Json) (computed : Bool) (object property : Json → Prop) : Prop :=
  NodeOf c!"MemberExpression" j fun o => Field o c!"object" object ∧
    o.get c!"computed" = some (.bool computed) ∧ Field o c!"property" property

/-- A variable declaration. -/
def EncVars (j : Json) (kind : Str) (declarations : Json → Prop) : Prop :=
  NodeOf c!"VariableDeclaration" j fun o => o.get c!"kind" = some (.string kind) ∧
    Field o c!"declarations" declarations

/-- A variable declarator. -/
def EncVar (j : Json) (id init : Json → Prop) : Prop :=
  NodeOf c!"VariableDeclarator" j fun o => Field o c!"id" id ∧ Field o c!"init" init

/-- A variable declaration with one declarator. -/
def EncOneVar (j : Json) (kind : Str) (id init : Json → Prop) : Prop :=
  EncVars j kind fun ds => ∃ d, ds = .array [d] ∧ EncVar d id init

/-- The body of a function: a block statement. -/
def EncBody (j : Json) (body : Json → Prop) : Prop :=
  NodeOf c!"BlockStatement" j fun o => Field o c!"body" body

/-- An update expression. -/
def EncUpdate (j : Json) (operator : Str) (pre : Bool) (argument : Json → Prop) : Prop :=
  NodeOf c!"UpdateExpression" j fun o => o.get c!"operator" = some (.string operator) ∧
    Field o c!"argument" argument ∧ o.get c!"prefix" = some (.bool pre)

/-- `Encodes x j`: the JSON value `j` encodes the syntax tree `x`.  A vector is
encoded by an array, `None` by `null`.  A body is encoded by the array of its
directives and items; a function, without its name, by the fields of a function
node; the value of a property by the fields of the property node. -/
def Encodes : {c : Cat} → Ast c → Json → Prop
  | _, .nil, j => j = .array []
  | _, .cons h t, j => ∃ jh jt, j = .array (jh :: jt) ∧ Encodes h jh ∧ Encodes t (.array jt)
  | _, .none, j => j = .null
  | _, .some x, j => Encodes x j
  | _, .ident i, j => EncId i j
  | _, .key k, j => EncKey k j
  | _, .iExpr e, j => Encodes e j
  | _, .iSpread _ e, j => NodeOf c!"SpreadElement" j fun o => Field o c!"argument" (Encodes e)
  | _, .eThis _, j => NodeOf c!"ThisExpression" j fun _ => True
  | _, .eId i, j => EncId i j
  | _, .eArr _ es, j => NodeOf c!"ArrayExpression" j fun o => Field o c!"elements" (Encodes es)
  | _, .eObj _ ps, j => NodeOf c!"ObjectExpression" j fun o => Field o c!"properties" (Encodes ps)
  | _, .eFun f, j => NodeOf c!"FunctionExpression" j fun o =>
      Field o c!"id" (EncFunName f) ∧ Encodes f j
  | _, .eSeq _ es, j => NodeOf c!"SequenceExpression" j fun o => Field o c!"expressions" (Encodes es)
  | _, .eUnop _ op e, j => NodeOf c!"UnaryExpression" j fun o =>
      o.get c!"operator" = some (.string (unopText op.tag)) ∧ o.get c!"prefix" = some (.bool true) ∧
      Field o c!"argument" (Encodes e)
  | _, .eBinop _ op a b, j => NodeOf c!"BinaryExpression" j fun o =>
      o.get c!"operator" = some (.string op.tag.display) ∧
      Field o c!"left" (Encodes a) ∧ Field o c!"right" (Encodes b)
  | _, .eLogop _ op a b, j => NodeOf c!"LogicalExpression" j fun o =>
      o.get c!"operator" = some (.string op.tag.display) ∧
      Field o c!"left" (Encodes a) ∧ Field o c!"right" (Encodes b)
  | _, .ePreInc _ t, j => EncUpdate j c!"++" true (Encodes t)
  | _, .ePostInc _ t, j => EncUpdate j c!"++" false (Encodes t)
  | _, .ePreDec _ t, j => EncUpdate j c!"--" true (Encodes t)
  | _, .ePostDec _ t, j => EncUpdate j c!"--" false (Encodes t)
  | _, .eAssign _ p e, j => NodeOf c!"AssignmentExpression" j fun o =>
      o.get c!"operator" = some (.string c!"=") ∧
      Field o c!"left" (Encodes p) ∧ Field o c!"right" (Encodes e)
  | _, .eBinAssign _ op t e, j => NodeOf c!"AssignmentExpression" j fun o =>
      o.get c!"operator" = some (.string op.tag.display) ∧
      Field o c!"left" (Encodes t) ∧ Field o c!"right" (Encodes e)
  | _, .eCond _ test thn alt, j => NodeOf c!"ConditionalExpression" j fun o =>
      Field o c!"test" (Encodes test) ∧ Field o c!"consequent" (Encodes thn) ∧
      Field o c!"alternate" (Encodes alt)
  | _, .eCall _ callee args, j => NodeOf c!"CallExpression" j fun o =>
      Field o c!"callee" (Encodes callee) ∧ Field o c!"arguments" (Encodes args)
  -- omitted arguments are encoded like an empty argument list
  | _, .eNew _ callee args, j => NodeOf c!"NewExpression" j fun o =>
      Field o c!"callee" (Encodes callee) ∧
      Field o c!"arguments" fun as => (as ≠ .null ∧ Encodes args as) ∨
        (as = .array [] ∧ Encodes args .null)
  | _, .eDot _ e k, j => EncMember j false (Encodes e) (EncName k.value)
  | _, .eBrack _ e prop, j => EncMember j true (Encodes e) (Encodes prop)
  | _, .eNewTarget _, j => NodeOf c!"MetaProperty" j fun o =>
      Field o c!"meta" (EncName c!"new") ∧ Field o c!"property" (EncName c!"target")
  | _, .eTrue _, j => EncLiteral j fun v => v = .bool true
  | _, .eFalse _, j => EncLiteral j fun v => v = .bool false
  | _, .eNull _, j => EncLiteral j fun v => v = .null
  | _, .eNumber _ n, j => EncLiteral j (EncNumber n.value)
  -- the value is a regular expression object, or null where there is none
  | _, .eRegExp _ r, j => NodeOf c!"Literal" j fun o =>
      Field o c!"value" (fun v => v = .null ∨ ∃ fields, v = .object fields) ∧
      Field o c!"regex" fun g => ∃ ro : Object, g = .object ro ∧
        ro.get c!"pattern" = some (.string r.pattern) ∧ ro.get c!"flags" = some (.string r.flags)
  | _, .eString _ s, j => EncLiteral j fun v => v = .string s.value
  | _, .tId i, j => EncId i j
  | _, .tDot _ e k, j => EncMember j false (Encodes e) (EncName k.value)
  | _, .tBrack _ e prop, j => EncMember j true (Encodes e) (Encodes prop)
  | _, .pSimple t, j => Encodes t j
  | _, .pCompound p, j => Encodes p j
  | _, .cArr _ es r, j => NodeOf c!"ArrayPattern" j fun o => Field o c!"elements" fun v =>
      ∃ js, Encodes es (.array js) ∧ ((Encodes r .null ∧ v = .array js) ∨
        ∃ jr, jr ≠ .null ∧ Encodes r jr ∧ v = .array (js ++ [jr]))
  | _, .cObj _ ps, j => NodeOf c!"ObjectPattern" j fun o => Field o c!"properties" (Encodes ps)
  | _, .restPatt _ p, j => NodeOf c!"RestElement" j fun o => Field o c!"argument" (Encodes p)
  | _, .ppRegular _ k p, j => NodeOf c!"Property" j fun o => PlainProperty o false ∧
      Field o c!"key" (EncKey k) ∧ Field o c!"value" (Encodes p)
  | _, .ppShorthand i, j => NodeOf c!"Property" j fun o => PlainProperty o true ∧
      Field o c!"key" (EncId i) ∧ Field o c!"value" (EncId i)
  | _, .prRegular _ k v, j => NodeOf c!"Property" j fun o => Field o c!"key" (EncKey k) ∧ Encodes v j
  | _, .prMethod f, j => NodeOf c!"Property" j fun o =>
      o.get c!"kind" = some (.string c!"init") ∧ o.get c!"method" = some (.bool true) ∧
      o.get c!"shorthand" = some (.bool false) ∧ o.get c!"computed" = some (.bool false) ∧
      Field o c!"key" (EncMethodKey f) ∧
      Field o c!"value" fun v =>
        (NodeOf c!"FunctionExpression" v fun ov => ov.get c!"id" = some .null) ∧ Encodes f v
  | _, .prShorthand i, j => NodeOf c!"Property" j fun o => PlainProperty o true ∧
      Field o c!"key" (EncId i) ∧ Field o c!"value" (EncId i)
  | _, .vInit e, j => NodeOf c!"Property" j fun o => PlainProperty o false ∧
      Field o c!"value" (Encodes e)
  | _, .vGet _ b, j => NodeOf c!"Property" j fun o => AccessorProperty o c!"get" ∧
      Field o c!"value" fun v => Accessor v fun ov => ov.get c!"params" = some (.array []) ∧
        Field ov c!"body" fun w => EncBody w (Encodes b)
  | _, .vSet _ p b, j => NodeOf c!"Property" j fun o => AccessorProperty o c!"set" ∧
      Field o c!"value" fun v => Accessor v fun ov =>
        (Field ov c!"params" fun ps => ∃ jp, ps = .array [jp] ∧ Encodes p jp) ∧
        Field ov c!"body" fun w => EncBody w (Encodes b)
  | _, .func _ _ ps b gen, j => ∃ o : Object, j = .object o ∧ o.get c!"generator" = some (.bool gen) ∧
      Field o c!"params" (Encodes ps) ∧ Field o c!"body" fun w => EncBody w (Encodes b)
  | _, .params _ ps r, j => ∃ js, Encodes ps (.array js) ∧ ((Encodes r .null ∧ j = .array js) ∨
      ∃ jr, jr ≠ .null ∧ Encodes r jr ∧ j = .array (js ++ [jr]))
  | _, .body _ dirs items, j => ∃ ds is, j = .array (ds ++ is) ∧ EncDirs dirs ds ∧
      Encodes items (.array is)
  | _, .siDecl d, j => Encodes d j
  | _, .siStmt s, j => Encodes s j
  -- modules are not encoded
  | _, .miImport _, _ => False
  | _, .miExport _, _ => False
  | _, .miItem _, _ => False
  | _, .importForEffect _ _, _ => False
  | _, .exportVar _ _ _, _ => False
  | _, .exportDecl _, _ => False
  | _, .dFun f, j => NodeOf c!"FunctionDeclaration" j fun o =>
      Field o c!"id" (EncFunName f) ∧ Encodes f j
  | _, .dLet _ ds _, j => EncVars j c!"let" (Encodes ds)
  | _, .dConst _ ds _, j => EncVars j c!"const" (Encodes ds)
  | _, .dtSimple _ i init, j => EncVar j (EncId i) (Encodes init)
  | _, .dtCompound _ p init, j => EncVar j (Encodes p) (Encodes init)
  | _, .constDtor _ p value, j => EncVar j (Encodes p) (Encodes value)
  | _, .block _ items, j => NodeOf c!"BlockStatement" j fun o => Field o c!"body" (Encodes items)
  | _, .sEmpty _, j => NodeOf c!"EmptyStatement" j fun _ => True
  | _, .sBlock b, j => Encodes b j
  | _, .sVar _ ds _, j => EncVars j c!"var" (Encodes ds)
  | _, .sExpr _ e _, j => NodeOf c!"ExpressionStatement" j fun o => Field o c!"expression" (Encodes e)
  | _, .sIf _ test thn alt, j => NodeOf c!"IfStatement" j fun o =>
      Field o c!"test" (Encodes test) ∧ Field o c!"consequent" (Encodes thn) ∧
      Field o c!"alternate" (Encodes alt)
  | _, .sLabel _ i s, j => NodeOf c!"LabeledStatement" j fun o =>
      Field o c!"label" (EncId i) ∧ Field o c!"body" (Encodes s)
  | _, .sBreak _ i _, j => NodeOf c!"BreakStatement" j fun o => Field o c!"label" (EncIdOpt i)
  | _, .sCont _ i _, j => NodeOf c!"ContinueStatement" j fun o => Field o c!"label" (EncIdOpt i)
  | _, .sWith _ obj s, j => NodeOf c!"WithStatement" j fun o =>
      Field o c!"object" (Encodes obj) ∧ Field o c!"body" (Encodes s)
  | _, .sSwitch _ disc cases, j => NodeOf c!"SwitchStatement" j fun o =>
      Field o c!"discriminant" (Encodes disc) ∧ Field o c!"cases" (Encodes cases)
  | _, .sReturn _ arg _, j => NodeOf c!"ReturnStatement" j fun o => Field o c!"argument" (Encodes arg)
  | _, .sThrow _ arg _, j => NodeOf c!"ThrowStatement" j fun o => Field o c!"argument" (Encodes arg)
  | _, .sTry _ b c f, j => NodeOf c!"TryStatement" j fun o =>
      Field o c!"block" (Encodes b) ∧ Field o c!"handler" (Encodes c) ∧
      Field o c!"finalizer" (Encodes f)
  | _, .sWhile _ test s, j => NodeOf c!"WhileStatement" j fun o =>
      Field o c!"test" (Encodes test) ∧ Field o c!"body" (Encodes s)
  | _, .sDoWhile _ s test _, j => NodeOf c!"DoWhileStatement" j fun o =>
      Field o c!"body" (Encodes s) ∧ Field o c!"test" (Encodes test)
  | _, .sFor _ head test update s, j => NodeOf c!"ForStatement" j fun o =>
      Field o c!"init" (Encodes head) ∧ Field o c!"test" (Encodes test) ∧
      Field o c!"update" (Encodes update) ∧ Field o c!"body" (Encodes s)
  | _, .sForIn _ head obj s, j => NodeOf c!"ForInStatement" j fun o =>
      Field o c!"left" (Encodes head) ∧ Field o c!"right" (Encodes obj) ∧
      Field o c!"body" (Encodes s)
  | _, .sForOf _ head obj s, j => NodeOf c!"ForOfStatement" j fun o =>
      Field o c!"left" (Encodes head) ∧ Field o c!"right" (Encodes obj) ∧
      Field o c!"body" (Encodes s)
  | _, .sDebugger _ _, j => NodeOf c!"DebuggerStatement" j fun _ => True
  | _, .fhVar _ ds, j => EncVars j c!"var" (Encodes ds)
  | _, .fhLet _ ds, j => EncVars j c!"let" (Encodes ds)
  | _, .fhConst _ ds, j => EncVars j c!"const" (Encodes ds)
  | _, .fhExpr _ e, j => Encodes e j
  | _, .fiVarInit _ i init, j => EncOneVar j c!"var" (EncId i) (Encodes init)
  | _, .fiVar _ p, j => EncOneVar j c!"var" (Encodes p) fun v => v = .null
  | _, .fiLet _ p, j => EncOneVar j c!"let" (Encodes p) fun v => v = .null
  | _, .fiConst _ p, j => EncOneVar j c!"const" (Encodes p) fun v => v = .null
  | _, .fiPatt p, j => Encodes p j
  | _, .foVar _ p, j => EncOneVar j c!"var" (Encodes p) fun v => v = .null
  | _, .foLet _ p, j => EncOneVar j c!"let" (Encodes p) fun v => v = .null
  | _, .foConst _ p, j => EncOneVar j c!"const" (Encodes p) fun v => v = .null
  | _, .foPatt p, j => Encodes p j
  | _, .catchClause _ p b, j => NodeOf c!"CatchClause" j fun o =>
      Field o c!"param" (Encodes p) ∧ Field o c!"body" (Encodes b)
  | _, .caseClause _ test items, j => NodeOf c!"SwitchCase" j fun o =>
      Field o c!"test" (Encodes test) ∧ Field o c!"consequent" (Encodes items)

/-- The object encodes the script. -/
def EncodesScript (x : Script) (o : Object) : Prop :=
  o.get c!"type" = some (.string c!"Program") ∧ Field o c!"body" (Encodes x)

/-- `Contains x y`: the node `y` occurs in the tree `x`. -/
inductive Contains : Node → Node → Prop where
  | here {x : Node} : Contains x x
  | under {x y z : Node} : y ∈ (x.2.kids .top).map (·.2) → Contains y z → Contains x z

/-- A statement that consists of a string literal. -/
def isStringStmt : {c : Cat} → Ast c → Bool
  | _, .siStmt (.sExpr _ (.eString _ _) _) => true
  | _, _ => false

/-- Neither a destructuring pattern, nor a body whose directives are followed by a
statement that consists of a string literal. -/
def plainNode : {c : Cat} → Ast c → Bool
  | _, .cArr _ _ _ => false
  | _, .cObj _ _ => false
  | _, .body _ _ (.cons h _) => !isStringStmt h
  | _, _ => true

/-- No destructuring pattern, and no body whose directives are followed by a statement
that consists of a string literal (such as a parenthesized string). -/
def Plain {c : Cat} (x : Ast c) : Prop := ∀ y, Contains ⟨c, x⟩ y → plainNode y.2 = true

end Estree

end Esprit
