import Verif.Model.Estree
import Verif.Spec.Estree
import Verif.Spec.Cover

/-!
Specification of what the ESTree conversion reads: `Reads x j` says that the tree
`x` is what the JSON value `j` says, field by field.

This is more liberal than `Encodes` (`Spec/Estree.lean`), which describes proper
ESTree: the fields `prefix` of a unary expression, `computed` of a property, the
value of a shorthand property, the parameters of a getter, the rest parameter of a setter, the initializer in the
head of a `for`-`of` loop and the node types of properties, declarators, clauses,
methods and function bodies are not looked at, and array and object literals may
stand for patterns on the left of an assignment.

Errors: `EError.Blames e j` says that the error `e` is true of the JSON value `j`.
-/

namespace Esprit

namespace Estree

/-- The node type of an object. -/
abbrev Typed (o : Object) (type : Str) : Prop := o.get c!"type" = some (.string type)

/-- The identifier without location with the given text. -/
def plainId (s : Str) : Id := ⟨none, .from s⟩

/-- An identifier node. -/
def ReadsId (i : Id) (j : Json) : Prop :=
  ∃ (o : Object) (s : Str), j = .object o ∧ Typed o c!"Identifier" ∧
    o.get c!"name" = some (.string s) ∧ i = plainId s

/-- The digits of an integer. -/
def digits : Int → Str
  | .ofNat n => Nat.toDigits 10 n
  | .negSucc n => '-' :: Nat.toDigits 10 (n + 1)

/-- A number: integers come with their digits. -/
inductive ReadsNumber : NumberLiteral → Json → Prop where
  | i64 {i : Int} : ReadsNumber ⟨some (.decimalInt (digits i) none), .ofInt i⟩ (.i64 i)
  | u64 {n : Nat} : ReadsNumber ⟨some (.decimalInt (Nat.toDigits 10 n) none), .ofInt n⟩ (.u64 n)
  | f64 {x : F64} : ReadsNumber ⟨none, x⟩ (.f64 x)

/-- The node types. -/
def nodeTypes : List Str := [
  c!"Identifier", c!"Literal", c!"BinaryExpression", c!"AssignmentExpression",
  c!"LogicalExpression", c!"UnaryExpression", c!"UpdateExpression", c!"MemberExpression",
  c!"CallExpression", c!"NewExpression", c!"ArrayExpression", c!"FunctionExpression",
  c!"SequenceExpression", c!"ObjectExpression", c!"ConditionalExpression", c!"ThisExpression",
  c!"MetaProperty", c!"FunctionDeclaration", c!"VariableDeclaration", c!"SpreadElement",
  c!"RestElement", c!"EmptyStatement", c!"ExpressionStatement", c!"IfStatement",
  c!"DoWhileStatement", c!"WhileStatement", c!"ForStatement", c!"ForInStatement",
  c!"ForOfStatement", c!"BlockStatement", c!"ReturnStatement", c!"LabeledStatement",
  c!"BreakStatement", c!"ContinueStatement", c!"SwitchStatement", c!"WithStatement",
  c!"ThrowStatement", c!"DebuggerStatement", c!"TryStatement"]

/-- A property key: an identifier, or (whatever its node type) a value that is a
number or a string. -/
inductive ReadsKey : PropKey → Json → Prop where
  | id {s : Str} {o : Object} : Typed o c!"Identifier" → o.get c!"name" = some (.string s) →
      ReadsKey (.id none s) (.object o)
  | number {n : NumberLiteral} {j : Json} {o : Object} {t : Str} : Typed o t → t ∈ nodeTypes →
      t ≠ c!"Identifier" → o.get c!"value" = some j → ReadsNumber n j →
      ReadsKey (.number none n) (.object o)
  | string {s : Str} {o : Object} {t : Str} : Typed o t → t ∈ nodeTypes →
      t ≠ c!"Identifier" → o.get c!"value" = some (.string s) →
      ReadsKey (.string none ⟨none, s⟩) (.object o)

/-- A node with the fields `regex.pattern` and `regex.flags`. -/
def HasRegExp (o : Object) (pattern flags : Str) : Prop :=
  ∃ ro : Object, o.get c!"regex" = some (.object ro) ∧
    ro.get c!"pattern" = some (.string pattern) ∧ ro.get c!"flags" = some (.string flags)

/-- The optional flag of generators: absent means `null`. -/
def ReadsFlag : Bool → Json → Prop
  | true, j => j = .bool true
  | false, j => j = .bool false ∨ j = .null

/-- A directive: an expression statement that is a string literal. -/
def ReadsDir (d : Dir) (j : Json) : Prop :=
  ∃ (o oe : Object) (s : Str), j = .object o ∧ Typed o c!"ExpressionStatement" ∧
    o.get c!"expression" = some (.object oe) ∧ Typed oe c!"Literal" ∧
    oe.get c!"value" = some (.string s) ∧ d = ⟨none, ⟨none, s⟩, .explicit none⟩

/-- The directives of a body. -/
inductive ReadsDirs : List Dir → List Json → Prop where
  | nil : ReadsDirs [] []
  | cons {d : Dir} {ds : List Dir} {j : Json} {js : List Json} :
      ReadsDir d j → ReadsDirs ds js → ReadsDirs (d :: ds) (j :: js)

/-- The array does not end with a rest element. -/
def NoRest (js : List Json) : Prop := ∀ j o, js.getLast? = some j → j = .object o → ¬Typed o c!"RestElement"

/-- `Reads x j`: the tree `x` is what the JSON value `j` says. -/
inductive Reads : {c : Cat} → Ast c → Json → Prop where
  -- lists, optional nodes, names
  | nil {c : Cat} : Reads (.nil : Ast (.list c)) (.array [])
  | cons {c : Cat} {x : Ast c} {xs : Ast (.list c)} {j : Json} {js : List Json} :
      Reads x j → Reads xs (.array js) → Reads (.cons x xs) (.array (j :: js))
  | none {c : Cat} : Reads (.none : Ast (.opt c)) .null
  | some {c : Cat} {x : Ast c} {j : Json} : Reads x j → Reads (.some x) j
  | ident {i : Id} {j : Json} : ReadsId i j → Reads (.ident i) j
  | key {k : PropKey} {j : Json} : ReadsKey k j → Reads (.key k) j
  -- expressions
  | iExpr {e : Expr} {j : Json} : Reads e j → Reads (.iExpr e) j
  | iSpread {e : Expr} {o : Object} {j : Json} : Typed o c!"SpreadElement" →
      o.get c!"argument" = .some j → Reads e j → Reads (.iSpread .none e) (.object o)
  | this {o : Object} : Typed o c!"ThisExpression" → Reads (.eThis .none) (.object o)
  | id {i : Id} {j : Json} : ReadsId i j → Reads (.eId i) j
  | arr {es : Ast (.list (.opt .item))} {o : Object} {j : Json} : Typed o c!"ArrayExpression" →
      o.get c!"elements" = .some j → Reads es j → Reads (.eArr .none es) (.object o)
  | obj {ps : Ast (.list .prop)} {o : Object} {j : Json} : Typed o c!"ObjectExpression" →
      o.get c!"properties" = .some j → Reads ps j → Reads (.eObj .none ps) (.object o)
  | fun {i : Ast (.opt .id)} {ps : Ast .params} {b : Script} {gen : Bool} {o : Object} {j : Json} :
      Typed o c!"FunctionExpression" → o.get c!"id" = .some j → Reads i j →
      Reads (.func .none i ps b gen) (.object o) →
      Reads (.eFun (.func .none i ps b gen)) (.object o)
  | seq {es : Ast (.list .expr)} {o : Object} {j : Json} : Typed o c!"SequenceExpression" →
      o.get c!"expressions" = .some j → Reads es j → Reads (.eSeq .none es) (.object o)
  | unop {t : UnopTag} {e : Expr} {o : Object} {j : Json} : Typed o c!"UnaryExpression" →
      o.get c!"operator" = .some (.string (unopText t)) → o.get c!"argument" = .some j →
      Reads e j → Reads (.eUnop .none ⟨.none, t⟩ e) (.object o)
  | binop {t : BinopTag} {a b : Expr} {o : Object} {ja jb : Json} : Typed o c!"BinaryExpression" →
      o.get c!"operator" = .some (.string t.display) →
      o.get c!"left" = .some ja → Reads a ja → o.get c!"right" = .some jb → Reads b jb →
      Reads (.eBinop .none ⟨.none, t⟩ a b) (.object o)
  | logop {t : LogopTag} {a b : Expr} {o : Object} {ja jb : Json} : Typed o c!"LogicalExpression" →
      o.get c!"operator" = .some (.string t.display) →
      o.get c!"left" = .some ja → Reads a ja → o.get c!"right" = .some jb → Reads b jb →
      Reads (.eLogop .none ⟨.none, t⟩ a b) (.object o)
  | preInc {t : AssignTarget} {o : Object} {j : Json} : Typed o c!"UpdateExpression" →
      o.get c!"operator" = .some (.string c!"++") → o.get c!"prefix" = .some (.bool true) →
      o.get c!"argument" = .some j → Reads (Patt.sourceTarget t) j →
      Reads (.ePreInc .none t) (.object o)
  | postInc {t : AssignTarget} {o : Object} {j : Json} : Typed o c!"UpdateExpression" →
      o.get c!"operator" = .some (.string c!"++") → o.get c!"prefix" = .some (.bool false) →
      o.get c!"argument" = .some j → Reads (Patt.sourceTarget t) j →
      Reads (.ePostInc .none t) (.object o)
  | preDec {t : AssignTarget} {o : Object} {j : Json} : Typed o c!"UpdateExpression" →
      o.get c!"operator" = .some (.string c!"--") → o.get c!"prefix" = .some (.bool true) →
      o.get c!"argument" = .some j → Reads (Patt.sourceTarget t) j →
      Reads (.ePreDec .none t) (.object o)
  | postDec {t : AssignTarget} {o : Object} {j : Json} : Typed o c!"UpdateExpression" →
      o.get c!"operator" = .some (.string c!"--") → o.get c!"prefix" = .some (.bool false) →
      o.get c!"argument" = .some j → Reads (Patt.sourceTarget t) j →
      Reads (.ePostDec .none t) (.object o)
  -- the left side is an expression, and `p` the pattern it stands for
  | assign {p : PattTarget} {e : Expr} {o : Object} {jp je : Json} :
      Typed o c!"AssignmentExpression" → o.get c!"operator" = .some (.string c!"=") →
      o.get c!"left" = .some jp → Patt.Assignable (Patt.sourceExpr p) →
      Reads (Patt.sourceExpr p) jp → o.get c!"right" = .some je → Reads e je →
      Reads (.eAssign .none p e) (.object o)
  | binAssign {t : AssopTag} {p : AssignTarget} {e : Expr} {o : Object} {jp je : Json} :
      Typed o c!"AssignmentExpression" → o.get c!"operator" = .some (.string t.display) →
      o.get c!"left" = .some jp → Reads (Patt.sourceTarget p) jp →
      o.get c!"right" = .some je → Reads e je →
      Reads (.eBinAssign .none ⟨.none, t⟩ p e) (.object o)
  | cond {a b c : Expr} {o : Object} {ja jb jc : Json} : Typed o c!"ConditionalExpression" →
      o.get c!"test" = .some ja → Reads a ja → o.get c!"consequent" = .some jb → Reads b jb →
      o.get c!"alternate" = .some jc → Reads c jc → Reads (.eCond .none a b c) (.object o)
  | call {e : Expr} {as : Ast (.list .item)} {o : Object} {je ja : Json} :
      Typed o c!"CallExpression" → o.get c!"callee" = .some je → Reads e je →
      o.get c!"arguments" = .some ja → Reads as ja → Reads (.eCall .none e as) (.object o)
  | new {e : Expr} {as : Ast (.list .item)} {o : Object} {je ja : Json} :
      Typed o c!"NewExpression" → o.get c!"callee" = .some je → Reads e je →
      o.get c!"arguments" = .some ja → Reads as ja → Reads (.eNew .none e (.some as)) (.object o)
  | dot {e : Expr} {s : Str} {o : Object} {je jk : Json} : Typed o c!"MemberExpression" →
      o.get c!"object" = .some je → Reads e je → o.get c!"computed" = .some (.bool false) →
      o.get c!"property" = .some jk → ReadsId (plainId s) jk →
      Reads (.eDot .none e ⟨.none, s⟩) (.object o)
  | brack {e p : Expr} {o : Object} {je jp : Json} : Typed o c!"MemberExpression" →
      o.get c!"object" = .some je → Reads e je → o.get c!"computed" = .some (.bool true) →
      o.get c!"property" = .some jp → Reads p jp → Reads (.eBrack .none e p) (.object o)
  | newTarget {o : Object} {jm jp : Json} : Typed o c!"MetaProperty" →
      o.get c!"meta" = .some jm → ReadsId (plainId c!"new") jm →
      o.get c!"property" = .some jp → ReadsId (plainId c!"target") jp →
      Reads (.eNewTarget .none) (.object o)
  | true {o : Object} : Typed o c!"Literal" → o.get c!"value" = .some (.bool true) →
      Reads (.eTrue .none) (.object o)
  | false {o : Object} : Typed o c!"Literal" → o.get c!"value" = .some (.bool false) →
      Reads (.eFalse .none) (.object o)
  | null {o : Object} : Typed o c!"Literal" → o.get c!"value" = .some .null →
      o.get c!"regex" = .none → Reads (.eNull .none) (.object o)
  | number {n : NumberLiteral} {o : Object} {j : Json} : Typed o c!"Literal" →
      o.get c!"value" = .some j → ReadsNumber n j → Reads (.eNumber .none n) (.object o)
  | regExp {pattern flags : Str} {o : Object} {j : Json} : Typed o c!"Literal" →
      o.get c!"value" = .some j → (j = .null ∨ ∃ fields, j = .object fields) →
      HasRegExp o pattern flags → Reads (.eRegExp .none ⟨pattern, flags⟩) (.object o)
  | string {s : Str} {o : Object} : Typed o c!"Literal" → o.get c!"value" = .some (.string s) →
      Reads (.eString .none ⟨.none, s⟩) (.object o)
  -- properties, functions
  | init {k : PropKey} {e : Expr} {o ov : Object} {jk : Json} :
      o.get c!"kind" = .some (.string c!"init") → o.get c!"method" = .some (.bool false) →
      o.get c!"shorthand" = .some (.bool false) → o.get c!"key" = .some jk → ReadsKey k jk →
      o.get c!"value" = .some (.object ov) → Reads e (.object ov) →
      Reads (.prRegular .none k (.vInit e)) (.object o)
  | shorthand {i : Id} {o ov : Object} {jk : Json} :
      o.get c!"kind" = .some (.string c!"init") → o.get c!"method" = .some (.bool false) →
      o.get c!"shorthand" = .some (.bool true) → o.get c!"key" = .some jk → ReadsId i jk →
      o.get c!"value" = .some (.object ov) → Reads (.prShorthand i) (.object o)
  | method {k : PropKey} {ps : Ast .params} {b : Script} {gen : Bool} {o ov : Object} {jk : Json} :
      o.get c!"kind" = .some (.string c!"init") → o.get c!"method" = .some (.bool true) →
      o.get c!"key" = .some jk → ReadsKey k jk → o.get c!"value" = .some (.object ov) →
      Reads (.func .none (.key k) ps b gen) (.object ov) →
      Reads (.prMethod (.func .none (.key k) ps b gen)) (.object o)
  | get {k : PropKey} {b : Script} {o ov ob : Object} {jk jb : Json} :
      o.get c!"kind" = .some (.string c!"get") → o.get c!"key" = .some jk → ReadsKey k jk →
      o.get c!"value" = .some (.object ov) → ov.get c!"body" = .some (.object ob) →
      ob.get c!"body" = .some jb → Reads b jb →
      Reads (.prRegular .none k (.vGet .none b)) (.object o)
  | set {k : PropKey} {p : PattId} {r : Ast (.opt (.rest .id))} {b : Script} {gen : Bool}
      {o ov : Object} {jk : Json} :
      o.get c!"kind" = .some (.string c!"set") → o.get c!"key" = .some jk → ReadsKey k jk →
      o.get c!"value" = .some (.object ov) →
      Reads (.func .none (.key k) (.params .none (.cons p .nil) r) b gen) (.object ov) →
      Reads (.prRegular .none k (.vSet .none p b)) (.object o)
  -- a function without its name
  | func {c : Cat} {i : Ast c} {ps : Ast .params} {b : Script} {gen : Bool} {o ob : Object}
      {jg jp jb : Json} : o.get c!"generator" = .some jg → ReadsFlag gen jg →
      o.get c!"params" = .some jp → Reads ps jp → o.get c!"body" = .some (.object ob) →
      ob.get c!"body" = .some jb → Reads b jb → Reads (.func .none i ps b gen) (.object o)
  | params {ps : Ast (.list (.patt .id))} {js : List Json} : NoRest js → Reads ps (.array js) →
      Reads (.params .none ps .none) (.array js)
  | paramsRest {ps : Ast (.list (.patt .id))} {p : PattId} {js : List Json} {o : Object} {jp : Json} :
      Reads ps (.array js) → Typed o c!"RestElement" → o.get c!"argument" = .some jp → Reads p jp →
      Reads (.params .none ps (.some (.restPatt .none p))) (.array (js ++ [.object o]))
  | simple {i : Id} {j : Json} : ReadsId i j → Reads (.pSimple (.ident i)) j
  -- the directives are all the string literals at the beginning
  | body {dirs : List Dir} {items : Ast (.list .sitem)} {ds is : List Json} : ReadsDirs dirs ds →
      Reads items (.array is) → (∀ i, items.toList.head? = .some i → isStringStmt i = .false) →
      Reads (.body .none dirs items) (.array (ds ++ is))
  -- declarations
  | declFun {i : Id} {ps : Ast .params} {b : Script} {gen : Bool} {o : Object} {j : Json} :
      Typed o c!"FunctionDeclaration" → o.get c!"id" = .some j → ReadsId i j →
      Reads (.func .none (.ident i) ps b gen) (.object o) →
      Reads (.siDecl (.dFun (.func .none (.ident i) ps b gen))) (.object o)
  | declLet {ds : Ast (.list .dtor)} {o : Object} {j : Json} : Typed o c!"VariableDeclaration" →
      o.get c!"kind" = .some (.string c!"let") → o.get c!"declarations" = .some j → Reads ds j →
      Reads (.siDecl (.dLet .none ds (.explicit .none))) (.object o)
  | declConst {ds : Ast (.list .constDtor)} {o : Object} {j : Json} :
      Typed o c!"VariableDeclaration" →
      o.get c!"kind" = .some (.string c!"const") → o.get c!"declarations" = .some j → Reads ds j →
      Reads (.siDecl (.dConst .none ds (.explicit .none))) (.object o)
  | dtor {i : Id} {init : Ast (.opt .expr)} {o : Object} {ji je : Json} :
      o.get c!"id" = .some ji → ReadsId i ji → o.get c!"init" = .some je → Reads init je →
      Reads (.dtSimple .none i init) (.object o)
  | constDtor {i : Id} {e : Expr} {o : Object} {ji je : Json} :
      o.get c!"id" = .some ji → ReadsId i ji → o.get c!"init" = .some je → Reads e je →
      Reads (.constDtor .none (.pSimple (.ident i)) e) (.object o)
  -- statements
  | item {s : Stmt} {j : Json} : Reads s j → Reads (.siStmt s) j
  | block {items : Ast (.list .sitem)} {o : Object} {j : Json} : Typed o c!"BlockStatement" →
      o.get c!"body" = .some j → Reads items j → Reads (.block .none items) (.object o)
  | sEmpty {o : Object} : Typed o c!"EmptyStatement" → Reads (.sEmpty .none) (.object o)
  | sBlock {b : Ast .block} {j : Json} : Reads b j → Reads (.sBlock b) j
  | sVar {ds : Ast (.list .dtor)} {o : Object} {j : Json} : Typed o c!"VariableDeclaration" →
      o.get c!"kind" = .some (.string c!"var") → o.get c!"declarations" = .some j → Reads ds j →
      Reads (.sVar .none ds (.explicit .none)) (.object o)
  | sExpr {e : Expr} {o : Object} {j : Json} : Typed o c!"ExpressionStatement" →
      o.get c!"expression" = .some j → Reads e j →
      Reads (.sExpr .none e (.explicit .none)) (.object o)
  | sIf {e : Expr} {a : Stmt} {b : Ast (.opt .stmt)} {o : Object} {je ja jb : Json} :
      Typed o c!"IfStatement" → o.get c!"test" = .some je → Reads e je →
      o.get c!"consequent" = .some ja → Reads a ja → o.get c!"alternate" = .some jb → Reads b jb →
      Reads (.sIf .none e a b) (.object o)
  | sLabel {i : Id} {s : Stmt} {o : Object} {ji js : Json} : Typed o c!"LabeledStatement" →
      o.get c!"label" = .some ji → ReadsId i ji → o.get c!"body" = .some js → Reads s js →
      Reads (.sLabel .none i s) (.object o)
  | sBreak {o : Object} : Typed o c!"BreakStatement" → o.get c!"label" = .some .null →
      Reads (.sBreak .none .none (.explicit .none)) (.object o)
  | sBreakLabel {i : Id} {o : Object} {j : Json} : Typed o c!"BreakStatement" →
      o.get c!"label" = .some j → ReadsId i j →
      Reads (.sBreak .none (.some i) (.explicit .none)) (.object o)
  | sCont {o : Object} : Typed o c!"ContinueStatement" → o.get c!"label" = .some .null →
      Reads (.sCont .none .none (.explicit .none)) (.object o)
  | sContLabel {i : Id} {o : Object} {j : Json} : Typed o c!"ContinueStatement" →
      o.get c!"label" = .some j → ReadsId i j →
      Reads (.sCont .none (.some i) (.explicit .none)) (.object o)
  | sWith {e : Expr} {s : Stmt} {o : Object} {je js : Json} : Typed o c!"WithStatement" →
      o.get c!"object" = .some je → Reads e je → o.get c!"body" = .some js → Reads s js →
      Reads (.sWith .none e s) (.object o)
  | sSwitch {e : Expr} {cs : Ast (.list .case)} {o : Object} {je jc : Json} :
      Typed o c!"SwitchStatement" → o.get c!"discriminant" = .some je → Reads e je →
      o.get c!"cases" = .some jc → Reads cs jc → Reads (.sSwitch .none e cs) (.object o)
  | sReturn {e : Ast (.opt .expr)} {o : Object} {j : Json} : Typed o c!"ReturnStatement" →
      o.get c!"argument" = .some j → Reads e j →
      Reads (.sReturn .none e (.explicit .none)) (.object o)
  | sThrow {e : Expr} {o : Object} {j : Json} : Typed o c!"ThrowStatement" →
      o.get c!"argument" = .some j → Reads e j →
      Reads (.sThrow .none e (.explicit .none)) (.object o)
  | sTry {b : Ast .block} {c : Ast (.opt .«catch»)} {f : Ast (.opt .block)} {o : Object}
      {jb jc jf : Json} : Typed o c!"TryStatement" → o.get c!"block" = .some jb → Reads b jb →
      o.get c!"handler" = .some jc → Reads c jc → o.get c!"finalizer" = .some jf → Reads f jf →
      Reads (.sTry .none b c f) (.object o)
  | sWhile {e : Expr} {s : Stmt} {o : Object} {je js : Json} : Typed o c!"WhileStatement" →
      o.get c!"test" = .some je → Reads e je → o.get c!"body" = .some js → Reads s js →
      Reads (.sWhile .none e s) (.object o)
  | sDoWhile {e : Expr} {s : Stmt} {o : Object} {je js : Json} : Typed o c!"DoWhileStatement" →
      o.get c!"body" = .some js → Reads s js → o.get c!"test" = .some je → Reads e je →
      Reads (.sDoWhile .none s e (.explicit .none)) (.object o)
  | sFor {h : Ast (.opt .forHead)} {a b : Ast (.opt .expr)} {s : Stmt} {o : Object}
      {jh ja jb js : Json} : Typed o c!"ForStatement" → o.get c!"init" = .some jh → Reads h jh →
      o.get c!"test" = .some ja → Reads a ja → o.get c!"update" = .some jb → Reads b jb →
      o.get c!"body" = .some js → Reads s js → Reads (.sFor .none h a b s) (.object o)
  | sForIn {h : Ast .forInHead} {e : Expr} {s : Stmt} {o : Object} {jh je js : Json} :
      Typed o c!"ForInStatement" → o.get c!"left" = .some jh → Reads h jh →
      o.get c!"right" = .some je → Reads e je → o.get c!"body" = .some js → Reads s js →
      Reads (.sForIn .none h e s) (.object o)
  | sForOf {h : Ast .forOfHead} {e : Expr} {s : Stmt} {o : Object} {jh je js : Json} :
      Typed o c!"ForOfStatement" → o.get c!"left" = .some jh → Reads h jh →
      o.get c!"right" = .some je → Reads e je → o.get c!"body" = .some js → Reads s js →
      Reads (.sForOf .none h e s) (.object o)
  | sDebugger {o : Object} : Typed o c!"DebuggerStatement" →
      Reads (.sDebugger .none (.explicit .none)) (.object o)
  -- heads of loops, clauses
  | fhVar {ds : Ast (.list .dtor)} {o : Object} {j : Json} : Typed o c!"VariableDeclaration" →
      o.get c!"kind" = .some (.string c!"var") → o.get c!"declarations" = .some j → Reads ds j →
      Reads (.fhVar .none ds) (.object o)
  | fhLet {ds : Ast (.list .dtor)} {o : Object} {j : Json} : Typed o c!"VariableDeclaration" →
      o.get c!"kind" = .some (.string c!"let") → o.get c!"declarations" = .some j → Reads ds j →
      Reads (.fhLet .none ds) (.object o)
  | fhConst {ds : Ast (.list .constDtor)} {o : Object} {j : Json} :
      Typed o c!"VariableDeclaration" →
      o.get c!"kind" = .some (.string c!"const") → o.get c!"declarations" = .some j → Reads ds j →
      Reads (.fhConst .none ds) (.object o)
  | fhExpr {e : Expr} {j : Json} : Reads e j → Reads (.fhExpr .none e) j
  | fiVarInit {i : Id} {e : Expr} {o od : Object} {ji je : Json} :
      Typed o c!"VariableDeclaration" → o.get c!"kind" = .some (.string c!"var") →
      o.get c!"declarations" = .some (.array [.object od]) → od.get c!"id" = .some ji →
      ReadsId i ji → od.get c!"init" = .some je → Reads e je →
      Reads (.fiVarInit .none i e) (.object o)
  | fiVar {p : PattId} {o od : Object} {ji : Json} :
      Typed o c!"VariableDeclaration" → o.get c!"kind" = .some (.string c!"var") →
      o.get c!"declarations" = .some (.array [.object od]) → od.get c!"id" = .some ji →
      Reads p ji → od.get c!"init" = .some .null → Reads (.fiVar .none p) (.object o)
  | fiLet {p : PattId} {o od : Object} {ji : Json} :
      Typed o c!"VariableDeclaration" → o.get c!"kind" = .some (.string c!"let") →
      o.get c!"declarations" = .some (.array [.object od]) → od.get c!"id" = .some ji →
      Reads p ji → od.get c!"init" = .some .null → Reads (.fiLet .none p) (.object o)
  | fiConst {p : PattId} {o od : Object} {ji : Json} :
      Typed o c!"VariableDeclaration" → o.get c!"kind" = .some (.string c!"const") →
      o.get c!"declarations" = .some (.array [.object od]) → od.get c!"id" = .some ji →
      Reads p ji → od.get c!"init" = .some .null → Reads (.fiConst .none p) (.object o)
  | fiPatt {p : PattTarget} {j : Json} : Patt.Assignable (Patt.sourceExpr p) →
      Reads (Patt.sourceExpr p) j → Reads (.fiPatt p) j
  | foVar {p : PattId} {o od : Object} {ji : Json} :
      Typed o c!"VariableDeclaration" → o.get c!"kind" = .some (.string c!"var") →
      o.get c!"declarations" = .some (.array [.object od]) → od.get c!"id" = .some ji →
      Reads p ji → Reads (.foVar .none p) (.object o)
  | foLet {p : PattId} {o od : Object} {ji : Json} :
      Typed o c!"VariableDeclaration" → o.get c!"kind" = .some (.string c!"let") →
      o.get c!"declarations" = .some (.array [.object od]) → od.get c!"id" = .some ji →
      Reads p ji → Reads (.foLet .none p) (.object o)
  | foConst {p : PattId} {o od : Object} {ji : Json} :
      Typed o c!"VariableDeclaration" → o.get c!"kind" = .some (.string c!"const") →
      o.get c!"declarations" = .some (.array [.object od]) → od.get c!"id" = .some ji →
      Reads p ji → Reads (.foConst .none p) (.object o)
  | foPatt {p : PattTarget} {j : Json} : Patt.Assignable (Patt.sourceExpr p) →
      Reads (Patt.sourceExpr p) j → Reads (.foPatt p) j
  | «catch» {p : PattId} {b : Ast .block} {o : Object} {jp jb : Json} :
      o.get c!"param" = .some jp → Reads p jp → o.get c!"body" = .some jb → Reads b jb →
      Reads (.catchClause .none p b) (.object o)
  | case {e : Ast (.opt .expr)} {items : Ast (.list .sitem)} {o : Object} {je ji : Json} :
      o.get c!"test" = .some je → Reads e je → o.get c!"consequent" = .some ji → Reads items ji →
      Reads (.caseClause .none e items) (.object o)

/-- The object reads as the script. -/
def ReadsScript (x : Script) (o : Object) : Prop := ∃ j, o.get c!"body" = some j ∧ Reads x j

/-! ### Errors -/

/-- `Inside v j`: the JSON value `v` is `j`, or occurs in it. -/
inductive Inside : Json → Json → Prop where
  | self {j : Json} : Inside j j
  | element {v j : Json} {js : List Json} : j ∈ js → Inside v j → Inside v (.array js)
  | field {v j : Json} {o : Object} {name : Str} : o.get name = some j → Inside v j →
      Inside v (.object o)

/-- The words for types in messages, and the types they stand for. -/
def typeWords : List (Str × List Ty) := [
  (c!"object", [.object]),
  (c!"array", [.array]),
  (c!"string", [.string]),
  (c!"boolean", [.boolean]),
  (c!"object or null", [.object, .null]),
  (c!"null, number, boolean, string, or object", [.null, .number, .boolean, .string, .object])]

/-- The expressions. -/
def exprTypes : List Str := [
  c!"Identifier", c!"Literal", c!"BinaryExpression", c!"AssignmentExpression",
  c!"LogicalExpression", c!"UnaryExpression", c!"UpdateExpression", c!"MemberExpression",
  c!"CallExpression", c!"NewExpression", c!"ArrayExpression", c!"FunctionExpression",
  c!"SequenceExpression", c!"ObjectExpression", c!"ConditionalExpression", c!"ThisExpression",
  c!"MetaProperty"]

/-- The statements. -/
def stmtTypes : List Str := [
  c!"VariableDeclaration", c!"EmptyStatement", c!"ExpressionStatement", c!"IfStatement",
  c!"DoWhileStatement", c!"WhileStatement", c!"ForStatement", c!"ForInStatement",
  c!"ForOfStatement", c!"BlockStatement", c!"ReturnStatement", c!"LabeledStatement",
  c!"BreakStatement", c!"ContinueStatement", c!"SwitchStatement", c!"WithStatement",
  c!"ThrowStatement", c!"DebuggerStatement", c!"TryStatement"]

/-- The words for nodes in messages, and the node types they stand for. -/
def nodeWords : List (Str × List Str) := [
  (c!"identifier", [c!"Identifier"]),
  (c!"expression", exprTypes),
  (c!"block statement", [c!"BlockStatement"]),
  (c!"statement", stmtTypes),
  (c!"statement or declaration", c!"FunctionDeclaration" :: stmtTypes)]

/-- A node of the given type has the string `s` in the given field. -/
def Says (j : Json) (type field s : Str) : Prop :=
  ∃ o : Object, Inside (.object o) j ∧ Typed o type ∧ o.get field = some (.string s)

/-- A string that is not what the message asks for. -/
inductive WrongString (j : Json) : Str → Str → Prop where
  | binop {s : Str} : Says j c!"BinaryExpression" c!"operator" s →
      (∀ t : BinopTag, t.display ≠ s) → WrongString j c!"binary operator" s
  | logop {s : Str} : Says j c!"LogicalExpression" c!"operator" s →
      (∀ t : LogopTag, t.display ≠ s) → WrongString j c!"logical operator" s
  | assop {s : Str} : Says j c!"AssignmentExpression" c!"operator" s → s ≠ c!"=" →
      (∀ t : AssopTag, t.display ≠ s) → WrongString j c!"assignment operator" s
  | unop {s : Str} : Says j c!"UnaryExpression" c!"operator" s →
      (∀ t : UnopTag, unopText t ≠ s) → WrongString j c!"unary operator" s
  | update {s : Str} : Says j c!"UpdateExpression" c!"operator" s → s ≠ c!"++" → s ≠ c!"--" →
      WrongString j c!"'++' or '--'" s
  | kind {s : Str} : Says j c!"VariableDeclaration" c!"kind" s →
      s ∉ ([c!"var", c!"let", c!"const"] : List Str) → WrongString j c!"var or let" s
  -- a declaration in the place of a statement
  | var {s : Str} : Says j c!"VariableDeclaration" c!"kind" s →
      s ∈ ([c!"let", c!"const"] : List Str) → WrongString j c!"var" s
  | target {o : Object} {a b : Str} {ja jb : Json} : Inside (.object o) j → Typed o c!"MetaProperty" →
      o.get c!"meta" = some ja → ReadsId (plainId a) ja →
      o.get c!"property" = some jb → ReadsId (plainId b) jb → ¬(a = c!"new" ∧ b = c!"target") →
      WrongString j c!"new.target" (a ++ c!"." ++ b)

/-- An expression is an assignment target: an identifier or a member access. -/
def IsTarget (e : Expr) : Prop := ∃ t, e = Patt.sourceTarget t

/-- The error is true of the JSON value. -/
def EError.Blames (j : Json) : EError → Prop
  | .json (.missingField name) => ∃ o : Object, Inside (.object o) j ∧ o.get name = none
  | .json (.typeMismatch expected ty) =>
    (∃ v tys, Inside v j ∧ v.ty = ty ∧ (expected, tys) ∈ typeWords ∧ ty ∉ tys) ∨
    -- the kind of a property
    (expected = c!"'init', 'get', or 'set'" ∧ ty = .string ∧ ∃ (o : Object) (s : Str),
      Inside (.object o) j ∧ o.get c!"kind" = some (.string s) ∧
      s ∉ ([c!"init", c!"get", c!"set"] : List Str)) ∨
    -- the key of a property
    (expected = c!"identifier, number literal, or string literal" ∧ ty = .object ∧
      ∃ (o : Object) (v : Json), Inside (.object o) j ∧ ¬Typed o c!"Identifier" ∧
      o.get c!"value" = some v ∧ v.ty ≠ .number ∧ v.ty ≠ .string)
  -- the declaration in the head of a loop, or the parameters of a setter (without a rest parameter)
  | .json (.wrongArrayLength expected actual) => expected = 1 ∧ actual ≠ 1 ∧
    ∃ js, Inside (.array js) j ∧ (actual = js.length ∨ (actual + 1 = js.length ∧ ¬NoRest js))
  | .json (.illegalString expected actual) => WrongString j expected actual
  | .json (.indexOutOfBounds _ _) => False
  | .invalidTypeTag s => ∃ o : Object, Inside (.object o) j ∧ Typed o s ∧ s ∉ nodeTypes
  | .nodeTypeMismatch expected tag => ∃ (o : Object) (types : List Str), Inside (.object o) j ∧
      Typed o tag.debug ∧ (expected, types) ∈ nodeWords ∧ tag.debug ∉ types
  -- the declaration in the head of a `for`-`in` loop
  | .unexpectedInitializer e => ∃ (o od : Object) (k : Str) (je : Json), Inside (.object o) j ∧
      Typed o c!"VariableDeclaration" ∧ o.get c!"kind" = some (.string k) ∧ k ≠ c!"var" ∧
      o.get c!"declarations" = some (.array [.object od]) ∧ od.get c!"init" = some je ∧ Reads e je
  | .invalidLHS name =>
    (name = c!"left" ∧ ∃ je e, Inside je j ∧ Reads e je ∧ ¬Patt.Assignable e) ∨
    (name = c!"left" ∧ ∃ (o : Object) (je : Json) (e : Expr), Inside (.object o) j ∧ Typed o c!"AssignmentExpression" ∧
      o.get c!"operator" ≠ some (.string c!"=") ∧ o.get c!"left" = some je ∧ Reads e je ∧
      ¬IsTarget e) ∨
    (name = c!"argument" ∧ ∃ (o : Object) (je : Json) (e : Expr), Inside (.object o) j ∧ Typed o c!"UpdateExpression" ∧
      o.get c!"argument" = some je ∧ Reads e je ∧ ¬IsTarget e)
  -- a constant without value
  | .uninitializedPattern p => ∃ (i : Id) (od : Object) (ji : Json),
      p = .pSimple (.ident i) ∧ Inside (.object od) j ∧ od.get c!"id" = some ji ∧ ReadsId i ji ∧
      od.get c!"init" = some .null

end Estree

end Esprit
