import Verif.Spec.Infix
import Verif.Spec.Cover
import Verif.Spec.Lex
import Verif.Spec.Tokens

/-!
Specification of the syntax: the grammar (grammar.md and the productions quoted
in the comments of src/parser.rs), as a relation between tokens and trees.

`Derives L env nt inp rest node`: the nonterminal `nt` derives the tree `node`
from the tokens at the front of `inp` up to `rest`, in the surroundings `env`.
`L` says which locations statements and other constructs that are not simply located by
their tokens may have: `Located S`, if the tokens are those of the source text `S`.
-/

namespace Esprit

/-- What surrounds a construct. -/
structure Scope where
  /-- strict mode code -/
  strict : Bool
  /-- module code -/
  module : Bool
  /-- inside a function -/
  function : Bool
  /-- inside a loop (of the same function) -/
  iteration : Bool
  /-- inside a `switch` (of the same function) -/
  switch : Bool
  /-- may the `in` operator be used? -/
  allowIn : Bool
  /-- the enclosing labels (of the same function); `true`: the label of a loop -/
  labels : List (Name × Bool)
  /-- Only plain programs: a statement is not labelled twice with the same name,
  and an array pattern on the left of an assignment or of a `for` head has no rest
  element (see C20).  (The grammar with this restriction is accepted
  by the parser; what the parser accepts follows the grammar without it.) -/
  plain : Bool := false

namespace Scope

/-- The surroundings of a script. -/
def script (strict : Bool) : Scope := ⟨strict, false, false, false, false, true, [], false⟩

/-- The surroundings of a module. -/
def moduleCode : Scope := ⟨true, true, false, false, false, true, [], false⟩

/-- The surroundings of a function body. -/
def functionBody (env : Scope) : Scope :=
  { env with function := true, iteration := false, switch := false, allowIn := true, labels := [] }

/-- The surroundings in which `in` is (not) an operator. -/
def withIn (env : Scope) (b : Bool) : Scope := { env with allowIn := b }

/-- The surroundings of a loop body. -/
def loopBody (env : Scope) : Scope := { env with iteration := true }

/-- The surroundings of the cases of a `switch`. -/
def switchBody (env : Scope) : Scope := { env with switch := true }

/-- The surroundings of a labelled statement. -/
def label (env : Scope) (n : Name) (loop : Bool) : Scope :=
  { env with labels := (n, loop) :: env.labels }

end Scope

/-- The identifiers that are reserved in strict mode code. -/
def strictReserved : List Atom :=
  [.implements, .interface, .«let», .package, .«private», .«protected», .«public», .static, .yield]

/-- May `n` be used as an identifier, or be bound (`binding`)? -/
def Scope.IdOk (env : Scope) (binding : Bool) (n : Name) : Prop :=
  (env.strict = true → (∀ a ∈ strictReserved, n ≠ .atom a) ∧
    (binding = true → n ≠ .atom .eval ∧ n ≠ .atom .arguments)) ∧
  (env.module = true → n ≠ .atom .await)

namespace Grammar

open ReaderSpec

/-- The nonterminals, each with the category of trees it derives. -/
inductive NT : Cat → Type where
  -- expressions
  | primary : NT .expr
  /-- a primary expression followed by accessors, and by calls if `calls` -/
  | lhs (calls : Bool) : NT .expr
  /-- what follows `new` -/
  | newBase (args : Bool) : NT .expr
  /-- `new` with or without arguments -/
  | new (args : Bool) : NT .expr
  | «postfix» : NT .expr
  | unary : NT .expr
  /-- binary expressions whose operators bind at level `n` or tighter -/
  | binary (n : Nat) : NT .expr
  | cond : NT .expr
  | assign : NT .expr
  | expr : NT .expr
  | exprs : NT (.list .expr)
  | arg : NT .item
  | args : NT (.list .item)
  | argList : NT (.list .item)
  | elems : NT (.list (.opt .item))
  | prop : NT .prop
  | props : NT (.list .prop)
  -- names, parameters, functions
  | name : NT .id
  | nameOpt : NT (.opt .id)
  | pattern : NT (.patt .id)
  | paramItems : NT .params
  | params : NT .params
  | func {c : Cat} (name : NT c) : NT (.func c)
  | functionBody : NT (.body .sitem)
  -- bodies
  | prologue {c : Cat} (items : NT (.list c)) : NT (.body c)
  | body {c : Cat} (items : NT (.list c)) : NT (.body c)
  | items : NT (.list .sitem)
  | modItems : NT (.list .modItem)
  /-- a statement, or, if `decl`, a declaration -/
  | item (decl : Bool) : NT .sitem
  | decl : NT .decl
  | stmt : NT .stmt
  | block : NT .block
  | dtor : NT .dtor
  | dtors : NT (.list .dtor)
  | constDtor : NT .constDtor
  | constDtors : NT (.list .constDtor)
  -- parts of statements
  | headDtor : NT .dtor
  | headDtors : NT (.list .dtor)
  | forHead : NT (.opt .forHead)
  | forInHead : NT .forInHead
  | forOfHead : NT .forOfHead
  | exprOpt : NT (.opt .expr)
  | case : NT .case
  | cases : NT (.list .case)
  | catchOpt : NT (.opt .«catch»)
  | finallyOpt : NT (.opt .block)

/-- The position `p` of the source text is close to the start of the tokens `ts`:
either it comes before the first of them, with only trivia in between, or it is
the end of the first or of the second of them. -/
structure Near (S : Str) (ts : List Token) (p : Posn) : Prop where
  position : ∃ k ≤ S.length, PosnAt S k p
  late : ∀ t ∈ ts.drop 2, p.offset ≤ t.location.start.offset
  early : ∀ t, ts.head? = some t → p.offset ≤ t.location.start.offset →
    ∃ e e', Lex.Trivia e (Lex.slice S p.offset t.location.start.offset)
      (S.drop t.location.start.offset) e'
  edge : ∀ t, ts.head? = some t → p.offset ≤ t.location.start.offset ∨
    ∃ u ∈ ts.take 2, p = u.location.end

/-- The location `l` is a span of the source text that starts close to the start
of `inp`, and ends close to the start of `rest`, but no earlier than the tokens
between `inp` and `rest`. -/
def Located (S : Str) (inp rest : List Token) (l : Loc) : Prop :=
  ∃ p q c, l = some ⟨p, q⟩ ∧ p.offset ≤ q.offset ∧ Near S inp p ∧ Near S rest q ∧
    inp = c ++ rest ∧ ∀ t ∈ c, t.location.end.offset ≤ q.offset

/-- The location starts no later than any of the tokens. -/
def StartsBefore (l : Loc) (ts : List Token) : Prop :=
  ∀ sp, l = some sp → ∀ t ∈ ts, sp.start.offset ≤ t.location.start.offset

/-- The location starts after the token. -/
def StartsAfter (l : Loc) (t : Token) : Prop :=
  ∀ sp, l = some sp → t.location.end.offset ≤ sp.start.offset

/-- The next token has the value `v`. -/
def NextIs (inp : List Token) (v : TokenData) : Prop := ∃ t r, inp = t :: r ∧ t.value = v

/-- There is a next token, and its value is not `v`. -/
def NextIsNot (inp : List Token) (v : TokenData) : Prop := ∃ t r, inp = t :: r ∧ t.value ≠ v

/-- There is a next token, and its value is none of `vs`. -/
def NextNotIn (inp : List Token) (vs : List TokenData) : Prop :=
  ∃ t r, inp = t :: r ∧ t.value ∉ vs

/-- The next token is not a regular expression. -/
def NoRegExp (inp : List Token) : Prop := ∀ t r, inp = t :: r → ∀ x, t.value ≠ .regExp x

/-- The next token is not a division. -/
def NoDivision (inp : List Token) : Prop :=
  ∀ t r, inp = t :: r → t.value ≠ .slash ∧ t.value ≠ .slashAssign

/-- If the next token is `let`, no division follows it. -/
def LetNoDivision (inp : List Token) : Prop :=
  ∀ t r, inp = t :: r → t.value = .identifier (.atom .«let») → NoDivision r

/-- The end of a statement: a semicolon, or one inserted before `}`, the end of
the source or a line terminator, or (`optional`) anywhere. -/
inductive Term (optional : Bool) : List Token → List Token → Semi → Prop where
  | explicit {t : Token} {rest : List Token} : t.value = .semi →
      Term optional (t :: rest) rest (.explicit (some t.location.start))
  | inserted {t : Token} {rest : List Token} : t.value ≠ .semi →
      t.value = .rBrace ∨ t.value = .eof ∨ t.newline = true ∨ optional = true →
      Term optional (t :: rest) (t :: rest) .inserted

/-- The next token can be an argument of `break`, `continue`, `return`, `throw`. -/
def ArgSameLine (inp : List Token) : Prop :=
  ∃ t r, inp = t :: r ∧ t.newline = false ∧ t.value ≠ .semi ∧ t.value ≠ .rBrace

/-- There is no argument of `break`, `continue`, `return`. -/
def NoArgSameLine (inp : List Token) : Prop :=
  ∃ t r, inp = t :: r ∧ (t.newline = true ∨ t.value = .semi ∨ t.value = .rBrace)

/-- The tokens that continue an expression statement on the next line. -/
def continuers : List TokenData :=
  [.lParen, .lBrack, .dot, .ellipsis, .comma, .question,
   .lAngle, .rAngle, .lEq, .gEq, .eq, .nEq, .strictEq, .strictNEq,
   .plus, .minus, .star, .mod, .slash, .lShift, .rShift, .uRShift, .bitAnd, .bitOr, .bitXor,
   .logicalAnd, .logicalOr, .reserved .«in», .reserved .instanceof,
   .assign, .plusAssign, .minusAssign, .starAssign, .slashAssign, .modAssign,
   .lShiftAssign, .rShiftAssign, .uRShiftAssign, .bitAndAssign, .bitOrAssign, .bitXorAssign]

/-- The token continues the expression before it. -/
def Continues (t : Token) : Prop :=
  t.value ∈ continuers ∨ ((t.value = .inc ∨ t.value = .dec) ∧ t.newline = false)

/-- A string literal statement starts here, i.e. a directive. -/
def StartsDirective (inp : List Token) : Prop :=
  ∃ t t2 r s, inp = t :: t2 :: r ∧ t.value = .string s ∧ ¬ Continues t2

/-- The tokens that end a list of statements. -/
def followsItems : List TokenData := [.rBrace, .eof, .reserved .case, .reserved .default]

/-- The tokens that start a statement or declaration other than an expression
statement. -/
def statementStarts : List TokenData :=
  [.lBrace, .semi, .reserved .function, .reserved .var, .reserved .const, .reserved .if,
   .reserved .continue, .reserved .break, .reserved .return, .reserved .with, .reserved .switch,
   .reserved .throw, .reserved .try, .reserved .while, .reserved .do, .reserved .for,
   .reserved .debugger]

/-- The token is the beginning of a binding: `{`, `[` or an identifier. -/
def StartsBinding (t : Token) : Prop :=
  t.value = .lBrace ∨ t.value = .lBrack ∨ ∃ n, t.value = .identifier n

/-- The expression statement does not start like another statement. -/
def ExprStmtStart (inp : List Token) : Prop :=
  ∃ t r, inp = t :: r ∧ t.value ∉ statementStarts ∧
    ((∃ n, t.value = .identifier n) → ∃ t2 r2, r = t2 :: r2 ∧ t2.value ≠ .colon ∧
      (t.value = .identifier (.atom .«let») → ¬ StartsBinding t2))

/-- The expression at the beginning of a `for` head does not start like a
declaration. -/
def ForExprStart (inp : List Token) : Prop :=
  ∃ t r, inp = t :: r ∧ t.value ≠ .reserved .var ∧ t.value ≠ .semi ∧
    (t.value = .identifier (.atom .«let») → ∃ t2 r2, r = t2 :: r2 ∧ ¬ StartsBinding t2)

/-- The statement is a loop, possibly labelled. -/
def isLoop : Stmt → Bool
  | .sLabel _ _ s => isLoop s
  | .sWhile .. | .sDoWhile .. | .sFor .. | .sForIn .. | .sForOf .. => true
  | _ => false

/-- The clause is a `default` clause. -/
def isDefault : Ast .case → Bool
  | .caseClause _ .none _ => true
  | _ => false

/-- The key of a property: an identifier name, a string or a number. -/
inductive PropName : Token → PropKey → Prop where
  | id {t : Token} {n : Name} : t.value = .identifier n →
      PropName t (.id (some t.location) n.intoString)
  | word {t : Token} {w : Reserved} : t.value = .reserved w →
      PropName t (.id (some t.location) w.name)
  | string {t : Token} {s : StringLiteral} : t.value = .string s →
      PropName t (.string (some t.location) s)
  | number {t : Token} {n : NumberLiteral} : t.value = .number n →
      PropName t (.number (some t.location) n)

/-- The name after a dot. -/
inductive MemberName : Token → DotKey → Prop where
  | id {t : Token} {n : Name} : t.value = .identifier n →
      MemberName t ⟨some t.location, n.intoString⟩
  | word {t : Token} {w : Reserved} : t.value = .reserved w → MemberName t ⟨some t.location, w.name⟩

/-- The identifier of an identifier token. -/
inductive Ident (env : Scope) (binding : Bool) : Token → Id → Prop where
  | mk {t : Token} {n : Name} : t.value = .identifier n → env.IdOk binding n →
      Ident env binding t ⟨some t.location, n⟩

/-- `v` is the punctuator or reserved word spelled `x`. -/
def IsSymbol (x : Str) (v : TokenData) : Prop :=
  (x, v) ∈ Lex.punctuators ++ Lex.reservedWords.map fun p => (p.1, .reserved p.2)

/-- The token `t` is the unary operator `op`. -/
def IsUnop (t : Token) (op : Op UnopTag) : Prop :=
  op.location = some t.location ∧ ∃ x, UnopTag.fromStr x = some op.tag ∧ IsSymbol x t.value

/-- The token `t` is the binary operator `op`. -/
def IsBinop (env : Scope) (t : Token) (op : Op BinopTag) : Prop :=
  op.location = some t.location ∧ IsSymbol op.tag.display t.value ∧
  (op.tag = .«in» → env.allowIn = true)

/-- The token `t` is the logical operator `op`. -/
def IsLogop (t : Token) (op : Op LogopTag) : Prop :=
  op.location = some t.location ∧ IsSymbol op.tag.display t.value

/-- The token `t` is the assignment operator `op`. -/
def IsAssop (t : Token) (op : Op AssopTag) : Prop :=
  op.location = some t.location ∧ IsSymbol op.tag.display t.value

/-- The next token is not a postfix operator. -/
def NoPostfix (inp : List Token) : Prop :=
  ∃ t r, inp = t :: r ∧ (t.value = .inc ∨ t.value = .dec → t.newline = true)

/-- The next token is not an infix operator. -/
def NoInfix (env : Scope) (inp : List Token) : Prop :=
  ∃ t r, inp = t :: r ∧ (∀ op, ¬ IsBinop env t op) ∧ ∀ op, ¬ IsLogop t op

/-- The next token is not an assignment operator. -/
def NoAssign (inp : List Token) : Prop :=
  ∃ t r, inp = t :: r ∧ t.value ≠ .assign ∧ ∀ op, ¬ IsAssop t op

set_option autoImplicit true
set_option relaxedAutoImplicit true

/-- Which locations a construct may have that consists of the tokens between the
first list and the second. -/
abbrev LocSpec := List Token → List Token → Loc → Prop

/-- The productions. -/
inductive Derives (L : LocSpec) : {c : Cat} → Scope → NT c → List Token → List Token → Ast c → Prop where
  -- PrimaryExpression
  | identifier : Ident env false t i → Derives L env .primary (t :: rest) rest (.eId i)
  | kNull : t.value = .reserved .null →
      Derives L env .primary (t :: rest) rest (.eNull (some t.location))
  | kThis : t.value = .reserved .this →
      Derives L env .primary (t :: rest) rest (.eThis (some t.location))
  | kTrue : t.value = .reserved .true →
      Derives L env .primary (t :: rest) rest (.eTrue (some t.location))
  | kFalse : t.value = .reserved .false →
      Derives L env .primary (t :: rest) rest (.eFalse (some t.location))
  | number : t.value = .number n →
      Derives L env .primary (t :: rest) rest (.eNumber (some t.location) n)
  | string : t.value = .string s →
      Derives L env .primary (t :: rest) rest (.eString (some t.location) s)
  | regExp : t.value = .regExp x →
      Derives L env .primary (t :: rest) rest (.eRegExp (some t.location) x)
  | array : t.value = .lBrack → Derives L (env.withIn true) .elems i1 (t2 :: rest) es →
      t2.value = .rBrack →
      Derives L env .primary (t :: i1) rest
        (.eArr (spanLoc (some t.location) (some t2.location)) es)
  | object : t.value = .lBrace → Derives L env .props i1 (t2 :: rest) ps →
      t2.value = .rBrace →
      Derives L env .primary (t :: i1) rest
        (.eObj (spanLoc (some t.location) (some t2.location)) ps)
  | function : Derives L env (.func .nameOpt) inp rest f →
      Derives L env .primary inp rest (.eFun f)
  | paren : t.value = .lParen → Derives L (env.withIn true) .expr i1 (t2 :: rest) e →
      t2.value = .rParen → Derives L env .primary (t :: i1) rest e
  -- array elements: holes, expressions, spreads
  | elemsNil : Derives L env .elems inp inp .nil
  | elemsLast : Derives L env .arg inp rest x →
      Derives L env .elems inp rest (.cons (.some x) .nil)
  | elemsCons : Derives L env .arg inp (t :: i1) x → t.value = .comma →
      Derives L env .elems i1 rest xs → Derives L env .elems inp rest (.cons (.some x) xs)
  | elemsHole : t.value = .comma → Derives L env .elems i1 rest xs →
      Derives L env .elems (t :: i1) rest (.cons .none xs)
  | argExpr : Derives L env .assign inp rest e → Derives L env .arg inp rest (.iExpr e)
  | argSpread : t.value = .ellipsis → Derives L env .assign i1 rest e →
      L (t :: i1) rest l → Derives L env .arg (t :: i1) rest (.iSpread l e)
  -- property definitions
  | propsNil : Derives L env .props inp inp .nil
  | propsLast : Derives L env .prop inp rest p → Derives L env .props inp rest (.cons p .nil)
  | propsCons : Derives L env .prop inp (t :: i1) p → t.value = .comma →
      Derives L env .props i1 rest ps → Derives L env .props inp rest (.cons p ps)
  | propInit : PropName t k → t2.value = .colon →
      Derives L (env.withIn true) .assign i1 rest e →
      Derives L env .prop (t :: t2 :: i1) rest (.prRegular (spanLoc k.loc e.loc) k (.vInit e))
  | propShorthand : t.value = .identifier n → env.IdOk false (.from n.intoString) →
      NextIs rest .comma ∨ NextIs rest .rBrace →
      Derives L env .prop (t :: rest) rest
        (.prShorthand ⟨some t.location, .from n.intoString⟩)
  | propMethod : PropName t k → Derives L env .params i1 i2 ps →
      Derives L env.functionBody .functionBody i2 rest b →
      Derives L env .prop (t :: i1) rest
        (.prMethod (.func (spanLoc k.loc b.loc) (.key k) ps b false))
  | propGenerator : t0.value = .star → PropName t k → Derives L env .params i1 i2 ps →
      Derives L env.functionBody .functionBody i2 rest b →
      Derives L env .prop (t0 :: t :: i1) rest
        (.prMethod (.func (spanLoc k.loc b.loc) (.key k) ps b true))
  | propGet : t0.value = .identifier (.atom .get) → PropName t k → t1.value = .lParen →
      t2.value = .rParen → Derives L env.functionBody .functionBody i1 rest b →
      Derives L env .prop (t0 :: t :: t1 :: t2 :: i1) rest
        (.prRegular (spanLoc k.loc b.loc) k (.vGet (spanLoc (some t1.location) b.loc) b))
  | propSet : t0.value = .identifier (.atom .set) → PropName t k → t1.value = .lParen →
      Derives L env .pattern i1 (t2 :: i2) p → t2.value = .rParen →
      Derives L env.functionBody .functionBody i2 rest b →
      Derives L env .prop (t0 :: t :: t1 :: i1) rest
        (.prRegular (spanLoc k.loc b.loc) k (.vSet (spanLoc (some t1.location) b.loc) p b))
  -- functions
  | name : Ident env true t i → Derives L env .name (t :: rest) rest (.ident i)
  | nameNone : Derives L env .nameOpt inp inp .none
  | nameSome : Derives L env .name inp rest x → Derives L env .nameOpt inp rest (.some x)
  | func {c : Cat} {nt : NT c} {x : Ast c} : t.value = .reserved .function →
      Derives L env nt i1 i2 x →
      Derives L env .params i2 i3 ps → Derives L env.functionBody .functionBody i3 rest b →
      L (t :: i1) rest l → StartsBefore l i1.tail →
      Derives L env (.func nt) (t :: i1) rest (.func l x ps b .false)
  | funcGenerator {c : Cat} {nt : NT c} {x : Ast c} : t.value = .reserved .function →
      t2.value = .star → Derives L env nt i1 i2 x →
      Derives L env .params i2 i3 ps → Derives L env.functionBody .functionBody i3 rest b →
      L (t :: t2 :: i1) rest l → StartsBefore l i1 →
      Derives L env (.func nt) (t :: t2 :: i1) rest (.func l x ps b .true)
  | pattern : Ident env true t i → Derives L env .pattern (t :: rest) rest (.pSimple (.ident i))
  | paramsNil : Derives L env .paramItems inp inp (.params none .nil .none)
  | paramsRest : t.value = .ellipsis → Derives L env .pattern i1 rest p →
      L (t :: i1) rest l →
      Derives L env .paramItems (t :: i1) rest (.params none .nil (.some (.restPatt l p)))
  | paramsLast : Derives L env .pattern inp rest p →
      Derives L env .paramItems inp rest (.params none (.cons p .nil) .none)
  | paramsCons : Derives L env .pattern inp (t :: i1) p → t.value = .comma →
      Derives L env .paramItems i1 rest (.params none ps r) →
      Derives L env .paramItems inp rest (.params none (.cons p ps) r)
  | params : t.value = .lParen → Derives L env .paramItems i1 (t2 :: rest) (.params none ps r) →
      t2.value = .rParen → L (t :: i1) rest l →
      Derives L env .params (t :: i1) rest (.params l ps r)
  | functionBody : t.value = .lBrace →
      Derives L env (.body .items) i1 (t2 :: rest) b → t2.value = .rBrace →
      StartsAfter b.loc t → Derives L env .functionBody (t :: i1) rest b
  -- accessors, calls, new
  | lhsPrimary : Derives L env .primary inp rest e → Derives L env (.lhs calls) inp rest e
  | newTarget : t.value = .reserved .new → t2.value = .dot →
      t3.value = .identifier (.atom .target) →
      Derives L env (.lhs calls) (t :: t2 :: t3 :: rest) rest
        (.eNewTarget (spanLoc (some t.location) (some t3.location)))
  | dot : Derives L env (.lhs calls) inp (t :: t2 :: rest) e → t.value = .dot → MemberName t2 k →
      Derives L env (.lhs calls) inp rest (.eDot (spanLoc e.loc k.location) e k)
  | brack : Derives L env (.lhs calls) inp (t :: i1) e → t.value = .lBrack →
      Derives L (env.withIn true) .expr i1 (t2 :: rest) p → t2.value = .rBrack →
      Derives L env (.lhs calls) inp rest (.eBrack (spanLoc e.loc (some t2.location)) e p)
  | call : Derives L env (.lhs true) inp (t :: i1) e → t.value = .lParen →
      Derives L (env.withIn true) .argList i1 (t2 :: rest) as → t2.value = .rParen →
      Derives L env (.lhs true) inp rest (.eCall (spanLoc e.loc (some t2.location)) e as)
  | lhsNew : Derives L env (.new args) inp rest e → Derives L env (.lhs true) inp rest e
  | newBaseMember : NextNotIn rest [.dot, .lBrack] → Derives L env (.lhs false) inp rest e →
      Derives L env (.newBase args) inp rest e
  | newBaseArgs : Derives L env (.new true) inp rest e → Derives L env (.newBase args) inp rest e
  | newBaseNoArgs : Derives L env (.new false) inp rest e →
      Derives L env (.newBase false) inp rest e
  | newArgs : t.value = .reserved .new → Derives L env (.newBase true) i1 (t2 :: i2) e →
      t2.value = .lParen → Derives L (env.withIn true) .argList i2 (t3 :: rest) as →
      t3.value = .rParen →
      Derives L env (.new true) (t :: i1) rest
        (.eNew (spanLoc (some t.location) (some t3.location)) e (.some as))
  | newNoArgs : t.value = .reserved .new → Derives L env (.newBase false) i1 rest e →
      NextIsNot rest .lParen →
      Derives L env (.new false) (t :: i1) rest (.eNew (spanLoc (some t.location) e.loc) e .none)
  | argListNil : Derives L env .argList inp inp .nil
  | argList : Derives L env .args inp rest xs → Derives L env .argList inp rest xs
  | argsLast : Derives L env .arg inp rest x → Derives L env .args inp rest (.cons x .nil)
  | argsCons : Derives L env .arg inp (t :: i1) x → t.value = .comma →
      Derives L env .args i1 rest xs → Derives L env .args inp rest (.cons x xs)
  -- operators
  | postfixNone : NextNotIn rest [.dot, .lBrack, .lParen] → NoPostfix rest →
      Derives L env (.lhs true) inp rest e → Derives L env .postfix inp rest e
  | postInc : Derives L env (.lhs true) inp (t :: rest) (Patt.sourceTarget x) → t.value = .inc →
      t.newline = false → Derives L env .postfix inp rest (.ePostInc (some t.location) x)
  | postDec : Derives L env (.lhs true) inp (t :: rest) (Patt.sourceTarget x) → t.value = .dec →
      t.newline = false → Derives L env .postfix inp rest (.ePostDec (some t.location) x)
  | unaryPostfix : Derives L env .postfix inp rest e → Derives L env .unary inp rest e
  | unop : IsUnop t op → Derives L env .unary i1 rest e →
      Derives L env .unary (t :: i1) rest (.eUnop (spanLoc op.location e.loc) op e)
  | preInc : t.value = .inc → Derives L env .unary i1 rest (Patt.sourceTarget x) →
      Derives L env .unary (t :: i1) rest (.ePreInc (some t.location) x)
  | preDec : t.value = .dec → Derives L env .unary i1 rest (Patt.sourceTarget x) →
      Derives L env .unary (t :: i1) rest (.ePreDec (some t.location) x)
  | binaryUnary : Derives L env .unary inp rest e → Derives L env (.binary 10) inp rest e
  | binaryUp : n < 10 → Derives L env (.binary (n + 1)) inp rest e →
      Derives L env (.binary n) inp rest e
  | binop : Derives L env (.binary (Infix.binop op).level) inp (t :: i1) a → IsBinop env t op →
      Derives L env (.binary ((Infix.binop op).level + 1)) i1 rest b →
      Derives L env (.binary (Infix.binop op).level) inp rest
        (.eBinop (spanLoc a.loc b.loc) op a b)
  | logop : Derives L env (.binary (Infix.logop op).level) inp (t :: i1) a → IsLogop t op →
      Derives L env (.binary ((Infix.logop op).level + 1)) i1 rest b →
      Derives L env (.binary (Infix.logop op).level) inp rest
        (.eLogop (spanLoc a.loc b.loc) op a b)
  | condNone : NoRegExp rest → NoInfix env rest →
      NextIsNot rest .question → Derives L env (.binary 0) inp rest e → Derives L env .cond inp rest e
  | cond : Derives L env (.binary 0) inp (t :: i1) a → t.value = .question →
      Derives L (env.withIn true) .assign i1 (t2 :: i2) b → t2.value = .colon →
      Derives L env .assign i2 rest d →
      Derives L env .cond inp rest (.eCond (spanLoc b.loc d.loc) a b d)
  | assignNone : NoAssign rest → Derives L env .cond inp rest e → Derives L env .assign inp rest e
  | assign : (env.plain = .true → Patt.restFree p) → Patt.Assignable (Patt.sourceExpr p) →
      Derives L env .cond inp (t :: i1) (Patt.sourceExpr p) → t.value = .assign →
      Derives L env .assign i1 rest e →
      Derives L env .assign inp rest (.eAssign (spanLoc p.loc e.loc) p e)
  | binAssign : Derives L env .cond inp (t :: i1) (Patt.sourceTarget x) → IsAssop t op →
      Derives L env .assign i1 rest e →
      Derives L env .assign inp rest (.eBinAssign (spanLoc x.loc e.loc) op x e)
  | exprsLast : NextIsNot rest .comma → Derives L env .assign inp rest e →
      Derives L env .exprs inp rest (.cons e .nil)
  | exprsCons : Derives L env .assign inp (t :: i1) e → t.value = .comma →
      Derives L env .exprs i1 rest es → Derives L env .exprs inp rest (.cons e es)
  | exprOne : NextIsNot rest .comma → Derives L env .assign inp rest e →
      Derives L env .expr inp rest e
  | exprSeq : Derives L env .exprs inp rest (.cons a (.cons b es)) →
      (b :: es.toList).getLast? = some z →
      Derives L env .expr inp rest (.eSeq (spanLoc a.loc z.loc) (.cons a (.cons b es)))
  -- bodies
  | directive {c : Cat} {nt : NT (.list c)} {items : Ast (.list c)} : t.value = .string s →
      (∃ t2 r, i1 = t2 :: r ∧ ¬ Continues t2) → Term .false i1 i2 semi →
      L (t :: i1) i2 l →
      Derives L env (.prologue nt) i2 rest (.body none ds items) →
      Derives L env (.prologue nt) (t :: i1) rest (.body none (⟨l, s, semi⟩ :: ds) items)
  | prologueEnd {c : Cat} {nt : NT (.list c)} {items : Ast (.list c)} :
      ¬ StartsDirective inp →
      (∀ t r s, inp = t :: r → t.value = .string s → NoDivision r) →
      Derives L env nt inp rest items →
      Derives L env (.prologue nt) inp rest (.body none [] items)
  | body {c : Cat} {nt : NT (.list c)} {items : Ast (.list c)} :
      Derives L env (.prologue nt) inp rest (.body none ds items) → L inp rest l →
      Derives L env (.body nt) inp rest (.body l ds items)
  | itemsNil : t.value ∈ followsItems → Derives L env .items (t :: rest) (t :: rest) .nil
  | itemsCons : Derives L env (.item true) inp i1 x → Derives L env .items i1 rest xs →
      Derives L env .items inp rest (.cons x xs)
  | modItemsNil : t.value = .eof → Derives L env .modItems (t :: rest) (t :: rest) .nil
  | modItemsCons : Derives L env (.item true) inp i1 x → Derives L env .modItems i1 rest xs →
      Derives L env .modItems inp rest (.cons (.miItem x) xs)
  | itemStmt : Derives L env .stmt inp rest s → Derives L env (.item decl) inp rest (.siStmt s)
  | itemDecl : Derives L env .decl inp rest d → Derives L env (.item true) inp rest (.siDecl d)
  -- declarations
  | declFun : Derives L env (.func .name) inp rest (.func l0 x ps b gen) → L inp rest l →
      Derives L env .decl inp rest (.dFun (.func l x ps b gen))
  | declLet : t.value = .identifier (.atom .«let») → Derives L env .dtors i1 i2 ds →
      Term .false i2 rest semi → L (t :: i1) rest l →
      Derives L env .decl (t :: i1) rest (.dLet l ds semi)
  | declConst : t.value = .reserved .const → Derives L env .constDtors i1 i2 ds →
      Term .false i2 rest semi → L (t :: i1) rest l →
      Derives L env .decl (t :: i1) rest (.dConst l ds semi)
  | dtorNone : NextIsNot rest .assign → Ident env true t i → L (t :: rest) rest l →
      Derives L env .dtor (t :: rest) rest (.dtSimple l i .none)
  | dtorInit : Ident env true t i → t2.value = .assign → Derives L env .assign i1 rest e →
      L (t :: t2 :: i1) rest l →
      Derives L env .dtor (t :: t2 :: i1) rest (.dtSimple l i (.some e))
  | dtorsLast : NextIsNot rest .comma → Derives L env .dtor inp rest d →
      Derives L env .dtors inp rest (.cons d .nil)
  | dtorsCons : Derives L env .dtor inp (t :: i1) d → t.value = .comma →
      Derives L env .dtors i1 rest ds → Derives L env .dtors inp rest (.cons d ds)
  | constDtor : Derives L env .pattern inp (t :: i1) p → t.value = .assign →
      Derives L env .assign i1 rest e →
      Derives L env .constDtor inp rest (.constDtor (spanLoc p.loc e.loc) p e)
  | constDtorsLast : NextIsNot rest .comma → Derives L env .constDtor inp rest d →
      Derives L env .constDtors inp rest (.cons d .nil)
  | constDtorsCons : Derives L env .constDtor inp (t :: i1) d → t.value = .comma →
      Derives L env .constDtors i1 rest ds → Derives L env .constDtors inp rest (.cons d ds)
  -- statements
  | block : t.value = .lBrace → Derives L env .items i1 (t2 :: rest) xs → t2.value = .rBrace →
      L (t :: i1) rest l → Derives L env .block (t :: i1) rest (.block l xs)
  | blockStmt : Derives L env .block inp rest b → Derives L env .stmt inp rest (.sBlock b)
  | varStmt : t.value = .reserved .var → Derives L env .dtors i1 i2 ds → Term .false i2 rest semi →
      L (t :: i1) rest l → Derives L env .stmt (t :: i1) rest (.sVar l ds semi)
  | emptyStmt : t.value = .semi → L (t :: rest) rest l →
      Derives L env .stmt (t :: rest) rest (.sEmpty l)
  | exprStmt : ExprStmtStart inp → Derives L (env.withIn true) .expr inp i1 e →
      Term .false i1 rest semi → L inp rest l →
      Derives L env .stmt inp rest (.sExpr l e semi)
  | ifStmt : t.value = .reserved .if → t2.value = .lParen →
      Derives L (env.withIn true) .expr i1 (t3 :: i2) e → t3.value = .rParen →
      Derives L env .stmt i2 rest s → NextIsNot rest (.reserved .else) →
      L (t :: t2 :: i1) rest l →
      Derives L env .stmt (t :: t2 :: i1) rest (.sIf l e s .none)
  | ifElseStmt : t.value = .reserved .if → t2.value = .lParen →
      Derives L (env.withIn true) .expr i1 (t3 :: i2) e → t3.value = .rParen →
      Derives L env .stmt i2 (t4 :: i3) s → t4.value = .reserved .else →
      Derives L env .stmt i3 rest s2 → L (t :: t2 :: i1) rest l →
      Derives L env .stmt (t :: t2 :: i1) rest (.sIf l e s (.some s2))
  | doStmt : t.value = .reserved .do → Derives L env.loopBody .stmt i1 (t2 :: t3 :: i2) s →
      t2.value = .reserved .while → t3.value = .lParen →
      Derives L (env.withIn true) .expr i2 (t4 :: i3) e → t4.value = .rParen →
      Term .true i3 rest semi → L (t :: i1) rest l →
      Derives L env .stmt (t :: i1) rest (.sDoWhile l s e semi)
  | whileStmt : t.value = .reserved .while → t2.value = .lParen →
      Derives L (env.withIn true) .expr i1 (t3 :: i2) e → t3.value = .rParen →
      Derives L env.loopBody .stmt i2 rest s → L (t :: t2 :: i1) rest l →
      Derives L env .stmt (t :: t2 :: i1) rest (.sWhile l e s)
  | forStmt : t.value = .reserved .for → t2.value = .lParen →
      Derives L env .forHead i1 i2 head → Derives L env .exprOpt i2 (t3 :: i3) test →
      t3.value = .semi → Derives L env .exprOpt i3 (t4 :: i4) update → t4.value = .rParen →
      Derives L env.loopBody .stmt i4 rest s → L (t :: t2 :: i1) rest l →
      Derives L env .stmt (t :: t2 :: i1) rest (.sFor l head test update s)
  | forInStmt : t.value = .reserved .for → t2.value = .lParen →
      Derives L env .forInHead i1 (t3 :: i2) head → t3.value = .reserved .«in» →
      Derives L (env.withIn true) .assign i2 (t4 :: i3) e → t4.value = .rParen →
      Derives L env.loopBody .stmt i3 rest s → L (t :: t2 :: i1) rest l →
      Derives L env .stmt (t :: t2 :: i1) rest (.sForIn l head e s)
  | forOfStmt : t.value = .reserved .for → t2.value = .lParen →
      Derives L env .forOfHead i1 (t3 :: i2) head → t3.value = .identifier (.atom .of) →
      Derives L (env.withIn true) .assign i2 (t4 :: i3) e → t4.value = .rParen →
      Derives L env.loopBody .stmt i3 rest s → L (t :: t2 :: i1) rest l →
      Derives L env .stmt (t :: t2 :: i1) rest (.sForOf l head e s)
  | exprOptNone : Derives L env .exprOpt inp inp .none
  | exprOptSome : Derives L (env.withIn true) .expr inp rest e →
      Derives L env .exprOpt inp rest (.some e)
  -- heads of `for`: the initializers are parsed without `in`
  | headDtorNone : Ident env true t i →
      Derives L env .headDtor (t :: rest) rest (.dtSimple i.location i .none)
  | headDtorInit : Ident env true t i → t2.value = .assign → Derives L env .assign i1 rest e →
      Derives L env .headDtor (t :: t2 :: i1) rest (.dtSimple (spanLoc i.location e.loc) i (.some e))
  | headDtorsLast : Derives L env .headDtor inp rest d →
      Derives L env .headDtors inp rest (.cons d .nil)
  | headDtorsCons : Derives L env .headDtor inp (t :: i1) d → t.value = .comma →
      Derives L env .dtors i1 rest ds → Derives L env .headDtors inp rest (.cons d ds)
  | forHeadNone : t.value = .semi → Derives L env .forHead (t :: rest) rest .none
  | forHeadVar : t.value = .reserved .var →
      Derives L (env.withIn false) .headDtors i1 (t2 :: rest) ds → t2.value = .semi →
      Derives L env .forHead (t :: i1) rest
        (.some (.fhVar (spanLoc (some t.location) (some t2.location)) ds))
  | forHeadLet : t.value = .identifier (.atom .«let») →
      Derives L (env.withIn false) .headDtors i1 (t2 :: rest) ds → t2.value = .semi →
      Derives L env .forHead (t :: i1) rest
        (.some (.fhLet (spanLoc (some t.location) (some t2.location)) ds))
  | forHeadConst : t.value = .reserved .const →
      Derives L (env.withIn false) .constDtors i1 (t2 :: rest) ds → t2.value = .semi →
      Derives L env .forHead (t :: i1) rest
        (.some (.fhConst (spanLoc (some t.location) (some t2.location)) ds))
  | forHeadExpr : LetNoDivision inp → ForExprStart inp →
      Derives L (env.withIn false) .expr inp (t :: rest) e →
      t.value = .semi →
      Derives L env .forHead inp rest (.some (.fhExpr (spanLoc e.loc (some t.location)) e))
  | forInVarInit : t.value = .reserved .var → Ident env true t2 i → t3.value = .assign →
      Derives L (env.withIn false) .assign i1 rest e →
      Derives L env .forInHead (t :: t2 :: t3 :: i1) rest
        (.fiVarInit (spanLoc (some t.location) e.loc) i e)
  | forInVar : t.value = .reserved .var → Derives L env .pattern i1 rest p →
      Derives L env .forInHead (t :: i1) rest (.fiVar (spanLoc (some t.location) p.loc) p)
  | forInLet : t.value = .identifier (.atom .«let») → Derives L env .pattern i1 rest p →
      Derives L env .forInHead (t :: i1) rest (.fiLet (spanLoc (some t.location) p.loc) p)
  | forInConst : t.value = .reserved .const → Derives L env .pattern i1 rest p →
      Derives L env .forInHead (t :: i1) rest (.fiConst (spanLoc (some t.location) p.loc) p)
  | forInPatt : LetNoDivision inp → (env.plain = .true → Patt.restFree p) →
      Patt.Assignable (Patt.sourceExpr p) → ForExprStart inp →
      Derives L (env.withIn false) .expr inp rest (Patt.sourceExpr p) →
      Derives L env .forInHead inp rest (.fiPatt p)
  | forOfVar : t.value = .reserved .var → Derives L env .pattern i1 rest p →
      Derives L env .forOfHead (t :: i1) rest (.foVar (spanLoc (some t.location) p.loc) p)
  | forOfLet : t.value = .identifier (.atom .«let») → Derives L env .pattern i1 rest p →
      Derives L env .forOfHead (t :: i1) rest (.foLet (spanLoc (some t.location) p.loc) p)
  | forOfConst : t.value = .reserved .const → Derives L env .pattern i1 rest p →
      Derives L env .forOfHead (t :: i1) rest (.foConst (spanLoc (some t.location) p.loc) p)
  | forOfPatt : LetNoDivision inp → (env.plain = .true → Patt.restFree p) →
      Patt.Assignable (Patt.sourceExpr p) → ForExprStart inp →
      Derives L (env.withIn false) .expr inp rest (Patt.sourceExpr p) →
      Derives L env .forOfHead inp rest (.foPatt p)
  -- jumps
  | breakNone : t.value = .reserved .break → NoArgSameLine i1 →
      env.iteration = .true ∨ env.switch = .true → Term .false i1 rest semi →
      L (t :: i1) rest l → Derives L env .stmt (t :: i1) rest (.sBreak l none semi)
  | breakLabel : t.value = .reserved .break → ArgSameLine (t2 :: i1) → Ident env false t2 i →
      (∃ loop, (i.name, loop) ∈ env.labels) → Term .false i1 rest semi →
      L (t :: t2 :: i1) rest l →
      Derives L env .stmt (t :: t2 :: i1) rest (.sBreak l (some i) semi)
  | continueNone : t.value = .reserved .continue → NoArgSameLine i1 →
      env.iteration = .true → Term .false i1 rest semi →
      L (t :: i1) rest l → Derives L env .stmt (t :: i1) rest (.sCont l none semi)
  | continueLabel : t.value = .reserved .continue → ArgSameLine (t2 :: i1) → Ident env false t2 i →
      (i.name, .true) ∈ env.labels → Term .false i1 rest semi → L (t :: t2 :: i1) rest l →
      Derives L env .stmt (t :: t2 :: i1) rest (.sCont l (some i) semi)
  | returnNone : t.value = .reserved .return → NoArgSameLine i1 → env.function = .true →
      Term .false i1 rest semi → L (t :: i1) rest l →
      Derives L env .stmt (t :: i1) rest (.sReturn l .none semi)
  | returnExpr : t.value = .reserved .return → ArgSameLine i1 → env.function = .true →
      Derives L (env.withIn true) .expr i1 i2 e → Term .false i2 rest semi →
      L (t :: i1) rest l →
      Derives L env .stmt (t :: i1) rest (.sReturn l (.some e) semi)
  | throwStmt : t.value = .reserved .throw → ArgSameLine i1 →
      Derives L (env.withIn true) .expr i1 i2 e → Term .false i2 rest semi →
      L (t :: i1) rest l → Derives L env .stmt (t :: i1) rest (.sThrow l e semi)
  -- the rest
  | withStmt : t.value = .reserved .with → env.strict = .false → t2.value = .lParen →
      Derives L (env.withIn true) .expr i1 (t3 :: i2) e → t3.value = .rParen →
      Derives L env .stmt i2 rest s → L (t :: t2 :: i1) rest l →
      Derives L env .stmt (t :: t2 :: i1) rest (.sWith l e s)
  | switchStmt : t.value = .reserved .switch → t2.value = .lParen →
      Derives L (env.withIn true) .expr i1 (t3 :: t4 :: i2) e → t3.value = .rParen →
      t4.value = .lBrace → Derives L env.switchBody .cases i2 (t5 :: rest) cs →
      t5.value = .rBrace → (cs.toList.filter isDefault).length ≤ 1 →
      L (t :: t2 :: i1) rest l →
      Derives L env .stmt (t :: t2 :: i1) rest (.sSwitch l e cs)
  | casesNil : Derives L env .cases inp inp .nil
  | casesCons : Derives L env .case inp i1 x → Derives L env .cases i1 rest xs →
      Derives L env .cases inp rest (.cons x xs)
  | case : t.value = .reserved .case → Derives L (env.withIn true) .expr i1 (t2 :: i2) e →
      t2.value = .colon → Derives L env .items i2 rest xs → L (t :: i1) rest l →
      Derives L env .case (t :: i1) rest (.caseClause l (.some e) xs)
  | default : t.value = .reserved .default → t2.value = .colon →
      Derives L env .items i1 rest xs → L (t :: t2 :: i1) rest l →
      Derives L env .case (t :: t2 :: i1) rest (.caseClause l .none xs)
  | labelStmt : (env.plain = .true → ∀ b, (i.name, b) ∉ env.labels) → Ident env false t i →
      t2.value = .colon →
      Derives L (env.label i.name (isLoop s)) .stmt i1 rest s →
      Derives L env .stmt (t :: t2 :: i1) rest (.sLabel (spanLoc i.location s.loc) i s)
  | tryStmt : t.value = .reserved .try → Derives L env .block i1 i2 b →
      Derives L env .catchOpt i2 i3 x → Derives L env .finallyOpt i3 rest f →
      x ≠ .none ∨ f ≠ .none → L (t :: i1) rest l →
      Derives L env .stmt (t :: i1) rest (.sTry l b x f)
  | catchNone : Derives L env .catchOpt inp inp .none
  | catchSome : t.value = .reserved .catch → t2.value = .lParen →
      Derives L env .pattern i1 (t3 :: i2) p → t3.value = .rParen →
      Derives L env .block i2 rest b → L (t :: t2 :: i1) rest l →
      Derives L env .catchOpt (t :: t2 :: i1) rest (.some (.catchClause l p b))
  | finallyNone : NextIsNot inp (.reserved .finally) → Derives L env .finallyOpt inp inp .none
  | finallySome : t.value = .reserved .finally → Derives L env .block i1 rest b →
      Derives L env .finallyOpt (t :: i1) rest (.some b)
  | debuggerStmt : t.value = .reserved .debugger → Term .false i1 rest semi →
      L (t :: i1) rest l → Derives L env .stmt (t :: i1) rest (.sDebugger l semi)

end Grammar

end Esprit
