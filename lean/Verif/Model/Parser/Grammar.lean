import Verif.Model.Parser.Base

/-!
Model of `src/parser.rs` (expressions, statements, declarations).

The mutually recursive methods are written with open recursion: every
function takes the record `Rec` of the two functions through which all
recursion passes, `assignment_expression` and `stmt_list_item`; `Rec.ofFuel`
ties the knot with a recursion budget.  The budget used by the API functions
(`Verif/Model/Parser/Program.lean`) is never exhausted (proved in
`Verif/Proofs/Parser`).
-/

namespace Esprit

/-- easter stmt.rs:122 derived `TrackingRef`/`TrackingMut` for `Dir`. -/
instance : Tracking Dir := ⟨Dir.location, fun l d => { d with location := l }⟩

/-- The two methods through which every recursion of the parser passes. -/
structure Rec where
  /-- parser.rs:1629 `assignment_expression` -/
  assign : P Expr
  /-- parser.rs:449 `stmt_list_item` -/
  item : Bool → P StmtListItem

namespace P

variable [Env]

/-! ### Identifiers -/

/-- parser.rs:572-588: the check performed by `new_id`. -/
def newIdCheck (binding : Bool) (name : Name) (location : Span) : P (Option Check) :=
  if binding && name.isIllegalStrictBinding then
    match name.toAtom with
    | some a => pure (some (.strict (.illegalStrictBinding location a)))
    | none => panic .unwrapNone
  else if name.isStrictReserved ≠ .no then
    match name.toAtom with
    | some a =>
      let error := PError.contextualKeyword location a
      pure (some (if name.isStrictReserved = .yes then .strict error else .module error))
    | none => panic .unwrapNone
  else pure none

/-- parser.rs:571-590 `new_id`. -/
def newId (binding : Bool) (name : Name) (location : Span) : P Id := do
  strictCheck (newIdCheck binding name location)
  pure ⟨some location, name⟩

/-- parser.rs:564-569 `new_id_from_token`. -/
def newIdFromToken (binding : Bool) (token : Token) : P Id :=
  match token.value with
  | .identifier name => newId binding name token.location
  | _ => panic .unreachable

/-- parser.rs:592-602 `id`. -/
def id (binding : Bool) : P Id := do
  let token ← read
  match token.value with
  | .identifier name => newId binding name token.location
  | _ => throw (.unexpectedToken token)

/-- parser.rs:604-613 `id_opt`. -/
def idOpt (binding : Bool) : P (Option Id) := do
  let next ← read
  match next.value with
  | .identifier name => do
    let i ← newId binding name next.location
    pure (some i)
  | _ => do
    unread next
    pure none

/-! ### Patterns and parameters -/

/-- parser.rs:381-386 `binding_pattern`. -/
def bindingPattern : P (Ast (.comp .id)) := do
  let t ← peek
  if !t.firstBinding then unexpected
  else throw (.unsupportedFeature c!"destructuring")

/-- parser.rs:368-379 `pattern`. -/
def pattern : P PattId := do
  let t ← peek
  match t.value with
  | .identifier _ => do
    let i ← id true
    pure (.pSimple (.ident i))
  | _ => do
    let p ← bindingPattern
    pure (.pCompound p)

/-- parser.rs:336-358: one iteration of the loop of `formal_parameters`. -/
def paramsStep (list : List PattId) :
    P (List PattId ⊕ (List PattId × Option (Ast (.rest .id)))) := do
  let t ← peek
  match t.value with
  | .rParen => pure (.inr (list, none))
  | .ellipsis => do
    let rest ← span do
      let _ ← reread .ellipsis
      let p ← pattern
      pure (Ast.restPatt none p)
    pure (.inr (list, some rest))
  | _ => do
    let p ← pattern
    let list := list ++ [p]
    if !(← «matches» .comma) then pure (.inr (list, none))
    else pure (.inl list)

/-- parser.rs:331-366 `formal_parameters`. -/
def formalParameters : P (Ast .params) := span do
  let _ ← expect .lParen
  let (list, rest) ← loop paramsStep []
  let _ ← expect .rParen
  pure (.params none (.ofList list) (.ofOption rest))

/-! ### Directives and function bodies -/

/-- parser.rs:166-182 `match_directive_opt`. -/
def matchDirectiveOpt : P (Option Dir) := do
  let start ← posn
  let token1 ← read
  match token1.value with
  | .string literal => do
    let t ← peek
    if !t.expressionContinuation then do
      let dir ← endWithAutoSemi start .required fun semi => Dir.mk none literal semi
      pure (some dir)
    else do
      unread token1
      pure none
  | _ => do
    unread token1
    pure none

/-- parser.rs:184-187 `set_module`. -/
def setModule : P Unit :=
  modify fun s => { s with goal := .module, ctx := { s.ctx with strict := .yes } }

/-- parser.rs:244-255: one iteration of the loop of `body_directives`. -/
def directivesStep (dirs : List Dir) : P (List Dir ⊕ List Dir) := do
  match ← matchDirectiveOpt with
  | none => pure (.inr dirs)
  | some dir => do
    let s ← get
    if dir.pragma = c!"use strict" then
      modify fun s => { s with ctx := { s.ctx with strict := .yes } }
    else if dir.pragma = c!"use module" && !s.ctx.function then setModule
    else pure ()
    pure (.inl (dirs ++ [dir]))

/-- parser.rs:241-258 `body_directives`. -/
def bodyDirectives : P (List Dir) := loop directivesStep []

/-- parser.rs:318-321: one iteration of the loop of `statement_list`. -/
def statementListStep (r : Rec) (items : List StmtListItem) :
    P (List StmtListItem ⊕ List StmtListItem) := do
  let t ← peek
  if !t.followStatementList then do
    let i ← r.item true
    pure (.inl (items ++ [i]))
  else pure (.inr items)

/-- parser.rs:316-323 `statement_list`. -/
def statementList (r : Rec) : P (List StmtListItem) := loop (statementListStep r) []

/-- parser.rs:231-239 `script_body`. -/
def scriptBody (r : Rec) : P Script := span do
  let dirs ← bodyDirectives
  let items ← statementList r
  pure (.body none dirs (.ofList items))

/-- parser.rs:434-443: the check performed by `function_body`. -/
def functionBodyCheck (params : List PattId) (dirs : List Dir) : Option Check :=
  if dirs.any fun d => d.pragma = c!"use strict" then
    params.findSome? fun p =>
      match p with
      | .pCompound compound => some (.strict (.compoundParamWithUseStrict compound))
      | .pSimple _ => none
  else none

/-- The directives of a script. -/
def dirsOf (b : Script) : List Dir :=
  match b with
  | .body _ dirs _ => dirs

/-- parser.rs:428-447 `function_body`. -/
def functionBody (r : Rec) (params : List PattId) : P Script := do
  let outer ← get
  modify fun s => { s with ctx := s.ctx.newFunction }
  let _ ← expect .lBrace
  let body ← scriptBody r
  strictCheck (pure (functionBodyCheck params (dirsOf body)))
  let _ ← expect .rBrace
  modify fun s => { s with ctx := outer.ctx }
  pure body

/-- The `list` field of `Params`. -/
def paramList (p : Ast .params) : List PattId :=
  match p with
  | .params _ ps _ => ps.toList

/-- parser.rs:415-426 `function`. -/
def function (r : Rec) {c : Cat} (getId : P (Ast c)) : P (Ast (.func c)) := span do
  let _ ← reread (.reserved .function)
  let generator ← «matches» .star
  let i ← getId
  let params ← formalParameters
  let body ← functionBody r (paramList params)
  pure (.func none i params body generator)

/-- parser.rs:325-329 `function_declaration`. -/
def functionDeclaration (r : Rec) : P (Ast .decl) := span do
  let f ← function r (do let i ← id true; pure (.ident i))
  pure (.dFun f)

/-! ### Expressions -/

/-- parser.rs:958-960: one iteration of the loop of `more_comma`. -/
def moreCommaStep {α : Type} (f : P α) (items : List α) : P (List α ⊕ List α) := do
  if ← «matches» .comma then do
    let x ← f
    pure (.inl (items ++ [x]))
  else pure (.inr items)

/-- parser.rs:954-962 `more_comma`. -/
def moreComma {α : Type} (first : α) (f : P α) : P (List α) := loop (moreCommaStep f) [first]

/-- parser.rs:947-952 `comma_separated`. -/
def commaSeparated {α : Type} (f : P α) : P (List α) := do
  let first ← f
  moreComma first f

/-- parser.rs:1687-1694 `more_expressions`. -/
def moreExpressions (r : Rec) (first : Expr) : P Expr := do
  let t ← peek
  if !t.value.eqv .comma then pure first
  else do
    let elts ← moreComma first r.assign
    let location ← vecSpan elts
    pure (.eSeq location (.ofList elts))

/-- parser.rs:1682-1685 `expression`. -/
def expression (r : Rec) : P Expr := do
  let first ← r.assign
  moreExpressions r first

/-- parser.rs:1150-1155 `paren_expression`. -/
def parenExpression (r : Rec) : P Expr := do
  let _ ← expect .lParen
  let result ← allowIn true (expression r)
  let _ ← expect .rParen
  pure result

/-- parser.rs:1214-1227 `expr_list_item`. -/
def exprListItem (r : Rec) : P (Ast .item) := do
  let t ← peek
  match t.value with
  | .ellipsis => span do
    let _ ← reread .ellipsis
    let expr ← r.assign
    pure (.iSpread none expr)
  | _ => do
    let expr ← r.assign
    pure (.iExpr expr)

/-- parser.rs:1229-1234 `array_element`. -/
def arrayElement (r : Rec) : P (Ast (.opt .item)) := do
  let t ← peek
  if t.value.eqv .comma then pure .none
  else do
    let i ← exprListItem r
    pure (.some i)

/-- parser.rs:1199-1208: one iteration of the loop of `array_literal`. -/
def arrayStep (r : Rec) (elts : List (Ast (.opt .item))) :
    P (List (Ast (.opt .item)) ⊕ List (Ast (.opt .item))) := do
  let t ← peek
  if t.value.eqv .rBrack then pure (.inr elts)
  else do
    let e ← arrayElement r
    let elts := elts ++ [e]
    if !(← «matches» .comma) then pure (.inr elts)
    else pure (.inl elts)

/-- parser.rs:1195-1212 `array_literal`. -/
def arrayLiteral (r : Rec) (start : Token) : P Expr := allowIn true do
  let elts ← loop (arrayStep r) []
  let «end» ← expect .rBrack
  pure (.eArr (spanLoc (some start.location) (some «end».location)) (.ofList elts))

/-- parser.rs:1252-1279 `more_prop_init`. -/
def morePropInit (r : Rec) (key : PropKey) : P (Ast .prop) := do
  let t ← peek
  match t.value with
  | .colon => do
    skip
    let val ← allowIn true r.assign
    pure (.prRegular (spanLoc key.loc val.loc) key (.vInit val))
  | .lParen => do
    let params ← formalParameters
    let body ← functionBody r (paramList params)
    pure (.prMethod (.func (spanLoc key.loc body.loc) (.key key) params body false))
  | .comma | .rBrace =>
    match key with
    | .id location name =>
      match location with
      | some location => do
        let i ← newId false (Name.from name) location
        pure (.prShorthand i)
      | none => panic .unwrapNone
    | _ => unexpected
  | _ => unexpected

/-- parser.rs:1281-1294 `property_key_opt`. -/
def propertyKeyOpt : P (Option PropKey) := do
  let token ← read
  let location := some token.location
  match token.value with
  | .identifier name => pure (some (.id location name.intoString))
  | .reserved word => pure (some (.id location word.name))
  | .string s => pure (some (.string location s))
  | .number n => pure (some (.number location n))
  | _ => do
    unread token
    pure none

/-- parser.rs:1296-1301 `property_key`. -/
def propertyKey : P PropKey := do
  match ← propertyKeyOpt with
  | some key => pure key
  | none => unexpected

/-- parser.rs:1303-1361 `object_property`. -/
def objectProperty (r : Rec) : P (Ast .prop) := do
  let first ← read
  match first.value with
  | .identifier (.atom .get) => do
    match ← propertyKeyOpt with
    | some key => do
      let paren ← expect .lParen
      let _ ← expect .rParen
      let body ← functionBody r []
      pure (.prRegular (spanLoc key.loc body.loc) key
        (.vGet (spanLoc (some paren.location) body.loc) body))
    | none => morePropInit r (.id (some first.location) c!"get")
  | .identifier (.atom .set) => do
    match ← propertyKeyOpt with
    | some key => do
      let paren ← expect .lParen
      let param ← pattern
      let _ ← expect .rParen
      let body ← functionBody r [param]
      pure (.prRegular (spanLoc key.loc body.loc) key
        (.vSet (spanLoc (some paren.location) body.loc) param body))
    | none => morePropInit r (.id (some first.location) c!"set")
  | .star => do
    let key ← propertyKey
    let params ← formalParameters
    let body ← functionBody r (paramList params)
    pure (.prMethod (.func (spanLoc key.loc body.loc) (.key key) params body true))
  | .reserved _ => do
    let t ← peek
    match t.value with
    | .comma | .rBrace => throw (.unexpectedToken first)
    | _ => do
      unread first
      let key ← propertyKey
      morePropInit r key
  | _ => do
    unread first
    let key ← propertyKey
    morePropInit r key

/-- parser.rs:1239-1247: one iteration of the loop of `object_literal`. -/
def objectStep (r : Rec) (props : List (Ast .prop)) :
    P (List (Ast .prop) ⊕ List (Ast .prop)) := do
  let t ← peek
  if t.value.eqv .rBrace then pure (.inr props)
  else do
    let p ← objectProperty r
    let props := props ++ [p]
    if !(← «matches» .comma) then pure (.inr props)
    else pure (.inl props)

/-- parser.rs:1236-1250 `object_literal`. -/
def objectLiteral (r : Rec) (start : Token) : P Expr := do
  let props ← loop (objectStep r) []
  let «end» ← expect .rBrace
  pure (.eObj (spanLoc (some start.location) (some «end».location)) (.ofList props))

/-- parser.rs:1168-1193 `primary_expression`. -/
def primaryExpression (r : Rec) : P Expr := do
  let token ← read
  let location := token.location
  match token.value with
  | .identifier name => do
    let i ← newId false name location
    pure (.eId i)
  | .reserved .null => pure (.eNull (some location))
  | .reserved .this => pure (.eThis (some location))
  | .reserved .true => pure (.eTrue (some location))
  | .reserved .false => pure (.eFalse (some location))
  | .number literal => pure (.eNumber (some location) literal)
  | .string literal => pure (.eString (some location) literal)
  | .regExp literal => pure (.eRegExp (some location) literal)
  | .lBrack => arrayLiteral r token
  | .lBrace => objectLiteral r token
  | .reserved .function => do
    unread token
    let f ← function r (do let i ← idOpt true; pure (.ofOption (i.map .ident)))
    pure (.eFun f)
  | .lParen => do
    unread token
    parenExpression r
  | _ => throw (.unexpectedToken token)

/-- parser.rs:1366-1373 `member_base_expression`. -/
def memberBaseExpression (r : Rec) : P Expr := do
  match ← matchesToken (.reserved .new) with
  | some new => do
    let _ ← expect .dot
    let target ← expect (.identifier (.atom .target))
    pure (.eNewTarget (spanLoc (some new.location) (some target.location)))
  | none => primaryExpression r

/-- parser.rs:1426-1431: one iteration of the loop of `arguments`. -/
def argumentsStep (r : Rec) (args : List (Ast .item)) :
    P (List (Ast .item) ⊕ List (Ast .item)) := do
  let i ← exprListItem r
  let args := args ++ [i]
  if !(← «matches» .comma) then pure (.inr args)
  else pure (.inl args)

/-- parser.rs:1421-1436 `arguments`. -/
def arguments (r : Rec) : P Arguments := allowIn true do
  let _ ← expect .lParen
  let t ← peek
  let args ← if !t.value.eqv .rParen then loop (argumentsStep r) [] else pure []
  let «end» ← expect .rParen
  pure ⟨args, «end»⟩

/-- parser.rs:1449-1454 `deref_brack`. -/
def derefBrack (r : Rec) : P Deref := do
  let _ ← reread .lBrack
  let expr ← allowIn true (expression r)
  let «end» ← expect .rBrack
  pure (.brack expr «end»)

/-- parser.rs:1456-1466 `id_name`. -/
def idName : P DotKey := do
  let token ← read
  match token.value with
  | .identifier name => pure ⟨some token.location, name.intoString⟩
  | .reserved word => pure ⟨some token.location, word.name⟩
  | _ => throw (.unexpectedToken token)

/-- parser.rs:1468-1471 `deref_dot`. -/
def derefDot : P Deref := do
  let _ ← reread .dot
  let k ← idName
  pure (.dot k)

/-- parser.rs:1441-1447 `deref_opt`. -/
def derefOpt (r : Rec) : P (Option Deref) := do
  let t ← peekOp
  match t.value with
  | .lBrack => do
    let d ← derefBrack r
    pure (some d)
  | .dot => do
    let d ← derefDot
    pure (some d)
  | _ => pure none

/-- parser.rs:1411-1418 `suffix_opt`. -/
def suffixOpt (r : Rec) : P (Option Suffix) := do
  let t ← peekOp
  match t.value with
  | .dot => do
    let d ← derefDot
    pure (some (.deref d))
  | .lBrack => do
    let d ← derefBrack r
    pure (some (.deref d))
  | .lParen => do
    let a ← arguments r
    pure (some (.arguments a))
  | _ => pure none

/-- parser.rs:1475-1477: one iteration of the loop of `more_suffixes`. -/
def suffixStep (r : Rec) (result : Expr) : P (Expr ⊕ Expr) := do
  match ← suffixOpt r with
  | some suffix => pure (.inl (suffix.appendTo result))
  | none => pure (.inr result)

/-- parser.rs:1474-1479 `more_suffixes`. -/
def moreSuffixes (r : Rec) (result : Expr) : P Expr := loop (suffixStep r) result

/-- parser.rs:1384-1386: one iteration of the first loop of
`more_new_expression`. -/
def derefStep (r : Rec) (base : Expr) : P (Expr ⊕ Expr) := do
  match ← derefOpt r with
  | some deref => pure (.inl (deref.appendTo base))
  | none => pure (.inr base)

/-- parser.rs:1387-1396: the loop of `more_new_expression` over the `new`
tokens, innermost first. -/
def newLoop (r : Rec) : List Token → Bool → Expr → P Expr
  | [], _, base => pure base
  | new :: news, hasArgs, base => do
    let hasArgs ← if hasArgs then do
        let t ← peekOp
        pure (t.value.eqv .lParen)
      else pure false
    if hasArgs then do
      let args ← arguments r
      newLoop r news hasArgs (args.appendToNew new base)
    else
      newLoop r news hasArgs (.eNew (spanLoc (some new.location) base.loc) base .none)

/-- parser.rs:1383-1398 `more_new_expression`. -/
def moreNewExpression (r : Rec) (news : List Token) (base : Expr) : P Expr := do
  let base ← loop (derefStep r) base
  let base ← newLoop r news.reverse true base
  moreSuffixes r base

/-- parser.rs:1376-1380 `new_expression`. -/
def newExpression (r : Rec) (news : List Token) : P Expr := do
  let base ← memberBaseExpression r
  moreNewExpression r news base

/-- parser.rs:1402-1406 `call_expression`. -/
def callExpression (r : Rec) : P Expr := do
  let base ← primaryExpression r
  moreSuffixes r base

/-- parser.rs:1486-1488: one iteration of the loop of `lhs_expression`. -/
def newsStep (news : List Token) : P (List Token ⊕ List Token) := do
  let t ← peek
  if t.value.eqv (.reserved .new) then do
    let new ← reread (.reserved .new)
    pure (.inl (news ++ [new]))
  else pure (.inr news)

/-- parser.rs:1484-1506 `lhs_expression`. -/
def lhsExpression (r : Rec) : P Expr := do
  let news ← loop newsStep []
  if news.length > 0 then do
    if ← matchesOp .dot then do
      let target ← expect (.identifier (.atom .target))
      let newLocation := news.getLast?.map (·.location)
      let news := news.dropLast
      let newTarget : Expr := .eNewTarget (spanLoc newLocation (some target.location))
      if news.length > 0 then moreNewExpression r news newTarget
      else moreSuffixes r newTarget
    else newExpression r news
  else callExpression r

/-- parser.rs:1579-1586: the unary operator of a token. -/
def unopTag : TokenData → Option UnopTag
  | .reserved .delete => some .delete
  | .reserved .void => some .void
  | .reserved .typeof => some .typeof
  | .plus => some .plus
  | .minus => some .minus
  | .tilde => some .bitNot
  | .bang => some .not
  | _ => none

/-- parser.rs:1576-1589 `match_unop`. -/
def matchUnop : P (Option (Op UnopTag)) := do
  let token ← read
  match unopTag token.value with
  | some tag => pure (some ⟨some token.location, tag⟩)
  | none => do
    unread token
    pure none

/-- parser.rs:1556-1566 `match_prefix`. -/
def matchPrefix : P (Option Prefix) := do
  let token ← read
  match token.value with
  | .inc => pure (some (.inc token.location))
  | .dec => pure (some (.dec token.location))
  | _ => do
    unread token
    let op ← matchUnop
    pure (op.map .unop)

/-- parser.rs:1594-1605 `match_postfix_operator_opt`. -/
def matchPostfixOperatorOpt : P (Option Postfix) := do
  let next ← readOp
  if !next.newline then
    match next.value with
    | .inc => pure (some (.inc next.location))
    | .dec => pure (some (.dec next.location))
    | _ => do
      unread next
      pure none
  else do
    unread next
    pure none

/-- `into_assign_target` with the parser's error wrapping, e.g.
parser.rs:1517-1526. -/
def toTarget (e : Expr) : P AssignTarget :=
  match Cover.intoAssignTarget e with
  | .ok t => pure t
  | .error err => throw (.invalidLHS e.loc err)

/-- `into_assign_patt` with the parser's error wrapping, e.g.
parser.rs:1636-1641. -/
def toPatt (e : Expr) : P PattTarget :=
  match Cover.intoAssignPatt e with
  | .ok t => pure t
  | .error err => throw (.invalidLHS e.loc err)

/-- parser.rs:1512-1514: one iteration of the loop over the prefixes. -/
def prefixStep (prefixes : List Prefix) : P (List Prefix ⊕ List Prefix) := do
  match ← matchPrefix with
  | some p => pure (.inl (prefixes ++ [p]))
  | none => pure (.inr prefixes)

/-- parser.rs:1516-1527: the optional postfix operator. -/
def applyPostfix (postfixOp : Option Postfix) (arg : Expr) : P Expr :=
  match postfixOp with
  | none => pure arg
  | some (.inc location) => do
    let target ← toTarget arg
    pure (.ePostInc (some location) target)
  | some (.dec location) => do
    let target ← toTarget arg
    pure (.ePostDec (some location) target)

/-- parser.rs:1528-1548: the loop over the prefixes, innermost first. -/
def applyPrefixes : List Prefix → Expr → P Expr
  | [], arg => pure arg
  | .unop op :: ps, arg => applyPrefixes ps (.eUnop (spanLoc op.location arg.loc) op arg)
  | .inc location :: ps, arg => do
    let target ← toTarget arg
    applyPrefixes ps (.ePreInc (some location) target)
  | .dec location :: ps, arg => do
    let target ← toTarget arg
    applyPrefixes ps (.ePreDec (some location) target)

/-- parser.rs:1510-1550 `unary_expression`. -/
def unaryExpression (r : Rec) : P Expr := do
  let prefixes ← loop prefixStep []
  let arg ← lhsExpression r
  let postfixOp ← matchPostfixOperatorOpt
  let arg ← applyPostfix postfixOp arg
  applyPrefixes prefixes.reverse arg

/-- parser.rs:1669-1678 `match_infix`. -/
def matchInfix : P (Option Infix) := do
  let token ← readOp
  let s ← get
  match token.toBinop s.ctx.allowIn with
  | some op => pure (some (.binop op))
  | none =>
    match token.toLogop with
    | some op => pure (some (.logop op))
    | none => do
      unread token
      pure none

/-- parser.rs:1661-1665: one iteration of the loop of
`more_infix_expressions`. -/
def infixStep (r : Rec) (st : Stack × Expr) : P ((Stack × Expr) ⊕ (Stack × Expr)) := do
  match ← matchInfix with
  | some op => do
    let stack := st.1.extend st.2 op
    let operand ← unaryExpression r
    pure (.inl (stack, operand))
  | none => pure (.inr st)

/-- parser.rs:1658-1667 `more_infix_expressions`. -/
def moreInfixExpressions (r : Rec) (left : Expr) : P Expr := do
  let (stack, operand) ← loop (infixStep r) ([], left)
  pure (Stack.finish stack operand)

/-- parser.rs:1615-1624 `more_conditional`. -/
def moreConditional (r : Rec) (left : Expr) : P Expr := do
  if ← matchesOp .question then do
    let thn ← allowIn true r.assign
    let _ ← expect .colon
    let alt ← r.assign
    pure (.eCond (spanLoc thn.loc alt.loc) left thn alt)
  else pure left

/-- parser.rs:1609-1613 `conditional_expression`. -/
def conditionalExpression (r : Rec) : P Expr := do
  let left ← unaryExpression r
  let test ← moreInfixExpressions r left
  moreConditional r test

/-- parser.rs:1634-1656 `more_assignment`. -/
def moreAssignment (r : Rec) (left : Expr) : P Expr := do
  let token ← readOp
  if token.value.eqv .assign then do
    let left ← toPatt left
    let right ← r.assign
    pure (.eAssign (spanLoc left.loc right.loc) left right)
  else
    match token.toAssop with
    | some op => do
      let left ← toTarget left
      let right ← r.assign
      pure (.eBinAssign (spanLoc left.loc right.loc) op left right)
    | none => do
      unread token
      pure left

/-- parser.rs:1629-1632 `assignment_expression`. -/
def assignmentExpression (r : Rec) : P Expr := do
  let left ← conditionalExpression r
  moreAssignment r left

/-! ### Statements and declarations -/

/-- parser.rs:526-530 `expression_statement`. -/
def expressionStatement (r : Rec) : P Stmt := do
  let start ← posn
  let expr ← allowIn true (expression r)
  endWithAutoSemi start .required fun semi => .sExpr none expr semi

/-- parser.rs:501-506 `statement`. -/
def statement (r : Rec) : P Stmt := do
  let item ← r.item false
  match item with
  | .siStmt stmt => pure stmt
  | .siDecl _ => panic .unreachable

/-- parser.rs:513-520: one iteration of the loop of `labelled_statement`. -/
def labelStep (labels : List Id) : P (List Id ⊕ List Id) := do
  let t ← peek
  match t.value with
  | .identifier _ => do
    let token ← rereadToken
    if !(← matchesOp .colon) then do
      unread token
      pure (.inr labels)
    else do
      let i ← newIdFromToken false token
      pure (.inl (labels ++ [i]))
  | _ => pure (.inr labels)

/-- parser.rs:508-524 `labelled_statement`. -/
def labelledStatement (r : Rec) (i : Id) : P Stmt := do
  let _ ← reread .colon
  let labels ← loop labelStep [i]
  let t ← peek
  withLabels labels t.labelType (statement r)

/-- parser.rs:532-542 `block`. -/
def block (r : Rec) : P (Ast .block) := span do
  let _ ← expect .lBrace
  let items ← statementList r
  let _ ← expect .rBrace
  pure (.block none (.ofList items))

/-- parser.rs:615-635 `declarator`. -/
def declarator (r : Rec) : P (Ast .dtor) := span do
  let t ← peek
  match t.value with
  | .identifier _ => do
    let i ← id true
    let init ← if ← «matches» .assign then do
        let e ← r.assign
        pure (Ast.some e)
      else pure Ast.none
    pure (.dtSimple none i init)
  | _ => do
    let lhs ← bindingPattern
    let _ ← expect .assign
    let rhs ← r.assign
    pure (.dtCompound none lhs rhs)

/-- parser.rs:637-642 `const_declarator`. -/
def constDeclarator (r : Rec) : P (Ast .constDtor) := do
  let lhs ← pattern
  let _ ← expect .assign
  let rhs ← r.assign
  pure (ConstDtor.fromInit lhs rhs)

/-- parser.rs:544-549 `var_statement`. -/
def varStatement (r : Rec) : P Stmt := do
  let start ← posn
  let _ ← reread (.reserved .var)
  let dtors ← commaSeparated (declarator r)
  endWithAutoSemi start .required fun semi => .sVar none (.ofList dtors) semi

/-- parser.rs:551-555 `let_declaration`. -/
def letDeclaration (r : Rec) (start : Posn) : P (Ast .decl) := do
  let dtors ← commaSeparated (declarator r)
  endWithAutoSemi start .required fun semi => .dLet none (.ofList dtors) semi

/-- parser.rs:557-562 `const_declaration`. -/
def constDeclaration (r : Rec) : P (Ast .decl) := do
  let start ← posn
  let _ ← reread (.reserved .const)
  let dtors ← commaSeparated (constDeclarator r)
  endWithAutoSemi start .required fun semi => .dConst none (.ofList dtors) semi

/-- parser.rs:644-649 `empty_statement`. -/
def emptyStatement : P Stmt := span do
  let _ ← expect .semi
  pure (.sEmpty none)

/-- parser.rs:651-664 `if_statement`. -/
def ifStatement (r : Rec) : P Stmt := span do
  let _ ← expect (.reserved .if)
  let test ← parenExpression r
  let thn ← statement r
  let t ← peek
  let alt ← if t.value.eqv (.reserved .else) then do
      let _ ← reread (.reserved .else)
      let s ← statement r
      pure (Ast.some s)
    else pure Ast.none
  pure (.sIf none test thn alt)

/-- parser.rs:666-671 `iteration_body`. -/
def iterationBody (r : Rec) : P Stmt := do
  let s ← get
  modify fun s => { s with ctx := { s.ctx with iteration := true } }
  let result ← statement r
  modify fun s' => { s' with ctx := { s'.ctx with iteration := s.ctx.iteration } }
  pure result

/-- parser.rs:673-682 `do_statement`. -/
def doStatement (r : Rec) : P Stmt := do
  let start ← posn
  let _ ← reread (.reserved .do)
  let body ← iterationBody r
  let _ ← expect (.reserved .while)
  let test ← parenExpression r
  endWithAutoSemi start .optional fun semi => .sDoWhile none body test semi

/-- parser.rs:684-691 `while_statement`. -/
def whileStatement (r : Rec) : P Stmt := span do
  let _ ← reread (.reserved .while)
  let test ← parenExpression r
  let body ← iterationBody r
  pure (.sWhile none test body)

/-- parser.rs:937-945 `expression_opt_semi`. -/
def expressionOptSemi (r : Rec) : P (Ast (.opt .expr)) := do
  if ← «matches» .semi then pure .none
  else do
    let expr ← allowIn true (expression r)
    let _ ← expect .semi
    pure (.some expr)

/-- parser.rs:910-916: the update part of `more_for`. -/
def forUpdate (r : Rec) : P (Ast (.opt .expr)) := do
  if ← «matches» .rParen then pure .none
  else do
    let node ← allowIn true (expression r)
    let _ ← expect .rParen
    pure (.some node)

/-- parser.rs:908-919 `more_for`. -/
def moreFor (r : Rec) (head : Ast (.opt .forHead)) : P Stmt := do
  let test ← expressionOptSemi r
  let update ← forUpdate r
  let body ← iterationBody r
  pure (.sFor none head test update body)

/-- parser.rs:922-927 `more_for_in`. -/
def moreForIn (r : Rec) (head : Ast .forInHead) : P Stmt := do
  let obj ← allowIn true r.assign
  let _ ← expect .rParen
  let body ← iterationBody r
  pure (.sForIn none head obj body)

/-- parser.rs:930-935 `more_for_of`. -/
def moreForOf (r : Rec) (head : Ast .forOfHead) : P Stmt := do
  let obj ← allowIn true r.assign
  let _ ← expect .rParen
  let body ← iterationBody r
  pure (.sForOf none head obj body)

/-- parser.rs:896-905 `more_for_head`. -/
def moreForHead (r : Rec) (start : Loc) (dtor : Ast .dtor)
    (op : Loc → Ast (.list .dtor) → Ast .forHead) : P Stmt := do
  let dtors ← allowIn false (moreComma dtor (declarator r))
  let semi ← expect .semi
  moreFor r (.some (op (spanLoc start (some semi.location)) (.ofList dtors)))

/-- parser.rs:711-774 `for_var`. -/
def forVar (r : Rec) : P Stmt := do
  let var ← reread (.reserved .var)
  let varLocation := some var.location
  let lhs ← pattern
  let t ← peek
  match t.value with
  | .assign => do
    let _ ← reread .assign
    match lhs with
    | .pSimple (.ident i) => do
      let rhs ← allowIn false r.assign
      let t ← peek
      match t.value with
      | .comma | .semi => moreForHead r varLocation (Dtor.fromSimpleInit i rhs) .fhVar
      | .reserved .«in» => do
        let _ ← reread (.reserved .«in»)
        moreForIn r (.fiVarInit (spanLoc varLocation rhs.loc) i rhs)
      | _ => unexpected
    | .pCompound patt => do
      let rhs ← allowIn false r.assign
      moreForHead r varLocation (Dtor.fromCompoundInit patt rhs) .fhVar
  | .comma | .semi =>
    match Dtor.fromInitNone lhs with
    | some dtor => moreForHead r varLocation dtor .fhVar
    | none => unexpected
  | .reserved .«in» => do
    let _ ← reread (.reserved .«in»)
    moreForIn r (.fiVar (spanLoc varLocation lhs.loc) lhs)
  | .identifier (.atom .of) => do
    let _ ← reread (.identifier (.atom .of))
    moreForOf r (.foVar (spanLoc varLocation lhs.loc) lhs)
  | _ => unexpected

/-- parser.rs:863-893 `for_expr`. -/
def forExpr (r : Rec) : P Stmt := do
  let lhs ← allowIn false (expression r)
  let t ← peek
  match t.value with
  | .semi => do
    let semi ← reread .semi
    moreFor r (.some (.fhExpr (spanLoc lhs.loc (some semi.location)) lhs))
  | .reserved .«in» => do
    let _ ← reread (.reserved .«in»)
    let lhs ← toPatt lhs
    moreForIn r (.fiPatt lhs)
  | .identifier (.atom .of) => do
    let _ ← reread (.identifier (.atom .of))
    let lhs ← toPatt lhs
    moreForOf r (.foPatt lhs)
  | _ => unexpected

/-- parser.rs:777-822 `for_let`. -/
def forLet (r : Rec) : P Stmt := do
  let letToken ← reread (.identifier (.atom .«let»))
  let t ← peek
  if !t.firstBinding then do
    unread letToken
    forExpr r
  else do
    let letLocation := some letToken.location
    let lhs ← pattern
    let t ← peek
    match t.value with
    | .assign => do
      let _ ← reread .assign
      let rhs ← allowIn false r.assign
      moreForHead r letLocation (Dtor.fromInit lhs rhs) .fhLet
    | .comma | .semi =>
      match Dtor.fromInitNone lhs with
      | some dtor => moreForHead r letLocation dtor .fhLet
      | none => unexpected
    | .reserved .«in» => do
      let _ ← reread (.reserved .«in»)
      moreForIn r (.fiLet (spanLoc letLocation lhs.loc) lhs)
    | .identifier (.atom .of) => do
      let _ ← reread (.identifier (.atom .of))
      moreForOf r (.foLet (spanLoc letLocation lhs.loc) lhs)
    | _ => unexpected

/-- parser.rs:825-861 `for_const`. -/
def forConst (r : Rec) : P Stmt := do
  let constToken ← reread (.reserved .const)
  let t ← peek
  if !t.firstBinding then do
    unread constToken
    forExpr r
  else do
    let constLocation := some constToken.location
    let lhs ← pattern
    let t ← peek
    match t.value with
    | .assign => do
      let _ ← reread .assign
      let dtors ← allowIn false do
        let rhs ← r.assign
        moreComma (ConstDtor.fromInit lhs rhs) (constDeclarator r)
      let semi ← expect .semi
      moreFor r (.some (.fhConst (spanLoc constLocation (some semi.location)) (.ofList dtors)))
    | .reserved .«in» => do
      let _ ← reread (.reserved .«in»)
      moreForIn r (.fiConst (spanLoc constLocation lhs.loc) lhs)
    | .identifier (.atom .of) => do
      let _ ← reread (.identifier (.atom .of))
      moreForOf r (.foConst (spanLoc constLocation lhs.loc) lhs)
    | _ => unexpected

/-- parser.rs:693-708 `for_statement`. -/
def forStatement (r : Rec) : P Stmt := span do
  let _ ← reread (.reserved .for)
  let _ ← expect .lParen
  let t ← peek
  match t.value with
  | .reserved .var => forVar r
  | .identifier (.atom .«let») => forLet r
  | .reserved .const => forConst r
  | .semi => do
    let _ ← reread .semi
    moreFor r .none
  | _ => forExpr r

/-- parser.rs:997-1005 `case`. -/
def caseClause (r : Rec) : P (Ast .case) := span do
  let _ ← reread (.reserved .case)
  let test ← allowIn true (expression r)
  let _ ← expect .colon
  let body ← statementList r
  pure (.caseClause none (.some test) (.ofList body))

/-- parser.rs:1007-1014 `default`. -/
def defaultClause (r : Rec) : P (Ast .case) := span do
  let _ ← reread (.reserved .default)
  let _ ← expect .colon
  let body ← statementList r
  pure (.caseClause none .none (.ofList body))

/-- parser.rs:979-992: one iteration of the loop of `switch_cases`. -/
def switchStep (r : Rec) (st : List (Ast .case) × Bool) :
    P ((List (Ast .case) × Bool) ⊕ List (Ast .case)) := do
  let (cases, foundDefault) := st
  let t ← peek
  match t.value with
  | .reserved .case => do
    let c ← caseClause r
    pure (.inl (cases ++ [c], foundDefault))
  | .reserved .default => do
    if foundDefault then do
      let token ← reread (.reserved .default)
      throw (.duplicateDefault token)
    else do
      let c ← defaultClause r
      pure (.inl (cases ++ [c], true))
  | _ => pure (.inr cases)

/-- parser.rs:975-995 `switch_cases`. -/
def switchCases (r : Rec) : P (List (Ast .case)) := do
  let _ ← expect .lBrace
  let cases ← loop (switchStep r) ([], false)
  let _ ← expect .rBrace
  pure cases

/-- parser.rs:964-973 `switch_statement`. -/
def switchStatement (r : Rec) : P Stmt := span do
  let _ ← reread (.reserved .switch)
  let disc ← parenExpression r
  let s ← get
  modify fun s => { s with ctx := { s.ctx with switch := true } }
  let cases ← switchCases r
  modify fun s' => { s' with ctx := { s'.ctx with switch := s.ctx.switch } }
  pure (.sSwitch none disc (.ofList cases))

/-- parser.rs:1019-1030: the argument of `break`. -/
def breakArg (breakToken : Token) : P (Option Id) := do
  if ← hasArgSameLine then do
    let i ← id false
    let s ← get
    match s.ctx.labels.get i.name with
    | none => throw (.invalidLabel i)
    | some _ => pure (some i)
  else do
    let s ← get
    if !s.ctx.iteration && !s.ctx.switch then throw (.illegalBreak breakToken)
    else pure none

/-- parser.rs:1016-1034 `break_statement`. -/
def breakStatement : P Stmt := do
  let start ← posn
  let breakToken ← reread (.reserved .break)
  let arg ← breakArg breakToken
  endWithAutoSemi start .required fun semi => .sBreak none arg semi

/-- parser.rs:1039-1052: the argument of `continue`. -/
def continueArg (continueToken : Token) : P (Option Id) := do
  if ← hasArgSameLine then do
    let i ← id false
    let s ← get
    match s.ctx.labels.get i.name with
    | none => throw (.invalidLabel i)
    | some .statement => throw (.invalidLabelType i)
    | some .iteration => pure (some i)
  else do
    let s ← get
    if !s.ctx.iteration then throw (.illegalContinue continueToken)
    else pure none

/-- parser.rs:1036-1056 `continue_statement`. -/
def continueStatement : P Stmt := do
  let start ← posn
  let continueToken ← reread (.reserved .continue)
  let arg ← continueArg continueToken
  endWithAutoSemi start .required fun semi => .sCont none arg semi

/-- parser.rs:1061-1065: the argument of `return`. -/
def returnArg (r : Rec) : P (Ast (.opt .expr)) := do
  if ← hasArgSameLine then do
    let e ← allowIn true (expression r)
    pure (.some e)
  else pure .none

/-- parser.rs:1058-1074 `return_statement`. -/
def returnStatement (r : Rec) : P Stmt := do
  let start ← posn
  let _ ← reread (.reserved .return)
  let arg ← returnArg r
  let result : Stmt ← endWithAutoSemi start .required fun semi => .sReturn none arg semi
  let s ← get
  if !s.ctx.function then
    match result.loc with
    | some l => throw (.topLevelReturn l)
    | none => panic .unwrapNone
  else pure result

/-- parser.rs:1076-1086 `with_statement`. -/
def withStatement (r : Rec) : P Stmt := span do
  let token ← reread (.reserved .with)
  strictCheck (pure (some (.strict (.strictWith token))))
  let obj ← parenExpression r
  let body ← statement r
  pure (.sWith none obj body)

/-- parser.rs:1088-1098 `throw_statement`. -/
def throwStatement (r : Rec) : P Stmt := do
  let start ← posn
  let token ← reread (.reserved .throw)
  if !(← hasArgSameLine) then throw (.throwArgument token)
  else do
    let arg ← allowIn true (expression r)
    endWithAutoSemi start .required fun semi => .sThrow none arg semi

/-- parser.rs:1117-1132 `catch_opt`. -/
def catchOpt (r : Rec) : P (Ast (.opt .«catch»)) := do
  let t ← peek
  match t.value with
  | .reserved .catch => do
    let c ← span do
      let _ ← reread (.reserved .catch)
      let _ ← expect .lParen
      let param ← pattern
      let _ ← expect .rParen
      let body ← block r
      pure (Ast.catchClause none param body)
    pure (.some c)
  | _ => pure .none

/-- parser.rs:1134-1142 `finally_opt`. -/
def finallyOpt (r : Rec) : P (Ast (.opt .block)) := do
  let t ← peek
  match t.value with
  | .reserved .finally => do
    let _ ← reread (.reserved .finally)
    let b ← block r
    pure (.some b)
  | _ => pure .none

/-- parser.rs:1111-1113: the end of `try_statement`. -/
def tryTail (r : Rec) (body : Ast .block) : P Stmt := do
  let c ← catchOpt r
  let f ← finallyOpt r
  pure (.sTry none body c f)

/-- parser.rs:1100-1115 `try_statement`. -/
def tryStatement (r : Rec) : P Stmt := span do
  let _ ← reread (.reserved .try)
  let body ← block r
  let t ← peek
  match t.value with
  | .reserved .catch => tryTail r body
  | .reserved .finally => tryTail r body
  | _ => do
    let token ← read
    throw (.orphanTry token)

/-- parser.rs:1144-1148 `debugger_statement`. -/
def debuggerStatement : P Stmt := do
  let start ← posn
  let _ ← reread (.reserved .debugger)
  endWithAutoSemi start .required fun semi => .sDebugger none semi

/-- parser.rs:478-496: `stmt_list_item` when the next token is an
identifier. -/
def identifierItem (r : Rec) (allowDecl : Bool) : P StmtListItem := do
  let token ← rereadToken
  let next ← peekOp
  let expressionCase : P StmtListItem := do
    unread token
    let s ← expressionStatement r
    pure (.siStmt s)
  let letCase : P StmtListItem :=
    if token.value.eqv (.identifier (.atom .«let»)) then
      if !allowDecl then unexpected
      else do
        let d ← letDeclaration r token.location.start
        pure (.siDecl d)
    else expressionCase
  match next.value with
  | .colon => do
    let i ← newIdFromToken false token
    let s ← labelledStatement r i
    pure (.siStmt s)
  | .identifier _ => letCase
  | .lBrace => letCase
  | .lBrack => letCase
  | _ => expressionCase

/-- `.map(StmtListItem::Stmt)`, parser.rs:498. -/
def asItem (p : P Stmt) : P StmtListItem := do
  let s ← p
  pure (.siStmt s)

/-- parser.rs:449-499 `stmt_list_item`. -/
def stmtListItem (r : Rec) (allowDecl : Bool) : P StmtListItem := do
  let t ← peek
  match t.value with
  | .reserved .function =>
    if !allowDecl then unexpected
    else do
      let d ← functionDeclaration r
      pure (.siDecl d)
  | .lBrace => asItem (do let b ← block r; pure (.sBlock b))
  | .reserved .var => asItem (varStatement r)
  | .reserved .const =>
    if !allowDecl then unexpected
    else do
      let d ← constDeclaration r
      pure (.siDecl d)
  | .semi => asItem emptyStatement
  | .reserved .if => asItem (ifStatement r)
  | .reserved .continue => asItem continueStatement
  | .reserved .break => asItem breakStatement
  | .reserved .return => asItem (returnStatement r)
  | .reserved .with => asItem (withStatement r)
  | .reserved .switch => asItem (switchStatement r)
  | .reserved .throw => asItem (throwStatement r)
  | .reserved .try => asItem (tryStatement r)
  | .reserved .while => asItem (whileStatement r)
  | .reserved .do => asItem (doStatement r)
  | .reserved .for => asItem (forStatement r)
  | .reserved .debugger => asItem debuggerStatement
  | .identifier _ => identifierItem r allowDecl
  | _ => asItem (expressionStatement r)

/-- Tying the recursive knot: `n` bounds the nesting of calls of the two
functions of `Rec`. -/
def recOf : Nat → Rec
  | 0 => ⟨fun _ => .fuel, fun _ _ => .fuel⟩
  | n + 1 => ⟨assignmentExpression (recOf n), stmtListItem (recOf n)⟩

end P

end Esprit
