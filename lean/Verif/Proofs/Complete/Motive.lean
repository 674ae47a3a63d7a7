import Verif.Proofs.Complete.Base

/-! What it means that the parser accepts what a nonterminal derives. -/

set_option linter.unusedSectionVars false
set_option linter.unusedVariables false

namespace Esprit

open Lex ReaderSpec Grammar

namespace P

variable [Env] [LawfulEnv] (S : Str) (env : Scope) {c : Cat}

/-- `lhsExpression` after the `new` tokens. -/
def afterNews (r : Rec) (news : List Token) : P Expr := do
  if news.length > 0 then do
    if ← matchesOp .dot then do
      let target ← expect (.identifier (.atom .target))
      let newLocation := news.getLast?.map (·.location)
      let news := news.dropLast
      let newTarget : Expr := .eNewTarget (spanLoc newLocation (some target.location))
      if news.length > 0 then moreNewExpression r news newTarget
      else moreSuffixes r newTarget
    else newExpression r news
  else callExpression r

theorem lhsExpression_eq (r : Rec) : lhsExpression r = P.loop newsStep [] >>= afterNews r := rfl

/-- `moreNewExpression` after the accessors. -/
def afterDerefs (r : Rec) (news : List Token) (flag : Bool) (base : Expr) : P Expr :=
  newLoop r news.reverse flag base >>= moreSuffixes r

/-- `unaryExpression` without the prefix operators. -/
def postfixExpr (r : Rec) : P Expr := do
  let arg ← lhsExpression r
  let postfixOp ← matchPostfixOperatorOpt
  applyPostfix postfixOp arg

/-- `unaryExpression` after the prefix operators. -/
def afterPrefix (r : Rec) (prefixes : List Prefix) : P Expr := do
  let arg ← postfixExpr r
  applyPrefixes prefixes.reverse arg

theorem unaryExpression_eq (r : Rec) :
    unaryExpression r = P.loop prefixStep [] >>= afterPrefix r := by
  unfold unaryExpression
  congr 1
  funext ps
  unfold afterPrefix postfixExpr
  rw [bind_assoc]
  congr 1
  funext arg
  rw [bind_assoc]

/-- `forStatement` after the parenthesis. -/
def forBody (r : Rec) : P Stmt := do
  let t ← peek
  match t.value with
  | .reserved .var => forVar r
  | .identifier (.atom .«let») => forLet r
  | .reserved .const => forConst r
  | .semi => do
    let _ ← reread .semi
    moreFor r .none
  | _ => forExpr r

/-- `labelledStatement` after some labels. -/
def afterLabels (r : Rec) (labels : List Id) : P Stmt := do
  let t ← peek
  withLabels labels t.labelType (statement r)

/-- Accessors and calls. -/
def CLhs (inp rest : List Token) (e : Expr) : Prop :=
  OpNext rest → ∀ (n : Nat) (Q : Expr → PState → Prop) (s : PState), Ahead S env s inp →
    (∀ s' e' N, Ahead S env s' rest → e'.untrack = e.untrack →
      cp (loopN (suffixStep (recOf n)) N e') s' Q) →
    cp (lhsExpression (recOf n)) s Q

/-- Accessors after `new`. -/
def CMember (inp rest : List Token) (e : Expr) : Prop :=
  ∀ (n : Nat) (Q : Expr → PState → Prop) (s : PState) (news : List Token) (N : Nat), news ≠ [] →
    Ahead S env s inp →
    (∀ s' e' N, Ahead S env s' rest → e'.untrack = e.untrack →
      cp (loopN (derefStep (recOf n)) N e' >>= afterDerefs (recOf n) news true) s' Q) →
    cp (loopN newsStep N news >>= afterNews (recOf n)) s Q

def CNewBase (args : Bool) (inp rest : List Token) (e : Expr) : Prop :=
  OpNext rest → ∀ (n : Nat) (Q : Expr → PState → Prop) (s : PState) (news : List Token) (N : Nat),
    news ≠ [] → Ahead S env s inp →
    (∀ s' e' flag, (args = true → flag = true) → Ahead S env s' rest → e'.untrack = e.untrack →
      cp (afterDerefs (recOf n) news flag e') s' Q) →
    cp (loopN newsStep N news >>= afterNews (recOf n)) s Q

def CNew (args : Bool) (inp rest : List Token) (e : Expr) : Prop :=
  OpNext rest → ∀ (n : Nat) (Q : Expr → PState → Prop) (s : PState) (news : List Token) (N : Nat),
    Ahead S env s inp →
    (∀ s' e', Ahead S env s' rest → e'.untrack = e.untrack →
      cp (afterDerefs (recOf n) news args e') s' Q) →
    cp (loopN newsStep N news >>= afterNews (recOf n)) s Q

def CUnary (inp rest : List Token) (e : Expr) : Prop :=
  OpNext rest → ∀ (n : Nat) (Q : Expr → PState → Prop) (s : PState) (ps : List Prefix) (N : Nat),
    Ahead S env s inp →
    (∀ s' e', Ahead S env s' rest → e'.untrack = e.untrack →
      cp (applyPrefixes ps.reverse e') s' Q) →
    cp (loopN prefixStep N ps >>= afterPrefix (recOf n)) s Q

def CBinary (k : Nat) (inp rest : List Token) (e : Expr) : Prop :=
  OpNext rest → ∀ (n : Nat) (Q : Stack × Expr → PState → Prop) (s : PState) (stack : Stack),
    (∀ f fs, stack = f :: fs → f.op.level < k) →
    Ahead S env s inp →
    (∀ s' frames o' N, Ahead S env s' rest → (∀ f ∈ frames, k ≤ f.op.level) →
      (Stack.finish frames o').untrack = e.untrack →
      cp (loopN (infixStep (recOf n)) N (frames ++ stack, o')) s' Q) →
    cp (unaryExpression (recOf n)) s
      (fun o s' => ∀ N, cp (loopN (infixStep (recOf n)) N (stack, o)) s' Q)

/-- A list separated by commas. -/
def CComma (f : Nat → P (Ast c)) (inp rest : List Token) (xs : Ast (.list c)) : Prop :=
  ∃ x xs' i1, xs = .cons x xs' ∧ (∀ n, Yields S env (f n) inp i1 x) ∧
    (i1 = rest ∨ NextIs i1 .comma) ∧ (xs' ≠ .nil → NextIs i1 .comma) ∧
    ∀ n acc N s, Ahead S env s i1 →
      cp (loopN (moreCommaStep (f n)) N acc) s (Collects S env acc xs' rest)

/-- A loop that collects a list. -/
def CLoop (step : Nat → List (Ast c) → P (List (Ast c) ⊕ List (Ast c))) (inp rest : List Token)
    (xs : Ast (.list c)) : Prop :=
  ∀ n acc N s, Ahead S env s inp → cp (loopN (step n) N acc) s (Collects S env acc xs rest)

def CArgList (inp rest : List Token) (xs : Ast (.list .item)) : Prop :=
  NextIs rest .rParen → ∀ n s, Ahead S env s inp →
    cp (do let t ← peek
           if !t.value.eqv .rParen then P.loop (argumentsStep (recOf n)) [] else pure []) s
      (Collects S env [] xs rest)

def getName : P (Ast .id) := do let i ← P.id true; pure (.ident i)

def getNameOpt : P (Ast (.opt .id)) := do let i ← idOpt true; pure (.ofOption (i.map .ident))

/-- The parser of a function's name. -/
def getIdOf : {c : Cat} → NT c → Option (P (Ast c))
  | _, .name => some getName
  | _, .nameOpt => some getNameOpt
  | _, _ => none

def CFunc (nt : NT c) (inp rest : List Token) (x : Ast (.func c)) : Prop :=
  ∀ n g, getIdOf nt = some g → Yields S env (function (recOf n) g) inp rest x

def CParamItems (inp rest : List Token) (x : Ast .params) : Prop :=
  match x with
  | .params _ ps r => NextIs rest .rParen → ∀ acc N s, Ahead S env s inp →
      cp (loopN paramsStep N acc) s fun z s' =>
        Collects S env acc ps rest z.1 s' ∧ (Ast.ofOption z.2).untrack = r.untrack

def CFunctionBody (inp rest : List Token) (x : Script) : Prop :=
  ∀ env0 : Scope, env = env0.functionBody → ∀ n ps,
    Yields S env0 (functionBody (recOf n) ps) inp rest x

/-- The items of a body. -/
def CItems (nt : NT (.list c)) (inp rest : List Token) (xs : Ast (.list c)) : Prop :=
  match c, nt, xs with
  | _, .items, xs => CLoop S env (fun n => statementListStep (recOf n)) inp rest xs
  | _, .modItems, xs => CLoop S env (fun n => moduleItemsStep (recOf n)) inp rest xs
  | _, _, _ => True

/-- The nonterminal derives the items of a body. -/
def isItems : {c : Cat} → NT c → Bool
  | _, .items => true
  | _, .modItems => true
  | _, _ => false

def CPrologue (nt : NT (.list c)) (inp rest : List Token) (x : Ast (.body c)) : Prop :=
  match x with
  | .body _ ds items => isItems nt = true → ∀ acc N s, Ahead S env s inp →
      cp (loopN directivesStep N acc) s fun ds' s' => ∃ ys i1, ds' = acc ++ ys ∧
        ys.map Dir.untrack = ds.map Dir.untrack ∧
        (∀ d ∈ ys, d.pragma ≠ c!"use strict" ∧ d.pragma ≠ c!"use module") ∧
        Ahead S env s' i1 ∧ CItems S env nt i1 rest items

/-- Statements: as an item, and after labels. -/
def CStmt (inp rest : List Token) (x : Stmt) : Prop :=
  NoDivision rest →
  (∀ n d, Yields S env (stmtListItem (recOf n) d) inp rest (.siStmt x)) ∧
  (∀ env0 acc, env = Scope.labelAll env0 (isLoop x) acc →
    (∀ i ∈ acc, ∀ b, (Id.name i, b) ∉ env0.labels) → ∀ n N s, Ahead S env0 s inp →
    cp (loopN labelStep N acc >>= afterLabels (recOf n)) s fun a s' =>
      a.untrack = (wrapLabels acc x).untrack ∧ Ahead S env0 s' rest)

def CHeadDtor (inp rest : List Token) (x : Ast .dtor) : Prop :=
  (∃ t i, Ident env true t i ∧ inp = t :: rest ∧ x.untrack = (Ast.dtSimple none i .none).untrack) ∨
  (∃ t i t2 i1 e, Ident env true t i ∧ inp = t :: t2 :: i1 ∧ t2.value = .assign ∧
    (∀ n, Yields S env (recOf n).assign i1 rest e) ∧
    x.untrack = (Ast.dtSimple none i (.some e)).untrack)

def CHeadDtors (inp rest : List Token) (xs : Ast (.list .dtor)) : Prop :=
  NextIs rest .semi → ∃ x xs' i1, xs = .cons x xs' ∧ CHeadDtor S env inp i1 x ∧
    (NextIs i1 .semi ∨ NextIs i1 .comma) ∧
    ∀ n acc N s, Ahead S env s i1 →
      cp (loopN (moreCommaStep (declarator (recOf n))) N acc) s (Collects S env acc xs' rest)

def CConstDtor (inp rest : List Token) (x : Ast .constDtor) : Prop :=
  ∃ t i t2 i1 e l, Ident env true t i ∧ inp = t :: t2 :: i1 ∧ t2.value = .assign ∧
    (∀ n, Yields S env (recOf n).assign i1 rest e) ∧ x = .constDtor l (.pSimple (.ident i)) e

def CConstDtors (inp rest : List Token) (xs : Ast (.list .constDtor)) : Prop :=
  ∃ x xs' i1, xs = .cons x xs' ∧ CConstDtor S env inp i1 x ∧
    ∀ n acc N s, Ahead S env s i1 →
      cp (loopN (moreCommaStep (constDeclarator (recOf n))) N acc) s (Collects S env acc xs' rest)

def CForHead (inp rest : List Token) (x : Ast (.opt .forHead)) : Prop :=
  ∀ n (Q : Stmt → PState → Prop) s, Ahead S env s inp →
    (∀ s' h, Ahead S env s' rest → h.untrack = x.untrack → cp (moreFor (recOf n) h) s' Q) →
    cp (forBody (recOf n)) s Q

def CForInHead (inp rest : List Token) (x : Ast .forInHead) : Prop :=
  ∀ t r, rest = t :: r → t.value = .reserved .«in» → ∀ n (Q : Stmt → PState → Prop) s,
    Ahead S env s inp →
    (∀ s' h, Ahead S env s' r → h.untrack = x.untrack → cp (moreForIn (recOf n) h) s' Q) →
    cp (forBody (recOf n)) s Q

def CForOfHead (inp rest : List Token) (x : Ast .forOfHead) : Prop :=
  ∀ t r, rest = t :: r → t.value = .identifier (.atom .of) → ∀ n (Q : Stmt → PState → Prop) s,
    Ahead S env s inp →
    (∀ s' h, Ahead S env s' r → h.untrack = x.untrack → cp (moreForOf (recOf n) h) s' Q) →
    cp (forBody (recOf n)) s Q

def CExprOpt (inp rest : List Token) (x : Ast (.opt .expr)) : Prop :=
  (inp = rest ∧ x = .none) ∨
  ∃ e, x = .some e ∧ (∃ t r, inp = t :: r ∧ exprStart t.value = true) ∧
    ∀ n, Yields S (env.withIn true) (expression (recOf n)) inp rest e

def CCase (inp rest : List Token) (x : Ast .case) : Prop :=
  ∀ n, Yields S env (if isDefault x then defaultClause (recOf n) else caseClause (recOf n)) inp rest x

def CCases (inp rest : List Token) (xs : Ast (.list .case)) : Prop :=
  NextIs rest .rBrace → ∀ n acc found N s,
    (xs.toList.filter isDefault).length + (if found then 1 else 0) ≤ 1 → Ahead S env s inp →
    cp (loopN (switchStep (recOf n)) N (acc, found)) s (Collects S env acc xs rest)

/-- The parser accepts what the nonterminal derives. -/
def Comp : {c : Cat} → NT c → List Token → List Token → Ast c → Prop
  | _, .primary, inp, rest, x => ∀ n, Yields S env (primaryExpression (recOf n)) inp rest x
  | _, .lhs true, inp, rest, x => CLhs S env inp rest x
  | _, .lhs false, inp, rest, x => CMember S env inp rest x
  | _, .newBase args, inp, rest, x => CNewBase S env args inp rest x
  | _, .new args, inp, rest, x => CNew S env args inp rest x
  | _, .postfix, inp, rest, x => OpNext rest → ∀ n, Yields S env (postfixExpr (recOf n)) inp rest x
  | _, .unary, inp, rest, x => CUnary S env inp rest x
  | _, .binary k, inp, rest, x => CBinary S env k inp rest x
  | _, .cond, inp, rest, x => ∀ n, Yields S env (conditionalExpression (recOf n)) inp rest x
  | _, .assign, inp, rest, x => ∀ n, Yields S env (recOf n).assign inp rest x
  | _, .expr, inp, rest, x => ∀ n, Yields S env (expression (recOf n)) inp rest x
  | _, .exprs, inp, rest, x => CComma S env (fun n => (recOf n).assign) inp rest x
  | _, .arg, inp, rest, x => ∀ n, Yields S env (exprListItem (recOf n)) inp rest x
  | _, .args, inp, rest, x => NextIs rest .rParen → CLoop S env (fun n => argumentsStep (recOf n)) inp rest x
  | _, .argList, inp, rest, x => CArgList S env inp rest x
  | _, .elems, inp, rest, x => NextIs rest .rBrack → CLoop S env (fun n => arrayStep (recOf n)) inp rest x
  | _, .prop, inp, rest, x => ∀ n, Yields S env (objectProperty (recOf n)) inp rest x
  | _, .props, inp, rest, x => NextIs rest .rBrace → CLoop S env (fun n => objectStep (recOf n)) inp rest x
  | _, .name, inp, rest, x => Yields S env getName inp rest x
  | _, .nameOpt, inp, rest, x => NextIs rest .lParen → Yields S env getNameOpt inp rest x
  | _, .pattern, inp, rest, x => Yields S env pattern inp rest x
  | _, .paramItems, inp, rest, x => CParamItems S env inp rest x
  | _, .params, inp, rest, x => Yields S env formalParameters inp rest x
  | _, .func nt, inp, rest, x => CFunc S env nt inp rest x
  | _, .functionBody, inp, rest, x => CFunctionBody S env inp rest x
  | _, .prologue nt, inp, rest, x => CPrologue S env nt inp rest x
  | _, .body nt, inp, rest, x => CPrologue S env nt inp rest x
  | _, .items, inp, rest, x => CItems S env .items inp rest x
  | _, .modItems, inp, rest, x => CItems S env .modItems inp rest x
  | _, .item d, inp, rest, x => NoDivision rest → ∀ n, Yields S env ((recOf n).item d) inp rest x
  | _, .decl, inp, rest, x => NoDivision rest →
      ∀ n, Yields S env (stmtListItem (recOf n) true) inp rest (.siDecl x)
  | _, .stmt, inp, rest, x => CStmt S env inp rest x
  | _, .block, inp, rest, x => ∀ n, Yields S env (block (recOf n)) inp rest x
  | _, .dtor, inp, rest, x => NoDivision rest → ∀ n, Yields S env (declarator (recOf n)) inp rest x
  | _, .dtors, inp, rest, x => NoDivision rest → CComma S env (fun n => declarator (recOf n)) inp rest x
  | _, .constDtor, inp, rest, x => CConstDtor S env inp rest x
  | _, .constDtors, inp, rest, x => CConstDtors S env inp rest x
  | _, .headDtor, inp, rest, x => CHeadDtor S env inp rest x
  | _, .headDtors, inp, rest, x => CHeadDtors S env inp rest x
  | _, .forHead, inp, rest, x => CForHead S env inp rest x
  | _, .forInHead, inp, rest, x => CForInHead S env inp rest x
  | _, .forOfHead, inp, rest, x => CForOfHead S env inp rest x
  | _, .exprOpt, inp, rest, x => CExprOpt S env inp rest x
  | _, .case, inp, rest, x => CCase S env inp rest x
  | _, .cases, inp, rest, x => CCases S env inp rest x
  | _, .catchOpt, inp, rest, x => (x = .none → NextIs rest (.reserved .finally)) →
      ∀ n, Yields S env (catchOpt (recOf n)) inp rest x
  | _, .finallyOpt, inp, rest, x => NoDivision rest → ∀ n, Yields S env (finallyOpt (recOf n)) inp rest x

end P

end Esprit
