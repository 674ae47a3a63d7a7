import Verif.Proofs.Parser.LayoutVals

/-! A larger recursion budget changes nothing but the exhaustion of the budget. -/

set_option linter.unusedSectionVars false

namespace Esprit

/-- `m` exhausts its budget or does the same as `m'`. -/
def Le {α : Type} (m m' : P α) : Prop := ∀ s, m s = .fuel ∨ m s = m' s

namespace Le

variable {α β σ : Type}

theorem refl (m : P α) : Le m m := fun _ => .inr rfl

theorem trans {m m' m'' : P α} (h : Le m m') (h' : Le m' m'') : Le m m'' := fun s => by
  rcases h s with h | h
  · exact .inl h
  · rw [h]; exact h' s

theorem bind {m m' : P α} {f f' : α → P β} (h : Le m m') (hf : ∀ a, Le (f a) (f' a)) :
    Le (m >>= f) (m' >>= f') := by
  intro s
  show P.bind m f s = .fuel ∨ P.bind m f s = P.bind m' f' s
  unfold P.bind
  rcases h s with h | h
  · rw [h]; exact .inl rfl
  · rw [h]
    cases m' s with
    | ok v => exact hf v.1 v.2
    | err e => exact .inr rfl
    | panic e => exact .inr rfl
    | fuel => exact .inl rfl

theorem ite {p : Prop} [Decidable p] {a a' b b' : P α} (ha : Le a a') (hb : Le b b') :
    Le (if p then a else b) (if p then a' else b') := by
  split
  · exact ha
  · exact hb

theorem loopN {step step' : σ → P (σ ⊕ β)} (h : ∀ a, Le (step a) (step' a)) (n : Nat) :
    ∀ a, Le (P.loopN step n a) (P.loopN step' n a) := by
  induction n with
  | zero => exact fun _ => refl _
  | succ n ih =>
    intro a s
    unfold P.loopN
    rcases h a s with h1 | h1
    · rw [h1]; exact .inl rfl
    · rw [h1]
      cases step' a s with
      | ok v =>
        obtain ⟨x, t⟩ := v
        cases x with
        | inl b => exact ih b t
        | inr b => exact .inr rfl
      | err e => exact .inr rfl
      | panic e => exact .inr rfl
      | fuel => exact .inl rfl

theorem loop {step step' : σ → P (σ ⊕ β)} (h : ∀ a, Le (step a) (step' a)) (a : σ) :
    Le (P.loop step a) (P.loop step' a) := fun s => loopN h _ a s

end Le

/-- A smaller budget for the recursive knot. -/
structure LeRec (r r' : Rec) : Prop where
  assign : Le r.assign r'.assign
  item : ∀ b, Le (r.item b) (r'.item b)

variable [Env]

/-- Registered facts. -/
syntax "leleaf" : tactic
macro_rules | `(tactic| leleaf) => `(tactic| with_reducible first
  | exact LeRec.assign ‹LeRec _ _› | exact LeRec.item ‹LeRec _ _› _ | exact Le.refl _)

/-- Follow the structure of a parser function. -/
macro "le" : tactic => `(tactic| repeat' first
  | with_reducible assumption
  | leleaf
  | with_reducible refine Le.bind ?_ fun _ => ?_
  | with_reducible refine Le.ite ?_ ?_
  | with_reducible refine Le.loop (fun _ => ?_) _
  | dsimp only
  | split)

theorem le_span {α : Type} [Tracking α] {p p' : P α} (h : Le p p') :
    Le (P.span p) (P.span p') := by
  unfold P.span; le

theorem le_allowIn {α : Type} {b : Bool} {p p' : P α} (h : Le p p') :
    Le (P.allowIn b p) (P.allowIn b p') := by
  unfold P.allowIn; le

theorem le_withLabels {ls : List Id} {t : LabelType} {p p' : P Stmt} (h : Le p p') :
    Le (P.withLabels ls t p) (P.withLabels ls t p') := by
  unfold P.withLabels; le

macro_rules | `(tactic| leleaf) => `(tactic| with_reducible first
  | refine le_span ?_ | refine le_allowIn ?_ | refine le_withLabels ?_)

theorem le_statementListStep {r r' : Rec} (items : List StmtListItem) (hr : LeRec r r') :
    Le (P.statementListStep r items) (P.statementListStep r' items) := by
  unfold P.statementListStep; le

macro_rules | `(tactic| leleaf) => `(tactic| with_reducible exact le_statementListStep _ ‹LeRec _ _›)

theorem le_statementList {r r' : Rec}  (hr : LeRec r r') :
    Le (P.statementList r) (P.statementList r') := by
  unfold P.statementList; le

macro_rules | `(tactic| leleaf) => `(tactic| with_reducible exact le_statementList ‹LeRec _ _›)

theorem le_scriptBody {r r' : Rec}  (hr : LeRec r r') :
    Le (P.scriptBody r) (P.scriptBody r') := by
  unfold P.scriptBody; le

macro_rules | `(tactic| leleaf) => `(tactic| with_reducible exact le_scriptBody ‹LeRec _ _›)

theorem le_functionBody {r r' : Rec} (params : List PattId) (hr : LeRec r r') :
    Le (P.functionBody r params) (P.functionBody r' params) := by
  unfold P.functionBody; le

macro_rules | `(tactic| leleaf) => `(tactic| with_reducible exact le_functionBody _ ‹LeRec _ _›)

theorem le_function {r r' : Rec} {c : Cat}{getId getId' : P (Ast c)} (hgetId : Le getId getId') (hr : LeRec r r') :
    Le (P.function r getId) (P.function r' getId') := by
  unfold P.function; le

macro_rules | `(tactic| leleaf) => `(tactic| with_reducible refine le_function ?_ ‹LeRec _ _›)

theorem le_functionDeclaration {r r' : Rec}  (hr : LeRec r r') :
    Le (P.functionDeclaration r) (P.functionDeclaration r') := by
  unfold P.functionDeclaration; le

macro_rules | `(tactic| leleaf) => `(tactic| with_reducible exact le_functionDeclaration ‹LeRec _ _›)

theorem le_moreCommaStep {α : Type} {f f' : P α} (h : Le f f') (xs : List α) :
    Le (P.moreCommaStep f xs) (P.moreCommaStep f' xs) := by
  unfold P.moreCommaStep; le

macro_rules | `(tactic| leleaf) => `(tactic| with_reducible refine le_moreCommaStep ?_ _)

theorem le_moreComma {α : Type} {f f' : P α} (a : α) (h : Le f f') :
    Le (P.moreComma a f) (P.moreComma a f') := by
  unfold P.moreComma; le

macro_rules | `(tactic| leleaf) => `(tactic| with_reducible refine le_moreComma _ ?_)

theorem le_commaSeparated {α : Type} {f f' : P α} (h : Le f f') :
    Le (P.commaSeparated f) (P.commaSeparated f') := by
  unfold P.commaSeparated; le

macro_rules | `(tactic| leleaf) => `(tactic| with_reducible refine le_commaSeparated ?_)

theorem le_moreExpressions {r r' : Rec} (first : Expr) (hr : LeRec r r') :
    Le (P.moreExpressions r first) (P.moreExpressions r' first) := by
  unfold P.moreExpressions; le

macro_rules | `(tactic| leleaf) => `(tactic| with_reducible exact le_moreExpressions _ ‹LeRec _ _›)

theorem le_expression {r r' : Rec}  (hr : LeRec r r') :
    Le (P.expression r) (P.expression r') := by
  unfold P.expression; le

macro_rules | `(tactic| leleaf) => `(tactic| with_reducible exact le_expression ‹LeRec _ _›)

theorem le_parenExpression {r r' : Rec}  (hr : LeRec r r') :
    Le (P.parenExpression r) (P.parenExpression r') := by
  unfold P.parenExpression; le

macro_rules | `(tactic| leleaf) => `(tactic| with_reducible exact le_parenExpression ‹LeRec _ _›)

theorem le_exprListItem {r r' : Rec}  (hr : LeRec r r') :
    Le (P.exprListItem r) (P.exprListItem r') := by
  unfold P.exprListItem; le

macro_rules | `(tactic| leleaf) => `(tactic| with_reducible exact le_exprListItem ‹LeRec _ _›)

theorem le_arrayElement {r r' : Rec}  (hr : LeRec r r') :
    Le (P.arrayElement r) (P.arrayElement r') := by
  unfold P.arrayElement; le

macro_rules | `(tactic| leleaf) => `(tactic| with_reducible exact le_arrayElement ‹LeRec _ _›)

theorem le_arrayStep {r r' : Rec} (elts : List (Ast (.opt .item))) (hr : LeRec r r') :
    Le (P.arrayStep r elts) (P.arrayStep r' elts) := by
  unfold P.arrayStep; le

macro_rules | `(tactic| leleaf) => `(tactic| with_reducible exact le_arrayStep _ ‹LeRec _ _›)

theorem le_arrayLiteral {r r' : Rec} (start : Token) (hr : LeRec r r') :
    Le (P.arrayLiteral r start) (P.arrayLiteral r' start) := by
  unfold P.arrayLiteral; le

macro_rules | `(tactic| leleaf) => `(tactic| with_reducible exact le_arrayLiteral _ ‹LeRec _ _›)

theorem le_morePropInit {r r' : Rec} (key : PropKey) (hr : LeRec r r') :
    Le (P.morePropInit r key) (P.morePropInit r' key) := by
  unfold P.morePropInit; le

macro_rules | `(tactic| leleaf) => `(tactic| with_reducible exact le_morePropInit _ ‹LeRec _ _›)

theorem le_objectProperty {r r' : Rec}  (hr : LeRec r r') :
    Le (P.objectProperty r) (P.objectProperty r') := by
  unfold P.objectProperty; le

macro_rules | `(tactic| leleaf) => `(tactic| with_reducible exact le_objectProperty ‹LeRec _ _›)

theorem le_objectStep {r r' : Rec} (props : List (Ast .prop)) (hr : LeRec r r') :
    Le (P.objectStep r props) (P.objectStep r' props) := by
  unfold P.objectStep; le

macro_rules | `(tactic| leleaf) => `(tactic| with_reducible exact le_objectStep _ ‹LeRec _ _›)

theorem le_objectLiteral {r r' : Rec} (start : Token) (hr : LeRec r r') :
    Le (P.objectLiteral r start) (P.objectLiteral r' start) := by
  unfold P.objectLiteral; le

macro_rules | `(tactic| leleaf) => `(tactic| with_reducible exact le_objectLiteral _ ‹LeRec _ _›)

theorem le_primaryExpression {r r' : Rec}  (hr : LeRec r r') :
    Le (P.primaryExpression r) (P.primaryExpression r') := by
  unfold P.primaryExpression; le

macro_rules | `(tactic| leleaf) => `(tactic| with_reducible exact le_primaryExpression ‹LeRec _ _›)

theorem le_memberBaseExpression {r r' : Rec}  (hr : LeRec r r') :
    Le (P.memberBaseExpression r) (P.memberBaseExpression r') := by
  unfold P.memberBaseExpression; le

macro_rules | `(tactic| leleaf) => `(tactic| with_reducible exact le_memberBaseExpression ‹LeRec _ _›)

theorem le_argumentsStep {r r' : Rec} (args : List (Ast .item)) (hr : LeRec r r') :
    Le (P.argumentsStep r args) (P.argumentsStep r' args) := by
  unfold P.argumentsStep; le

macro_rules | `(tactic| leleaf) => `(tactic| with_reducible exact le_argumentsStep _ ‹LeRec _ _›)

theorem le_arguments {r r' : Rec}  (hr : LeRec r r') :
    Le (P.arguments r) (P.arguments r') := by
  unfold P.arguments; le

macro_rules | `(tactic| leleaf) => `(tactic| with_reducible exact le_arguments ‹LeRec _ _›)

theorem le_derefBrack {r r' : Rec}  (hr : LeRec r r') :
    Le (P.derefBrack r) (P.derefBrack r') := by
  unfold P.derefBrack; le

macro_rules | `(tactic| leleaf) => `(tactic| with_reducible exact le_derefBrack ‹LeRec _ _›)

theorem le_derefOpt {r r' : Rec}  (hr : LeRec r r') :
    Le (P.derefOpt r) (P.derefOpt r') := by
  unfold P.derefOpt; le

macro_rules | `(tactic| leleaf) => `(tactic| with_reducible exact le_derefOpt ‹LeRec _ _›)

theorem le_suffixOpt {r r' : Rec}  (hr : LeRec r r') :
    Le (P.suffixOpt r) (P.suffixOpt r') := by
  unfold P.suffixOpt; le

macro_rules | `(tactic| leleaf) => `(tactic| with_reducible exact le_suffixOpt ‹LeRec _ _›)

theorem le_suffixStep {r r' : Rec} (result : Expr) (hr : LeRec r r') :
    Le (P.suffixStep r result) (P.suffixStep r' result) := by
  unfold P.suffixStep; le

macro_rules | `(tactic| leleaf) => `(tactic| with_reducible exact le_suffixStep _ ‹LeRec _ _›)

theorem le_moreSuffixes {r r' : Rec} (result : Expr) (hr : LeRec r r') :
    Le (P.moreSuffixes r result) (P.moreSuffixes r' result) := by
  unfold P.moreSuffixes; le

macro_rules | `(tactic| leleaf) => `(tactic| with_reducible exact le_moreSuffixes _ ‹LeRec _ _›)

theorem le_derefStep {r r' : Rec} (base : Expr) (hr : LeRec r r') :
    Le (P.derefStep r base) (P.derefStep r' base) := by
  unfold P.derefStep; le

macro_rules | `(tactic| leleaf) => `(tactic| with_reducible exact le_derefStep _ ‹LeRec _ _›)

theorem le_newLoop {r r' : Rec} (news : List Token) (b : Bool) (base : Expr) (hr : LeRec r r') :
    Le (P.newLoop r news b base) (P.newLoop r' news b base) := by
  induction news generalizing b base with
  | nil => exact Le.refl _
  | cons t ts ih =>
    rw [P.newLoop, P.newLoop]
    refine Le.ite (Le.bind (Le.refl _) fun _ => Le.bind (Le.refl _) fun b => ?_)
      (Le.bind (Le.refl _) fun b => ?_) <;>
      exact Le.ite (Le.bind (le_arguments hr) fun _ => ih _ _) (ih _ _)

macro_rules | `(tactic| leleaf) => `(tactic| with_reducible exact le_newLoop _ _ _ ‹LeRec _ _›)

theorem le_moreNewExpression {r r' : Rec} (news : List Token) (base : Expr) (hr : LeRec r r') :
    Le (P.moreNewExpression r news base) (P.moreNewExpression r' news base) := by
  unfold P.moreNewExpression; le

macro_rules | `(tactic| leleaf) => `(tactic| with_reducible exact le_moreNewExpression _ _ ‹LeRec _ _›)

theorem le_newExpression {r r' : Rec} (news : List Token) (hr : LeRec r r') :
    Le (P.newExpression r news) (P.newExpression r' news) := by
  unfold P.newExpression; le

macro_rules | `(tactic| leleaf) => `(tactic| with_reducible exact le_newExpression _ ‹LeRec _ _›)

theorem le_callExpression {r r' : Rec}  (hr : LeRec r r') :
    Le (P.callExpression r) (P.callExpression r') := by
  unfold P.callExpression; le

macro_rules | `(tactic| leleaf) => `(tactic| with_reducible exact le_callExpression ‹LeRec _ _›)

theorem le_lhsExpression {r r' : Rec}  (hr : LeRec r r') :
    Le (P.lhsExpression r) (P.lhsExpression r') := by
  unfold P.lhsExpression; le

macro_rules | `(tactic| leleaf) => `(tactic| with_reducible exact le_lhsExpression ‹LeRec _ _›)

theorem le_unaryExpression {r r' : Rec}  (hr : LeRec r r') :
    Le (P.unaryExpression r) (P.unaryExpression r') := by
  unfold P.unaryExpression; le

macro_rules | `(tactic| leleaf) => `(tactic| with_reducible exact le_unaryExpression ‹LeRec _ _›)

theorem le_infixStep {r r' : Rec} (st : Stack × Expr) (hr : LeRec r r') :
    Le (P.infixStep r st) (P.infixStep r' st) := by
  unfold P.infixStep; le

macro_rules | `(tactic| leleaf) => `(tactic| with_reducible exact le_infixStep _ ‹LeRec _ _›)

theorem le_moreInfixExpressions {r r' : Rec} (left : Expr) (hr : LeRec r r') :
    Le (P.moreInfixExpressions r left) (P.moreInfixExpressions r' left) := by
  unfold P.moreInfixExpressions; le

macro_rules | `(tactic| leleaf) => `(tactic| with_reducible exact le_moreInfixExpressions _ ‹LeRec _ _›)

theorem le_moreConditional {r r' : Rec} (left : Expr) (hr : LeRec r r') :
    Le (P.moreConditional r left) (P.moreConditional r' left) := by
  unfold P.moreConditional; le

macro_rules | `(tactic| leleaf) => `(tactic| with_reducible exact le_moreConditional _ ‹LeRec _ _›)

theorem le_conditionalExpression {r r' : Rec}  (hr : LeRec r r') :
    Le (P.conditionalExpression r) (P.conditionalExpression r') := by
  unfold P.conditionalExpression; le

macro_rules | `(tactic| leleaf) => `(tactic| with_reducible exact le_conditionalExpression ‹LeRec _ _›)

theorem le_moreAssignment {r r' : Rec} (left : Expr) (hr : LeRec r r') :
    Le (P.moreAssignment r left) (P.moreAssignment r' left) := by
  unfold P.moreAssignment; le

macro_rules | `(tactic| leleaf) => `(tactic| with_reducible exact le_moreAssignment _ ‹LeRec _ _›)

theorem le_assignmentExpression {r r' : Rec}  (hr : LeRec r r') :
    Le (P.assignmentExpression r) (P.assignmentExpression r') := by
  unfold P.assignmentExpression; le

macro_rules | `(tactic| leleaf) => `(tactic| with_reducible exact le_assignmentExpression ‹LeRec _ _›)

theorem le_expressionStatement {r r' : Rec}  (hr : LeRec r r') :
    Le (P.expressionStatement r) (P.expressionStatement r') := by
  unfold P.expressionStatement; le

macro_rules | `(tactic| leleaf) => `(tactic| with_reducible exact le_expressionStatement ‹LeRec _ _›)

theorem le_statement {r r' : Rec}  (hr : LeRec r r') :
    Le (P.statement r) (P.statement r') := by
  unfold P.statement; le

macro_rules | `(tactic| leleaf) => `(tactic| with_reducible exact le_statement ‹LeRec _ _›)

theorem le_labelledStatement {r r' : Rec} (i : Id) (hr : LeRec r r') :
    Le (P.labelledStatement r i) (P.labelledStatement r' i) := by
  unfold P.labelledStatement; le

macro_rules | `(tactic| leleaf) => `(tactic| with_reducible exact le_labelledStatement _ ‹LeRec _ _›)

theorem le_block {r r' : Rec}  (hr : LeRec r r') :
    Le (P.block r) (P.block r') := by
  unfold P.block; le

macro_rules | `(tactic| leleaf) => `(tactic| with_reducible exact le_block ‹LeRec _ _›)

theorem le_declarator {r r' : Rec}  (hr : LeRec r r') :
    Le (P.declarator r) (P.declarator r') := by
  unfold P.declarator; le

macro_rules | `(tactic| leleaf) => `(tactic| with_reducible exact le_declarator ‹LeRec _ _›)

theorem le_constDeclarator {r r' : Rec}  (hr : LeRec r r') :
    Le (P.constDeclarator r) (P.constDeclarator r') := by
  unfold P.constDeclarator; le

macro_rules | `(tactic| leleaf) => `(tactic| with_reducible exact le_constDeclarator ‹LeRec _ _›)

theorem le_varStatement {r r' : Rec}  (hr : LeRec r r') :
    Le (P.varStatement r) (P.varStatement r') := by
  unfold P.varStatement; le

macro_rules | `(tactic| leleaf) => `(tactic| with_reducible exact le_varStatement ‹LeRec _ _›)

theorem le_letDeclaration {r r' : Rec} (start : Posn) (hr : LeRec r r') :
    Le (P.letDeclaration r start) (P.letDeclaration r' start) := by
  unfold P.letDeclaration; le

macro_rules | `(tactic| leleaf) => `(tactic| with_reducible exact le_letDeclaration _ ‹LeRec _ _›)

theorem le_constDeclaration {r r' : Rec}  (hr : LeRec r r') :
    Le (P.constDeclaration r) (P.constDeclaration r') := by
  unfold P.constDeclaration; le

macro_rules | `(tactic| leleaf) => `(tactic| with_reducible exact le_constDeclaration ‹LeRec _ _›)

theorem le_ifStatement {r r' : Rec}  (hr : LeRec r r') :
    Le (P.ifStatement r) (P.ifStatement r') := by
  unfold P.ifStatement; le

macro_rules | `(tactic| leleaf) => `(tactic| with_reducible exact le_ifStatement ‹LeRec _ _›)

theorem le_iterationBody {r r' : Rec}  (hr : LeRec r r') :
    Le (P.iterationBody r) (P.iterationBody r') := by
  unfold P.iterationBody; le

macro_rules | `(tactic| leleaf) => `(tactic| with_reducible exact le_iterationBody ‹LeRec _ _›)

theorem le_doStatement {r r' : Rec}  (hr : LeRec r r') :
    Le (P.doStatement r) (P.doStatement r') := by
  unfold P.doStatement; le

macro_rules | `(tactic| leleaf) => `(tactic| with_reducible exact le_doStatement ‹LeRec _ _›)

theorem le_whileStatement {r r' : Rec}  (hr : LeRec r r') :
    Le (P.whileStatement r) (P.whileStatement r') := by
  unfold P.whileStatement; le

macro_rules | `(tactic| leleaf) => `(tactic| with_reducible exact le_whileStatement ‹LeRec _ _›)

theorem le_expressionOptSemi {r r' : Rec}  (hr : LeRec r r') :
    Le (P.expressionOptSemi r) (P.expressionOptSemi r') := by
  unfold P.expressionOptSemi; le

macro_rules | `(tactic| leleaf) => `(tactic| with_reducible exact le_expressionOptSemi ‹LeRec _ _›)

theorem le_forUpdate {r r' : Rec}  (hr : LeRec r r') :
    Le (P.forUpdate r) (P.forUpdate r') := by
  unfold P.forUpdate; le

macro_rules | `(tactic| leleaf) => `(tactic| with_reducible exact le_forUpdate ‹LeRec _ _›)

theorem le_moreFor {r r' : Rec} (head : Ast (.opt .forHead)) (hr : LeRec r r') :
    Le (P.moreFor r head) (P.moreFor r' head) := by
  unfold P.moreFor; le

macro_rules | `(tactic| leleaf) => `(tactic| with_reducible exact le_moreFor _ ‹LeRec _ _›)

theorem le_moreForIn {r r' : Rec} (head : Ast .forInHead) (hr : LeRec r r') :
    Le (P.moreForIn r head) (P.moreForIn r' head) := by
  unfold P.moreForIn; le

macro_rules | `(tactic| leleaf) => `(tactic| with_reducible exact le_moreForIn _ ‹LeRec _ _›)

theorem le_moreForOf {r r' : Rec} (head : Ast .forOfHead) (hr : LeRec r r') :
    Le (P.moreForOf r head) (P.moreForOf r' head) := by
  unfold P.moreForOf; le

macro_rules | `(tactic| leleaf) => `(tactic| with_reducible exact le_moreForOf _ ‹LeRec _ _›)

theorem le_moreForHead {r r' : Rec} (start : Loc) (dtor : Ast .dtor) (op : Loc → Ast (.list .dtor) → Ast .forHead) (hr : LeRec r r') :
    Le (P.moreForHead r start dtor op) (P.moreForHead r' start dtor op) := by
  unfold P.moreForHead; le

macro_rules | `(tactic| leleaf) => `(tactic| with_reducible exact le_moreForHead _ _ _ ‹LeRec _ _›)

theorem le_forVar {r r' : Rec}  (hr : LeRec r r') :
    Le (P.forVar r) (P.forVar r') := by
  unfold P.forVar; le

macro_rules | `(tactic| leleaf) => `(tactic| with_reducible exact le_forVar ‹LeRec _ _›)

theorem le_forExpr {r r' : Rec}  (hr : LeRec r r') :
    Le (P.forExpr r) (P.forExpr r') := by
  unfold P.forExpr; le

macro_rules | `(tactic| leleaf) => `(tactic| with_reducible exact le_forExpr ‹LeRec _ _›)

theorem le_forLet {r r' : Rec}  (hr : LeRec r r') :
    Le (P.forLet r) (P.forLet r') := by
  unfold P.forLet; le

macro_rules | `(tactic| leleaf) => `(tactic| with_reducible exact le_forLet ‹LeRec _ _›)

theorem le_forConst {r r' : Rec}  (hr : LeRec r r') :
    Le (P.forConst r) (P.forConst r') := by
  unfold P.forConst; le

macro_rules | `(tactic| leleaf) => `(tactic| with_reducible exact le_forConst ‹LeRec _ _›)

theorem le_forStatement {r r' : Rec}  (hr : LeRec r r') :
    Le (P.forStatement r) (P.forStatement r') := by
  unfold P.forStatement; le

macro_rules | `(tactic| leleaf) => `(tactic| with_reducible exact le_forStatement ‹LeRec _ _›)

theorem le_caseClause {r r' : Rec}  (hr : LeRec r r') :
    Le (P.caseClause r) (P.caseClause r') := by
  unfold P.caseClause; le

macro_rules | `(tactic| leleaf) => `(tactic| with_reducible exact le_caseClause ‹LeRec _ _›)

theorem le_defaultClause {r r' : Rec}  (hr : LeRec r r') :
    Le (P.defaultClause r) (P.defaultClause r') := by
  unfold P.defaultClause; le

macro_rules | `(tactic| leleaf) => `(tactic| with_reducible exact le_defaultClause ‹LeRec _ _›)

theorem le_switchStep {r r' : Rec} (st : List (Ast .case) × Bool) (hr : LeRec r r') :
    Le (P.switchStep r st) (P.switchStep r' st) := by
  unfold P.switchStep; le

macro_rules | `(tactic| leleaf) => `(tactic| with_reducible exact le_switchStep _ ‹LeRec _ _›)

theorem le_switchCases {r r' : Rec}  (hr : LeRec r r') :
    Le (P.switchCases r) (P.switchCases r') := by
  unfold P.switchCases; le

macro_rules | `(tactic| leleaf) => `(tactic| with_reducible exact le_switchCases ‹LeRec _ _›)

theorem le_switchStatement {r r' : Rec}  (hr : LeRec r r') :
    Le (P.switchStatement r) (P.switchStatement r') := by
  unfold P.switchStatement; le

macro_rules | `(tactic| leleaf) => `(tactic| with_reducible exact le_switchStatement ‹LeRec _ _›)

theorem le_returnArg {r r' : Rec}  (hr : LeRec r r') :
    Le (P.returnArg r) (P.returnArg r') := by
  unfold P.returnArg; le

macro_rules | `(tactic| leleaf) => `(tactic| with_reducible exact le_returnArg ‹LeRec _ _›)

theorem le_returnStatement {r r' : Rec}  (hr : LeRec r r') :
    Le (P.returnStatement r) (P.returnStatement r') := by
  unfold P.returnStatement; le

macro_rules | `(tactic| leleaf) => `(tactic| with_reducible exact le_returnStatement ‹LeRec _ _›)

theorem le_withStatement {r r' : Rec}  (hr : LeRec r r') :
    Le (P.withStatement r) (P.withStatement r') := by
  unfold P.withStatement; le

macro_rules | `(tactic| leleaf) => `(tactic| with_reducible exact le_withStatement ‹LeRec _ _›)

theorem le_throwStatement {r r' : Rec}  (hr : LeRec r r') :
    Le (P.throwStatement r) (P.throwStatement r') := by
  unfold P.throwStatement; le

macro_rules | `(tactic| leleaf) => `(tactic| with_reducible exact le_throwStatement ‹LeRec _ _›)

theorem le_catchOpt {r r' : Rec}  (hr : LeRec r r') :
    Le (P.catchOpt r) (P.catchOpt r') := by
  unfold P.catchOpt; le

macro_rules | `(tactic| leleaf) => `(tactic| with_reducible exact le_catchOpt ‹LeRec _ _›)

theorem le_finallyOpt {r r' : Rec}  (hr : LeRec r r') :
    Le (P.finallyOpt r) (P.finallyOpt r') := by
  unfold P.finallyOpt; le

macro_rules | `(tactic| leleaf) => `(tactic| with_reducible exact le_finallyOpt ‹LeRec _ _›)

theorem le_tryTail {r r' : Rec} (body : Ast .block) (hr : LeRec r r') :
    Le (P.tryTail r body) (P.tryTail r' body) := by
  unfold P.tryTail; le

macro_rules | `(tactic| leleaf) => `(tactic| with_reducible exact le_tryTail _ ‹LeRec _ _›)

theorem le_tryStatement {r r' : Rec}  (hr : LeRec r r') :
    Le (P.tryStatement r) (P.tryStatement r') := by
  unfold P.tryStatement; le

macro_rules | `(tactic| leleaf) => `(tactic| with_reducible exact le_tryStatement ‹LeRec _ _›)

theorem le_identifierItem {r r' : Rec} (allowDecl : Bool) (hr : LeRec r r') :
    Le (P.identifierItem r allowDecl) (P.identifierItem r' allowDecl) := by
  unfold P.identifierItem; le

macro_rules | `(tactic| leleaf) => `(tactic| with_reducible exact le_identifierItem _ ‹LeRec _ _›)

theorem le_asItem {f f' : P Stmt} (h : Le f f') :
    Le (P.asItem f) (P.asItem f') := by
  unfold P.asItem; le

macro_rules | `(tactic| leleaf) => `(tactic| with_reducible refine le_asItem ?_)

theorem le_stmtListItem {r r' : Rec} (allowDecl : Bool) (hr : LeRec r r') :
    Le (P.stmtListItem r allowDecl) (P.stmtListItem r' allowDecl) := by
  unfold P.stmtListItem; le

macro_rules | `(tactic| leleaf) => `(tactic| with_reducible exact le_stmtListItem _ ‹LeRec _ _›)

theorem le_moduleItemsStep {r r' : Rec} (items : List (Ast .modItem)) (hr : LeRec r r') :
    Le (P.moduleItemsStep r items) (P.moduleItemsStep r' items) := by
  unfold P.moduleItemsStep; le

macro_rules | `(tactic| leleaf) => `(tactic| with_reducible exact le_moduleItemsStep _ ‹LeRec _ _›)

theorem le_moreModuleItems {r r' : Rec} (items : List (Ast .modItem)) (hr : LeRec r r') :
    Le (P.moreModuleItems r items) (P.moreModuleItems r' items) := by
  unfold P.moreModuleItems; le

macro_rules | `(tactic| leleaf) => `(tactic| with_reducible exact le_moreModuleItems _ ‹LeRec _ _›)

theorem le_programItemsStep {r r' : Rec} (stmts : List StmtListItem) (hr : LeRec r r') :
    Le (P.programItemsStep r stmts) (P.programItemsStep r' stmts) := by
  unfold P.programItemsStep; le

macro_rules | `(tactic| leleaf) => `(tactic| with_reducible exact le_programItemsStep _ ‹LeRec _ _›)

theorem le_programItems {r r' : Rec}  (hr : LeRec r r') :
    Le (P.programItems r) (P.programItems r') := by
  unfold P.programItems; le

macro_rules | `(tactic| leleaf) => `(tactic| with_reducible exact le_programItems ‹LeRec _ _›)

theorem le_parseModule {r r' : Rec}  (hr : LeRec r r') :
    Le (P.parseModule r) (P.parseModule r') := by
  unfold P.parseModule; le

macro_rules | `(tactic| leleaf) => `(tactic| with_reducible exact le_parseModule ‹LeRec _ _›)

theorem le_parseProgram {r r' : Rec}  (hr : LeRec r r') :
    Le (P.parseProgram r) (P.parseProgram r') := by
  unfold P.parseProgram; le

macro_rules | `(tactic| leleaf) => `(tactic| with_reducible exact le_parseProgram ‹LeRec _ _›)

theorem le_parseScript {r r' : Rec} (strict : Bool) (hr : LeRec r r') :
    Le (P.parseScript r strict) (P.parseScript r' strict) := by
  unfold P.parseScript; le

macro_rules | `(tactic| leleaf) => `(tactic| with_reducible exact le_parseScript _ ‹LeRec _ _›)

end Esprit
