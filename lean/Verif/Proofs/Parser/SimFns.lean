import Verif.Proofs.Parser.Sim

/-! The parser functions behave alike in all modes, up to the checks. -/

set_option linter.unusedSectionVars false

namespace Esprit

open Lex ReaderSpec Grammar Sim

variable [Env] [LawfulEnv] {S : Str} {m : Mode} {α : Type}

/-- The functions of the recursive knot behave alike. -/
structure SimRec (S : Str) (m : Mode) (r : Rec) : Prop where
  assign : Sim S m (fun _ => True) r.assign
  item : ∀ b, Sim S m (fun _ => True) (r.item b)

macro_rules | `(tactic| simleaf) => `(tactic| with_reducible first
  | exact SimRec.assign ‹SimRec _ _ _› | exact SimRec.item ‹SimRec _ _ _› _)

theorem newIdCheck_pure (binding : Bool) (name : Name) (location : Span) :
    ∃ c, P.newIdCheck binding name location = Pure.pure c := by
  unfold P.newIdCheck
  cases name with
  | atom a =>
    simp only [Name.toAtom]
    split
    · exact ⟨_, rfl⟩
    · split <;> exact ⟨_, rfl⟩
  | string t =>
    simp only [Name.isIllegalStrictBinding, Name.isStrictReserved, Bool.and_false]
    exact ⟨_, rfl⟩

theorem sim_newId (binding : Bool) (name : Name) (location : Span) :
    Sim S m (fun _ => True) (P.newId binding name location) := by
  unfold P.newId
  obtain ⟨c, hc⟩ := newIdCheck_pure binding name location
  rw [hc]
  exact bind strictCheck fun _ _ => pure trivial

macro_rules | `(tactic| simleaf) => `(tactic| with_reducible exact sim_newId _ _ _)

theorem sim_newIdFromToken (binding : Bool) (token : Token) :
    Sim S m (fun _ => True) (P.newIdFromToken binding token) := by
  unfold P.newIdFromToken; sim

macro_rules | `(tactic| simleaf) => `(tactic| with_reducible exact sim_newIdFromToken _ _)

theorem sim_id (binding : Bool) :
    Sim S m (fun _ => True) (P.id binding) := by
  unfold P.id; sim

macro_rules | `(tactic| simleaf) => `(tactic| with_reducible exact sim_id _)

theorem sim_idOpt (binding : Bool) :
    Sim S m (fun _ => True) (P.idOpt binding) := by
  unfold P.idOpt; sim

macro_rules | `(tactic| simleaf) => `(tactic| with_reducible exact sim_idOpt _)

theorem sim_bindingPattern  :
    Sim S m (fun _ => True) (P.bindingPattern ) := by
  unfold P.bindingPattern; sim

macro_rules | `(tactic| simleaf) => `(tactic| with_reducible exact sim_bindingPattern )

theorem sim_pattern  :
    Sim S m (fun _ => True) (P.pattern ) := by
  unfold P.pattern; sim

macro_rules | `(tactic| simleaf) => `(tactic| with_reducible exact sim_pattern )

theorem sim_paramsStep (list : List PattId) :
    Sim S m (fun _ => True) (P.paramsStep list) := by
  unfold P.paramsStep; sim

macro_rules | `(tactic| simleaf) => `(tactic| with_reducible exact sim_paramsStep _)

theorem sim_formalParameters  :
    Sim S m (fun _ => True) (P.formalParameters ) := by
  unfold P.formalParameters; sim

macro_rules | `(tactic| simleaf) => `(tactic| with_reducible exact sim_formalParameters )

/-- The directive has no effect: its text, with the quotes, is not a pragma. -/
def NoPragma (d : Dir) : Prop := d.pragma ≠ c!"use strict" ∧ d.pragma ≠ c!"use module"

theorem Good.noPragma {t : Token} {lit : StringLiteral} (ht : Good t) (hv : t.value = .string lit)
    (d : Dir) (hd : d.string = lit) : NoPragma d := by
  obtain ⟨x, hx, h⟩ := ht lit hv
  unfold NoPragma Dir.pragma
  rw [hd, hx]
  constructor <;> (rintro rfl; simp at h)

theorem sim_matchDirectiveOpt :
    Sim S m (fun o => ∀ d, o = some d → NoPragma d) P.matchDirectiveOpt := by
  unfold P.matchDirectiveOpt
  refine bind posn fun start _ => bind read fun t ht => ?_
  split
  · rename_i lit hv
    refine bind peek fun t2 ht2 => ?_
    split
    · refine bind (Q := NoPragma) (endWithAutoSemi' fun l s => ht.noPragma hv _ rfl) fun d hd => ?_
      exact pure fun d' h => by cases h; exact hd
    · exact bind (unread ht) fun _ _ => pure fun _ h => by cases h
  · exact bind (unread ht) fun _ _ => pure fun _ h => by cases h



theorem sim_directivesStep (dirs : List Dir) : Sim S m (fun _ => True) (P.directivesStep dirs) := by
  unfold P.directivesStep
  refine bind sim_matchDirectiveOpt fun o ho => ?_
  cases o with
  | none => exact pure trivial
  | some dir =>
    obtain ⟨h1, h2⟩ := ho dir rfl
    refine get (fun _ => rfl) fun s => ?_
    simp only [h1, h2, if_false, decide_false, Bool.false_and, Bool.false_eq_true]
    exact pure trivial

theorem sim_bodyDirectives : Sim S m (fun _ => True) P.bodyDirectives :=
  loop' sim_directivesStep

macro_rules | `(tactic| simleaf) => `(tactic| with_reducible exact sim_bodyDirectives)

theorem sim_statementListStep {r : Rec} (items : List StmtListItem) (hr : SimRec S m r) :
    Sim S m (fun _ => True) (P.statementListStep r items) := by
  unfold P.statementListStep; sim

macro_rules | `(tactic| simleaf) => `(tactic| with_reducible exact sim_statementListStep _ ‹SimRec _ _ _›)

theorem sim_statementList {r : Rec} (hr : SimRec S m r) :
    Sim S m (fun _ => True) (P.statementList r) := by
  unfold P.statementList; sim

macro_rules | `(tactic| simleaf) => `(tactic| with_reducible exact sim_statementList  ‹SimRec _ _ _›)

theorem sim_scriptBody {r : Rec} (hr : SimRec S m r) :
    Sim S m (fun _ => True) (P.scriptBody r) := by
  unfold P.scriptBody; sim

macro_rules | `(tactic| simleaf) => `(tactic| with_reducible exact sim_scriptBody  ‹SimRec _ _ _›)

theorem sim_functionBody (params : List PattId) {r : Rec} (hr : SimRec S m r) :
    Sim S m (fun _ => True) (P.functionBody r params) := by
  intro s hs
  show SimRes S m (fun _ => True) s
    ((P.modify (fun s => { s with ctx := s.ctx.newFunction }) >>= fun _ =>
      P.expect .lBrace >>= fun _ => P.scriptBody r >>= fun body =>
      P.strictCheck (Pure.pure (P.functionBodyCheck params (P.dirsOf body))) >>= fun _ =>
      P.expect .rBrace >>= fun _ =>
      P.modify (fun s' => { s' with ctx := s.ctx }) >>= fun _ => Pure.pure body : P Script) s)
    ((P.modify (fun s => { s with ctx := s.ctx.newFunction }) >>= fun _ =>
      P.expect .lBrace >>= fun _ => P.scriptBody r >>= fun body =>
      P.strictCheck (Pure.pure (P.functionBodyCheck params (P.dirsOf body))) >>= fun _ =>
      P.expect .rBrace >>= fun _ =>
      P.modify (fun s' => { s' with ctx := (m.of s).ctx }) >>= fun _ => Pure.pure body : P Script)
      (m.of s))
  refine bind2 (modify (m := m) (f := fun s => { s with ctx := s.ctx.newFunction }) (fun _ => rfl) fun _ => ⟨rfl, rfl, rfl, rfl, rfl⟩) (fun _ _ => ?_) s hs
  refine bind2 expect fun _ _ => bind2 (sim_scriptBody hr) fun body _ => ?_
  refine bind2 strictCheck fun _ _ => bind2 expect fun _ _ => ?_
  refine bind2 (Q := fun _ => True) ?_ fun _ _ => pure trivial
  intro s1 h1
  exact SimRes.eq (s := s1) trivial ⟨h1.goal, h1.validate, hs.strict, h1.at_, h1.tok⟩ rfl rfl

macro_rules | `(tactic| simleaf) => `(tactic| with_reducible exact sim_functionBody _ ‹SimRec _ _ _›)

theorem sim_function {r : Rec} {c : Cat} {getId : P (Ast c)} (h : Sim S m (fun _ => True) getId)
    (hr : SimRec S m r) : Sim S m (fun _ => True) (P.function r getId) := by
  unfold P.function; sim

macro_rules | `(tactic| simcomb) => `(tactic| with_reducible refine sim_function ?_ ‹SimRec _ _ _›)

theorem sim_functionDeclaration {r : Rec} (hr : SimRec S m r) :
    Sim S m (fun _ => True) (P.functionDeclaration r) := by
  unfold P.functionDeclaration; sim

macro_rules | `(tactic| simleaf) => `(tactic| with_reducible exact sim_functionDeclaration  ‹SimRec _ _ _›)

theorem sim_moreCommaStep {f : P α} (h : Sim S m (fun _ => True) f) (items : List α) :
    Sim S m (fun _ => True) (P.moreCommaStep f items) := by
  unfold P.moreCommaStep; sim

theorem sim_moreComma {f : P α} (h : Sim S m (fun _ => True) f) (first : α) :
    Sim S m (fun _ => True) (P.moreComma first f) := loop' (sim_moreCommaStep h)

macro_rules | `(tactic| simcomb) => `(tactic| with_reducible refine sim_moreComma ?_ _)

theorem sim_commaSeparated {f : P α} (h : Sim S m (fun _ => True) f) :
    Sim S m (fun _ => True) (P.commaSeparated f) := by
  unfold P.commaSeparated; sim

macro_rules | `(tactic| simcomb) => `(tactic| with_reducible refine sim_commaSeparated ?_)

theorem sim_moreExpressions {r : Rec} (first : Expr) (hr : SimRec S m r) :
    Sim S m (fun _ => True) (P.moreExpressions r first) := by
  unfold P.moreExpressions; sim

macro_rules | `(tactic| simleaf) => `(tactic| with_reducible exact sim_moreExpressions _ ‹SimRec _ _ _›)

theorem sim_expression {r : Rec} (hr : SimRec S m r) :
    Sim S m (fun _ => True) (P.expression r) := by
  unfold P.expression; sim

macro_rules | `(tactic| simleaf) => `(tactic| with_reducible exact sim_expression  ‹SimRec _ _ _›)

theorem sim_parenExpression {r : Rec} (hr : SimRec S m r) :
    Sim S m (fun _ => True) (P.parenExpression r) := by
  unfold P.parenExpression; sim

macro_rules | `(tactic| simleaf) => `(tactic| with_reducible exact sim_parenExpression  ‹SimRec _ _ _›)

theorem sim_exprListItem {r : Rec} (hr : SimRec S m r) :
    Sim S m (fun _ => True) (P.exprListItem r) := by
  unfold P.exprListItem; sim

macro_rules | `(tactic| simleaf) => `(tactic| with_reducible exact sim_exprListItem  ‹SimRec _ _ _›)

theorem sim_arrayElement {r : Rec} (hr : SimRec S m r) :
    Sim S m (fun _ => True) (P.arrayElement r) := by
  unfold P.arrayElement; sim

macro_rules | `(tactic| simleaf) => `(tactic| with_reducible exact sim_arrayElement  ‹SimRec _ _ _›)

theorem sim_arrayStep {r : Rec} (elts : List (Ast (.opt .item))) (hr : SimRec S m r) :
    Sim S m (fun _ => True) (P.arrayStep r elts) := by
  unfold P.arrayStep; sim

macro_rules | `(tactic| simleaf) => `(tactic| with_reducible exact sim_arrayStep _ ‹SimRec _ _ _›)

theorem sim_arrayLiteral {r : Rec} (start : Token) (hr : SimRec S m r) :
    Sim S m (fun _ => True) (P.arrayLiteral r start) := by
  unfold P.arrayLiteral; sim

macro_rules | `(tactic| simleaf) => `(tactic| with_reducible exact sim_arrayLiteral _ ‹SimRec _ _ _›)

theorem sim_morePropInit {r : Rec} (key : PropKey) (hr : SimRec S m r) :
    Sim S m (fun _ => True) (P.morePropInit r key) := by
  unfold P.morePropInit; sim

macro_rules | `(tactic| simleaf) => `(tactic| with_reducible exact sim_morePropInit _ ‹SimRec _ _ _›)

theorem sim_propertyKeyOpt  :
    Sim S m (fun _ => True) (P.propertyKeyOpt ) := by
  unfold P.propertyKeyOpt; sim

macro_rules | `(tactic| simleaf) => `(tactic| with_reducible exact sim_propertyKeyOpt )

theorem sim_propertyKey  :
    Sim S m (fun _ => True) (P.propertyKey ) := by
  unfold P.propertyKey; sim

macro_rules | `(tactic| simleaf) => `(tactic| with_reducible exact sim_propertyKey )

theorem sim_objectProperty {r : Rec} (hr : SimRec S m r) :
    Sim S m (fun _ => True) (P.objectProperty r) := by
  unfold P.objectProperty; sim

macro_rules | `(tactic| simleaf) => `(tactic| with_reducible exact sim_objectProperty  ‹SimRec _ _ _›)

theorem sim_objectStep {r : Rec} (props : List (Ast .prop)) (hr : SimRec S m r) :
    Sim S m (fun _ => True) (P.objectStep r props) := by
  unfold P.objectStep; sim

macro_rules | `(tactic| simleaf) => `(tactic| with_reducible exact sim_objectStep _ ‹SimRec _ _ _›)

theorem sim_objectLiteral {r : Rec} (start : Token) (hr : SimRec S m r) :
    Sim S m (fun _ => True) (P.objectLiteral r start) := by
  unfold P.objectLiteral; sim

macro_rules | `(tactic| simleaf) => `(tactic| with_reducible exact sim_objectLiteral _ ‹SimRec _ _ _›)

theorem sim_primaryExpression {r : Rec} (hr : SimRec S m r) :
    Sim S m (fun _ => True) (P.primaryExpression r) := by
  unfold P.primaryExpression; sim

macro_rules | `(tactic| simleaf) => `(tactic| with_reducible exact sim_primaryExpression  ‹SimRec _ _ _›)

theorem sim_memberBaseExpression {r : Rec} (hr : SimRec S m r) :
    Sim S m (fun _ => True) (P.memberBaseExpression r) := by
  unfold P.memberBaseExpression; sim

macro_rules | `(tactic| simleaf) => `(tactic| with_reducible exact sim_memberBaseExpression  ‹SimRec _ _ _›)

theorem sim_argumentsStep {r : Rec} (args : List (Ast .item)) (hr : SimRec S m r) :
    Sim S m (fun _ => True) (P.argumentsStep r args) := by
  unfold P.argumentsStep; sim

macro_rules | `(tactic| simleaf) => `(tactic| with_reducible exact sim_argumentsStep _ ‹SimRec _ _ _›)

theorem sim_arguments {r : Rec} (hr : SimRec S m r) :
    Sim S m (fun _ => True) (P.arguments r) := by
  unfold P.arguments; sim

macro_rules | `(tactic| simleaf) => `(tactic| with_reducible exact sim_arguments  ‹SimRec _ _ _›)

theorem sim_derefBrack {r : Rec} (hr : SimRec S m r) :
    Sim S m (fun _ => True) (P.derefBrack r) := by
  unfold P.derefBrack; sim

macro_rules | `(tactic| simleaf) => `(tactic| with_reducible exact sim_derefBrack  ‹SimRec _ _ _›)

theorem sim_idName  :
    Sim S m (fun _ => True) (P.idName ) := by
  unfold P.idName; sim

macro_rules | `(tactic| simleaf) => `(tactic| with_reducible exact sim_idName )

theorem sim_derefDot  :
    Sim S m (fun _ => True) (P.derefDot ) := by
  unfold P.derefDot; sim

macro_rules | `(tactic| simleaf) => `(tactic| with_reducible exact sim_derefDot )

theorem sim_derefOpt {r : Rec} (hr : SimRec S m r) :
    Sim S m (fun _ => True) (P.derefOpt r) := by
  unfold P.derefOpt; sim

macro_rules | `(tactic| simleaf) => `(tactic| with_reducible exact sim_derefOpt  ‹SimRec _ _ _›)

theorem sim_suffixOpt {r : Rec} (hr : SimRec S m r) :
    Sim S m (fun _ => True) (P.suffixOpt r) := by
  unfold P.suffixOpt; sim

macro_rules | `(tactic| simleaf) => `(tactic| with_reducible exact sim_suffixOpt  ‹SimRec _ _ _›)

theorem sim_suffixStep {r : Rec} (result : Expr) (hr : SimRec S m r) :
    Sim S m (fun _ => True) (P.suffixStep r result) := by
  unfold P.suffixStep; sim

macro_rules | `(tactic| simleaf) => `(tactic| with_reducible exact sim_suffixStep _ ‹SimRec _ _ _›)

theorem sim_moreSuffixes {r : Rec} (result : Expr) (hr : SimRec S m r) :
    Sim S m (fun _ => True) (P.moreSuffixes r result) := by
  unfold P.moreSuffixes; sim

macro_rules | `(tactic| simleaf) => `(tactic| with_reducible exact sim_moreSuffixes _ ‹SimRec _ _ _›)

theorem sim_derefStep {r : Rec} (base : Expr) (hr : SimRec S m r) :
    Sim S m (fun _ => True) (P.derefStep r base) := by
  unfold P.derefStep; sim

macro_rules | `(tactic| simleaf) => `(tactic| with_reducible exact sim_derefStep _ ‹SimRec _ _ _›)

theorem sim_newLoop {r : Rec} (hr : SimRec S m r) (news : List Token) :
    ∀ (hasArgs : Bool) (base : Expr), Sim S m (fun _ => True) (P.newLoop r news hasArgs base) := by
  induction news with
  | nil => exact fun _ _ => pure trivial
  | cons t ts ih =>
    intro hasArgs base
    unfold P.newLoop
    sim
    all_goals exact ih _ _

macro_rules | `(tactic| simleaf) => `(tactic| with_reducible exact sim_newLoop ‹SimRec _ _ _› _ _ _)

theorem sim_moreNewExpression {r : Rec} (news : List Token) (base : Expr) (hr : SimRec S m r) :
    Sim S m (fun _ => True) (P.moreNewExpression r news base) := by
  unfold P.moreNewExpression; sim

macro_rules | `(tactic| simleaf) => `(tactic| with_reducible exact sim_moreNewExpression _ _ ‹SimRec _ _ _›)

theorem sim_newExpression {r : Rec} (news : List Token) (hr : SimRec S m r) :
    Sim S m (fun _ => True) (P.newExpression r news) := by
  unfold P.newExpression; sim

macro_rules | `(tactic| simleaf) => `(tactic| with_reducible exact sim_newExpression _ ‹SimRec _ _ _›)

theorem sim_callExpression {r : Rec} (hr : SimRec S m r) :
    Sim S m (fun _ => True) (P.callExpression r) := by
  unfold P.callExpression; sim

macro_rules | `(tactic| simleaf) => `(tactic| with_reducible exact sim_callExpression  ‹SimRec _ _ _›)

theorem sim_newsStep (news : List Token) :
    Sim S m (fun _ => True) (P.newsStep news) := by
  unfold P.newsStep; sim

macro_rules | `(tactic| simleaf) => `(tactic| with_reducible exact sim_newsStep _)

theorem sim_lhsExpression {r : Rec} (hr : SimRec S m r) :
    Sim S m (fun _ => True) (P.lhsExpression r) := by
  unfold P.lhsExpression; sim

macro_rules | `(tactic| simleaf) => `(tactic| with_reducible exact sim_lhsExpression  ‹SimRec _ _ _›)

theorem sim_matchUnop  :
    Sim S m (fun _ => True) (P.matchUnop ) := by
  unfold P.matchUnop; sim

macro_rules | `(tactic| simleaf) => `(tactic| with_reducible exact sim_matchUnop )

theorem sim_matchPrefix  :
    Sim S m (fun _ => True) (P.matchPrefix ) := by
  unfold P.matchPrefix; sim

macro_rules | `(tactic| simleaf) => `(tactic| with_reducible exact sim_matchPrefix )

theorem sim_matchPostfixOperatorOpt  :
    Sim S m (fun _ => True) (P.matchPostfixOperatorOpt ) := by
  unfold P.matchPostfixOperatorOpt; sim

macro_rules | `(tactic| simleaf) => `(tactic| with_reducible exact sim_matchPostfixOperatorOpt )

theorem sim_toTarget (e : Expr) :
    Sim S m (fun _ => True) (P.toTarget e) := by
  unfold P.toTarget; sim

macro_rules | `(tactic| simleaf) => `(tactic| with_reducible exact sim_toTarget _)

theorem sim_toPatt (e : Expr) :
    Sim S m (fun _ => True) (P.toPatt e) := by
  unfold P.toPatt; sim

macro_rules | `(tactic| simleaf) => `(tactic| with_reducible exact sim_toPatt _)

theorem sim_prefixStep (prefixes : List Prefix) :
    Sim S m (fun _ => True) (P.prefixStep prefixes) := by
  unfold P.prefixStep; sim

macro_rules | `(tactic| simleaf) => `(tactic| with_reducible exact sim_prefixStep _)

theorem sim_applyPostfix (postfixOp : Option Postfix) (arg : Expr) :
    Sim S m (fun _ => True) (P.applyPostfix postfixOp arg) := by
  unfold P.applyPostfix; sim

macro_rules | `(tactic| simleaf) => `(tactic| with_reducible exact sim_applyPostfix _ _)

theorem sim_applyPrefixes (ps : List Prefix) :
    ∀ (arg : Expr), Sim S m (fun _ => True) (P.applyPrefixes ps arg) := by
  induction ps with
  | nil => exact fun _ => pure trivial
  | cons t ts ih =>
    intro arg
    cases t <;> unfold P.applyPrefixes <;> sim
    all_goals exact ih _

macro_rules | `(tactic| simleaf) => `(tactic| with_reducible exact sim_applyPrefixes _ _)

theorem sim_unaryExpression {r : Rec} (hr : SimRec S m r) :
    Sim S m (fun _ => True) (P.unaryExpression r) := by
  unfold P.unaryExpression; sim

macro_rules | `(tactic| simleaf) => `(tactic| with_reducible exact sim_unaryExpression  ‹SimRec _ _ _›)

theorem sim_matchInfix  :
    Sim S m (fun _ => True) (P.matchInfix ) := by
  unfold P.matchInfix; sim

macro_rules | `(tactic| simleaf) => `(tactic| with_reducible exact sim_matchInfix )

theorem sim_infixStep {r : Rec} (st : Stack × Expr) (hr : SimRec S m r) :
    Sim S m (fun _ => True) (P.infixStep r st) := by
  unfold P.infixStep; sim

macro_rules | `(tactic| simleaf) => `(tactic| with_reducible exact sim_infixStep _ ‹SimRec _ _ _›)

theorem sim_moreInfixExpressions {r : Rec} (left : Expr) (hr : SimRec S m r) :
    Sim S m (fun _ => True) (P.moreInfixExpressions r left) := by
  unfold P.moreInfixExpressions; sim

macro_rules | `(tactic| simleaf) => `(tactic| with_reducible exact sim_moreInfixExpressions _ ‹SimRec _ _ _›)

theorem sim_moreConditional {r : Rec} (left : Expr) (hr : SimRec S m r) :
    Sim S m (fun _ => True) (P.moreConditional r left) := by
  unfold P.moreConditional; sim

macro_rules | `(tactic| simleaf) => `(tactic| with_reducible exact sim_moreConditional _ ‹SimRec _ _ _›)

theorem sim_conditionalExpression {r : Rec} (hr : SimRec S m r) :
    Sim S m (fun _ => True) (P.conditionalExpression r) := by
  unfold P.conditionalExpression; sim

macro_rules | `(tactic| simleaf) => `(tactic| with_reducible exact sim_conditionalExpression  ‹SimRec _ _ _›)

theorem sim_moreAssignment {r : Rec} (left : Expr) (hr : SimRec S m r) :
    Sim S m (fun _ => True) (P.moreAssignment r left) := by
  unfold P.moreAssignment; sim

macro_rules | `(tactic| simleaf) => `(tactic| with_reducible exact sim_moreAssignment _ ‹SimRec _ _ _›)

theorem sim_assignmentExpression {r : Rec} (hr : SimRec S m r) :
    Sim S m (fun _ => True) (P.assignmentExpression r) := by
  unfold P.assignmentExpression; sim

macro_rules | `(tactic| simleaf) => `(tactic| with_reducible exact sim_assignmentExpression  ‹SimRec _ _ _›)

theorem sim_expressionStatement {r : Rec} (hr : SimRec S m r) :
    Sim S m (fun _ => True) (P.expressionStatement r) := by
  unfold P.expressionStatement; sim

macro_rules | `(tactic| simleaf) => `(tactic| with_reducible exact sim_expressionStatement  ‹SimRec _ _ _›)

theorem sim_statement {r : Rec} (hr : SimRec S m r) :
    Sim S m (fun _ => True) (P.statement r) := by
  unfold P.statement; sim

macro_rules | `(tactic| simleaf) => `(tactic| with_reducible exact sim_statement  ‹SimRec _ _ _›)

theorem sim_labelStep (labels : List Id) :
    Sim S m (fun _ => True) (P.labelStep labels) := by
  unfold P.labelStep; sim

macro_rules | `(tactic| simleaf) => `(tactic| with_reducible exact sim_labelStep _)

theorem sim_labelledStatement {r : Rec} (i : Id) (hr : SimRec S m r) :
    Sim S m (fun _ => True) (P.labelledStatement r i) := by
  unfold P.labelledStatement; sim

macro_rules | `(tactic| simleaf) => `(tactic| with_reducible exact sim_labelledStatement _ ‹SimRec _ _ _›)

theorem sim_block {r : Rec} (hr : SimRec S m r) :
    Sim S m (fun _ => True) (P.block r) := by
  unfold P.block; sim

macro_rules | `(tactic| simleaf) => `(tactic| with_reducible exact sim_block  ‹SimRec _ _ _›)

theorem sim_declarator {r : Rec} (hr : SimRec S m r) :
    Sim S m (fun _ => True) (P.declarator r) := by
  unfold P.declarator; sim

macro_rules | `(tactic| simleaf) => `(tactic| with_reducible exact sim_declarator  ‹SimRec _ _ _›)

theorem sim_constDeclarator {r : Rec} (hr : SimRec S m r) :
    Sim S m (fun _ => True) (P.constDeclarator r) := by
  unfold P.constDeclarator; sim

macro_rules | `(tactic| simleaf) => `(tactic| with_reducible exact sim_constDeclarator  ‹SimRec _ _ _›)

theorem sim_varStatement {r : Rec} (hr : SimRec S m r) :
    Sim S m (fun _ => True) (P.varStatement r) := by
  unfold P.varStatement; sim

macro_rules | `(tactic| simleaf) => `(tactic| with_reducible exact sim_varStatement  ‹SimRec _ _ _›)

theorem sim_letDeclaration {r : Rec} (start : Posn) (hr : SimRec S m r) :
    Sim S m (fun _ => True) (P.letDeclaration r start) := by
  unfold P.letDeclaration; sim

macro_rules | `(tactic| simleaf) => `(tactic| with_reducible exact sim_letDeclaration _ ‹SimRec _ _ _›)

theorem sim_constDeclaration {r : Rec} (hr : SimRec S m r) :
    Sim S m (fun _ => True) (P.constDeclaration r) := by
  unfold P.constDeclaration; sim

macro_rules | `(tactic| simleaf) => `(tactic| with_reducible exact sim_constDeclaration  ‹SimRec _ _ _›)

theorem sim_emptyStatement  :
    Sim S m (fun _ => True) (P.emptyStatement ) := by
  unfold P.emptyStatement; sim

macro_rules | `(tactic| simleaf) => `(tactic| with_reducible exact sim_emptyStatement )

theorem sim_ifStatement {r : Rec} (hr : SimRec S m r) :
    Sim S m (fun _ => True) (P.ifStatement r) := by
  unfold P.ifStatement; sim

macro_rules | `(tactic| simleaf) => `(tactic| with_reducible exact sim_ifStatement  ‹SimRec _ _ _›)

theorem sim_iterationBody {r : Rec} (hr : SimRec S m r) :
    Sim S m (fun _ => True) (P.iterationBody r) := by
  unfold P.iterationBody; sim

macro_rules | `(tactic| simleaf) => `(tactic| with_reducible exact sim_iterationBody  ‹SimRec _ _ _›)

theorem sim_doStatement {r : Rec} (hr : SimRec S m r) :
    Sim S m (fun _ => True) (P.doStatement r) := by
  unfold P.doStatement; sim

macro_rules | `(tactic| simleaf) => `(tactic| with_reducible exact sim_doStatement  ‹SimRec _ _ _›)

theorem sim_whileStatement {r : Rec} (hr : SimRec S m r) :
    Sim S m (fun _ => True) (P.whileStatement r) := by
  unfold P.whileStatement; sim

macro_rules | `(tactic| simleaf) => `(tactic| with_reducible exact sim_whileStatement  ‹SimRec _ _ _›)

theorem sim_expressionOptSemi {r : Rec} (hr : SimRec S m r) :
    Sim S m (fun _ => True) (P.expressionOptSemi r) := by
  unfold P.expressionOptSemi; sim

macro_rules | `(tactic| simleaf) => `(tactic| with_reducible exact sim_expressionOptSemi  ‹SimRec _ _ _›)

theorem sim_forUpdate {r : Rec} (hr : SimRec S m r) :
    Sim S m (fun _ => True) (P.forUpdate r) := by
  unfold P.forUpdate; sim

macro_rules | `(tactic| simleaf) => `(tactic| with_reducible exact sim_forUpdate  ‹SimRec _ _ _›)

theorem sim_moreFor {r : Rec} (head : Ast (.opt .forHead)) (hr : SimRec S m r) :
    Sim S m (fun _ => True) (P.moreFor r head) := by
  unfold P.moreFor; sim

macro_rules | `(tactic| simleaf) => `(tactic| with_reducible exact sim_moreFor _ ‹SimRec _ _ _›)

theorem sim_moreForIn {r : Rec} (head : Ast .forInHead) (hr : SimRec S m r) :
    Sim S m (fun _ => True) (P.moreForIn r head) := by
  unfold P.moreForIn; sim

macro_rules | `(tactic| simleaf) => `(tactic| with_reducible exact sim_moreForIn _ ‹SimRec _ _ _›)

theorem sim_moreForOf {r : Rec} (head : Ast .forOfHead) (hr : SimRec S m r) :
    Sim S m (fun _ => True) (P.moreForOf r head) := by
  unfold P.moreForOf; sim

macro_rules | `(tactic| simleaf) => `(tactic| with_reducible exact sim_moreForOf _ ‹SimRec _ _ _›)

theorem sim_moreForHead {r : Rec} (start : Loc) (dtor : Ast .dtor)
    (op : Loc → Ast (.list .dtor) → Ast .forHead) (hr : SimRec S m r) :
    Sim S m (fun _ => True) (P.moreForHead r start dtor op) := by
  unfold P.moreForHead; sim

macro_rules | `(tactic| simleaf) => `(tactic| with_reducible exact sim_moreForHead _ _ _ ‹SimRec _ _ _›)

theorem sim_forVar {r : Rec} (hr : SimRec S m r) :
    Sim S m (fun _ => True) (P.forVar r) := by
  unfold P.forVar; sim

macro_rules | `(tactic| simleaf) => `(tactic| with_reducible exact sim_forVar  ‹SimRec _ _ _›)

theorem sim_forExpr {r : Rec} (hr : SimRec S m r) :
    Sim S m (fun _ => True) (P.forExpr r) := by
  unfold P.forExpr; sim

macro_rules | `(tactic| simleaf) => `(tactic| with_reducible exact sim_forExpr  ‹SimRec _ _ _›)

theorem sim_forLet {r : Rec} (hr : SimRec S m r) :
    Sim S m (fun _ => True) (P.forLet r) := by
  unfold P.forLet; sim

macro_rules | `(tactic| simleaf) => `(tactic| with_reducible exact sim_forLet  ‹SimRec _ _ _›)

theorem sim_forConst {r : Rec} (hr : SimRec S m r) :
    Sim S m (fun _ => True) (P.forConst r) := by
  unfold P.forConst; sim

macro_rules | `(tactic| simleaf) => `(tactic| with_reducible exact sim_forConst  ‹SimRec _ _ _›)

theorem sim_forStatement {r : Rec} (hr : SimRec S m r) :
    Sim S m (fun _ => True) (P.forStatement r) := by
  unfold P.forStatement; sim

macro_rules | `(tactic| simleaf) => `(tactic| with_reducible exact sim_forStatement  ‹SimRec _ _ _›)

theorem sim_caseClause {r : Rec} (hr : SimRec S m r) :
    Sim S m (fun _ => True) (P.caseClause r) := by
  unfold P.caseClause; sim

macro_rules | `(tactic| simleaf) => `(tactic| with_reducible exact sim_caseClause  ‹SimRec _ _ _›)

theorem sim_defaultClause {r : Rec} (hr : SimRec S m r) :
    Sim S m (fun _ => True) (P.defaultClause r) := by
  unfold P.defaultClause; sim

macro_rules | `(tactic| simleaf) => `(tactic| with_reducible exact sim_defaultClause  ‹SimRec _ _ _›)

theorem sim_switchStep {r : Rec} (st : List (Ast .case) × Bool) (hr : SimRec S m r) :
    Sim S m (fun _ => True) (P.switchStep r st) := by
  unfold P.switchStep; sim

macro_rules | `(tactic| simleaf) => `(tactic| with_reducible exact sim_switchStep _ ‹SimRec _ _ _›)

theorem sim_switchCases {r : Rec} (hr : SimRec S m r) :
    Sim S m (fun _ => True) (P.switchCases r) := by
  unfold P.switchCases; sim

macro_rules | `(tactic| simleaf) => `(tactic| with_reducible exact sim_switchCases  ‹SimRec _ _ _›)

theorem sim_switchStatement {r : Rec} (hr : SimRec S m r) :
    Sim S m (fun _ => True) (P.switchStatement r) := by
  unfold P.switchStatement; sim

macro_rules | `(tactic| simleaf) => `(tactic| with_reducible exact sim_switchStatement  ‹SimRec _ _ _›)

theorem sim_breakArg (breakToken : Token) :
    Sim S m (fun _ => True) (P.breakArg breakToken) := by
  unfold P.breakArg; sim

macro_rules | `(tactic| simleaf) => `(tactic| with_reducible exact sim_breakArg _)

theorem sim_breakStatement  :
    Sim S m (fun _ => True) (P.breakStatement ) := by
  unfold P.breakStatement; sim

macro_rules | `(tactic| simleaf) => `(tactic| with_reducible exact sim_breakStatement )

theorem sim_continueArg (continueToken : Token) :
    Sim S m (fun _ => True) (P.continueArg continueToken) := by
  unfold P.continueArg; sim

macro_rules | `(tactic| simleaf) => `(tactic| with_reducible exact sim_continueArg _)

theorem sim_continueStatement  :
    Sim S m (fun _ => True) (P.continueStatement ) := by
  unfold P.continueStatement; sim

macro_rules | `(tactic| simleaf) => `(tactic| with_reducible exact sim_continueStatement )

theorem sim_returnArg {r : Rec} (hr : SimRec S m r) :
    Sim S m (fun _ => True) (P.returnArg r) := by
  unfold P.returnArg; sim

macro_rules | `(tactic| simleaf) => `(tactic| with_reducible exact sim_returnArg  ‹SimRec _ _ _›)

theorem sim_returnStatement {r : Rec} (hr : SimRec S m r) :
    Sim S m (fun _ => True) (P.returnStatement r) := by
  unfold P.returnStatement; sim

macro_rules | `(tactic| simleaf) => `(tactic| with_reducible exact sim_returnStatement  ‹SimRec _ _ _›)

theorem sim_withStatement {r : Rec} (hr : SimRec S m r) :
    Sim S m (fun _ => True) (P.withStatement r) := by
  unfold P.withStatement; sim

macro_rules | `(tactic| simleaf) => `(tactic| with_reducible exact sim_withStatement  ‹SimRec _ _ _›)

theorem sim_throwStatement {r : Rec} (hr : SimRec S m r) :
    Sim S m (fun _ => True) (P.throwStatement r) := by
  unfold P.throwStatement; sim

macro_rules | `(tactic| simleaf) => `(tactic| with_reducible exact sim_throwStatement  ‹SimRec _ _ _›)

theorem sim_catchOpt {r : Rec} (hr : SimRec S m r) :
    Sim S m (fun _ => True) (P.catchOpt r) := by
  unfold P.catchOpt; sim

macro_rules | `(tactic| simleaf) => `(tactic| with_reducible exact sim_catchOpt  ‹SimRec _ _ _›)

theorem sim_finallyOpt {r : Rec} (hr : SimRec S m r) :
    Sim S m (fun _ => True) (P.finallyOpt r) := by
  unfold P.finallyOpt; sim

macro_rules | `(tactic| simleaf) => `(tactic| with_reducible exact sim_finallyOpt  ‹SimRec _ _ _›)

theorem sim_tryTail {r : Rec} (body : Ast .block) (hr : SimRec S m r) :
    Sim S m (fun _ => True) (P.tryTail r body) := by
  unfold P.tryTail; sim

macro_rules | `(tactic| simleaf) => `(tactic| with_reducible exact sim_tryTail _ ‹SimRec _ _ _›)

theorem sim_tryStatement {r : Rec} (hr : SimRec S m r) :
    Sim S m (fun _ => True) (P.tryStatement r) := by
  unfold P.tryStatement; sim

macro_rules | `(tactic| simleaf) => `(tactic| with_reducible exact sim_tryStatement  ‹SimRec _ _ _›)

theorem sim_debuggerStatement  :
    Sim S m (fun _ => True) (P.debuggerStatement ) := by
  unfold P.debuggerStatement; sim

macro_rules | `(tactic| simleaf) => `(tactic| with_reducible exact sim_debuggerStatement )

theorem sim_identifierItem {r : Rec} (allowDecl : Bool) (hr : SimRec S m r) :
    Sim S m (fun _ => True) (P.identifierItem r allowDecl) := by
  unfold P.identifierItem; sim

macro_rules | `(tactic| simleaf) => `(tactic| with_reducible exact sim_identifierItem _ ‹SimRec _ _ _›)

theorem sim_asItem {p : P Stmt} (h : Sim S m (fun _ => True) p) :
    Sim S m (fun _ => True) (P.asItem p) := by
  unfold P.asItem; sim

macro_rules | `(tactic| simcomb) => `(tactic| with_reducible refine sim_asItem ?_)

theorem sim_stmtListItem {r : Rec} (allowDecl : Bool) (hr : SimRec S m r) :
    Sim S m (fun _ => True) (P.stmtListItem r allowDecl) := by
  unfold P.stmtListItem; sim

macro_rules | `(tactic| simleaf) => `(tactic| with_reducible exact sim_stmtListItem _ ‹SimRec _ _ _›)

theorem simRec (n : Nat) : SimRec S m (P.recOf n) := by
  induction n with
  | zero => exact ⟨fuel, fun _ => fuel⟩
  | succ n ih => exact ⟨sim_assignmentExpression ih, fun b => sim_stmtListItem b ih⟩

end Esprit
