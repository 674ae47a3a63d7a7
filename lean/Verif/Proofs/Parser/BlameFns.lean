import Verif.Proofs.Parser.Blame
import Verif.Proofs.Parser.SimFns
import Verif.Proofs.Cover

/-! Every parser function reports only errors that are the fault of something in
the source. -/

set_option linter.unusedSectionVars false

namespace Esprit

open Lex ReaderSpec Grammar Blame

variable [Env] [LawfulEnv] {S : Str} {st mo : Bool} {α : Type}

/-- The location of an expression is in the source. -/
def PlacedExpr (S : Str) (e : Expr) : Prop := Placed S e.loc

/-- The functions of the recursive knot report only such errors. -/
structure BlameRec (S : Str) (st mo : Bool) (r : Rec) : Prop where
  assign : Blame S st mo (PlacedExpr S) r.assign
  item : ∀ b, Blame S st mo (fun _ => True) (r.item b)

macro_rules | `(tactic| bleaf) => `(tactic| with_reducible first
  | exact BlameRec.assign ‹BlameRec _ _ _ _› | exact BlameRec.item ‹BlameRec _ _ _ _› _
  | exact allowIn (BlameRec.assign ‹BlameRec _ _ _ _›))

/-- Locations in the source. -/
syntax "placed" : tactic
macro_rules | `(tactic| placed) => `(tactic| first
  | with_reducible assumption
  | exact TokenOf.placed ‹TokenOf _ _›
  | exact Placed.span (by placed) (by placed)
  | assumption)

/-! ### Identifiers -/

/-- An identifier that is a token of the source. -/
def IdOf (S : Str) (i : Id) : Prop :=
  ∃ t, TokenOf S t ∧ t.value = .identifier i.name ∧ i.location = some t.location

theorem IdOf.placed {i : Id} (h : IdOf S i) : Placed S i.location := by
  obtain ⟨t, h1, -, h2⟩ := h
  rw [h2]; exact h1.placed

/-- The check of an identifier. -/
def idCheck (binding : Bool) (a : Atom) (location : Span) : Option Check :=
  if binding && a.isIllegalStrictBinding then some (.strict (.illegalStrictBinding location a))
  else if a.isStrictReserved = .yes then some (.strict (.contextualKeyword location a))
  else if a.isStrictReserved = .unknown then some (.module (.contextualKeyword location a))
  else none

theorem newIdCheck_eq (binding : Bool) (name : Name) (location : Span) :
    P.newIdCheck binding name location = Pure.pure (match name with
      | .atom a => idCheck binding a location
      | .string _ => none) := by
  unfold P.newIdCheck
  cases name with
  | atom a =>
    simp only [Name.toAtom, Name.isIllegalStrictBinding, Name.isStrictReserved, idCheck]
    cases binding <;> cases a <;> rfl
  | string t =>
    simp only [Name.isIllegalStrictBinding, Name.isStrictReserved, Bool.and_false]
    rfl

/-- The check of an identifier that is spelled like a token of the source. -/
theorem b_newId {binding : Bool} {name : Name} {t : Token} (ht : TokenOf S t)
    (h : t.value = .identifier name ∨ binding = false ∧
      ∀ a, name = .atom a → ∃ n, t.value = .identifier n ∧ n.intoString = (Name.atom a).intoString) :
    Blame S st mo (fun i => i = ⟨some t.location, name⟩) (P.newId binding name t.location) := by
  unfold P.newId
  rw [newIdCheck_eq]
  refine bind (strictCheck fun hst c' hc' m e he => ?_) fun _ _ => pure rfl
  subst hst
  cases name with
  | string x => cases hc'
  | atom a =>
    have hn : ∃ n, t.value = .identifier n ∧ n.intoString = (Name.atom a).intoString := by
      rcases h with h | ⟨-, h⟩
      · exact ⟨_, h, rfl⟩
      · exact h a rfl
    obtain ⟨n, hn1, hn2⟩ := hn
    simp only [idCheck] at hc'
    split at hc'
    · rename_i hb
      cases hc'
      cases he
      simp only [Bool.and_eq_true] at hb
      obtain ⟨hb1, hb2⟩ := hb
      rcases h with h | ⟨h, -⟩
      · refine ⟨rfl, ?_, t, ht, h, rfl⟩
        cases a <;> simp_all [Atom.isIllegalStrictBinding]
      · rw [h] at hb1; cases hb1
    · split at hc'
      · rename_i hy
        cases hc'
        cases he
        refine ⟨rfl, .inl ?_, t, n, ht, hn1, hn2, rfl⟩
        cases a <;> simp_all [Atom.isStrictReserved, strictReserved]
      · split at hc'
        · rename_i hy
          cases hc'
          cases m with
          | false => cases he
          | true =>
            cases he
            refine ⟨rfl, .inr ⟨rfl, ?_⟩, t, n, ht, hn1, hn2, rfl⟩
            cases a <;> simp_all [Atom.isStrictReserved]
        · cases hc'

theorem b_newIdFromToken (binding : Bool) (token : Token) (ht : TokenOf S token) :
    Blame S st mo (IdOf S) (P.newIdFromToken binding token) := by
  unfold P.newIdFromToken
  split
  · rename_i name hv
    exact (b_newId ht (.inl hv)).mono fun i hi => by subst hi; exact ⟨token, ht, hv, rfl⟩
  · exact panic

theorem b_id (binding : Bool) : Blame S st mo (IdOf S) (P.id binding) := by
  unfold P.id
  refine bind read fun t ht => ?_
  split
  · rename_i name hv
    exact (b_newId ht (.inl hv)).mono fun i hi => by subst hi; exact ⟨t, ht, hv, rfl⟩
  · exact throwToken ht

theorem b_idOpt (binding : Bool) : Blame S st mo (fun _ => True) (P.idOpt binding) := by
  unfold P.idOpt
  refine bind read fun t ht => ?_
  split
  · rename_i name hv
    exact bind (b_newId ht (.inl hv)) fun _ _ => pure trivial
  · blame

macro_rules | `(tactic| bleaf) => `(tactic| with_reducible first
  | exact b_newIdFromToken _ _ ‹TokenOf _ _› | exact b_id _ | exact b_idOpt _)

/-! ### Patterns and parameters -/

theorem b_bindingPatternAt {s : PState} (hs : BInv S st mo s) {t : Token} {tl : List Token}
    (hla : s.la = t :: tl) (hv : ∀ n, t.value ≠ .identifier n) {Q : Ast (.comp .id) → PState → Prop} :
    BlameAt S st mo Q P.bindingPattern s := by
  unfold P.bindingPattern
  refine bindAt (peekAt hs hla) fun t' s' ht hs' => ?_
  obtain ⟨rfl, rfl⟩ := ht
  have ht := hs.la t' (by rw [hla]; simp)
  split
  · exact (unexpected (Q := fun _ => False)).toAt (fun _ h => h.elim) hs
  · rename_i hf
    have : PError.Blames S st mo (.unsupportedFeature c!"destructuring") := by
      refine ⟨rfl, t', ht, ?_⟩
      unfold Token.firstBinding at hf
      cases hval : t'.value <;> simp_all
    exact this

/-- Patterns are identifiers. -/
theorem b_pattern : Blame S st mo (fun p : PattId => ∃ t, p = .pSimple t) P.pattern := by
  intro s hs
  unfold P.pattern
  refine bindAt (peekTokenAt false hs) fun t s1 ht hs1 => ?_
  obtain ⟨ht, tl, hla⟩ := ht
  split
  · exact bind (b_id true) (fun i hi => pure ⟨_, rfl⟩) s1 hs1
  · rename_i hv
    exact bindAt (R := fun _ _ => False)
      (b_bindingPatternAt hs1 hla (fun n h => hv n h)) fun _ _ h _ => h.elim

macro_rules | `(tactic| bleaf) => `(tactic| with_reducible exact b_pattern)

theorem b_paramsStep (list : List PattId) (hl : ∀ p ∈ list, ∃ t, p = .pSimple t) :
    Blame S st mo (fun x => match x with
      | .inl a => ∀ p ∈ a, ∃ t, p = Ast.pSimple t
      | .inr b => ∀ p ∈ b.1, ∃ t, p = Ast.pSimple t) (P.paramsStep list) := by
  unfold P.paramsStep
  have app : ∀ p : PattId, (∃ t, p = .pSimple t) → ∀ q ∈ list ++ [p], ∃ t, q = .pSimple t := by
    intro p hp q hq
    rcases List.mem_append.1 hq with h | h
    · exact hl q h
    · cases List.mem_singleton.1 h; exact hp
  refine bind peek fun t ht => ?_
  split
  · exact pure hl
  · refine bind (Q := fun _ => True) (by blame) fun _ _ => pure hl
  · refine bind b_pattern fun p hp => bind «matches» fun b _ => ?_
    split
    · exact pure (app p hp)
    · exact pure (app p hp)

/-- Parameters are identifiers. -/
def Simple (ps : Ast .params) : Prop := ∀ p ∈ P.paramList ps, ∃ t, p = .pSimple t

theorem b_formalParameters : Blame S st mo Simple P.formalParameters := by
  unfold P.formalParameters
  refine spanQ (Q := Simple) ?_ fun a l ha _ => by cases a; exact ha
  refine bind expect fun _ _ => ?_
  refine bind (Q := fun x => ∀ p ∈ x.1, ∃ t, p = .pSimple t) ?_ fun x hx => ?_
  · exact loop (fun l => ∀ p ∈ l, ∃ t, p = .pSimple t) (by simp) fun a ha =>
      (b_paramsStep a ha).mono fun x hx => by cases x <;> exact hx
  · refine bind expect fun _ _ => pure ?_
    unfold Simple P.paramList
    show ∀ p ∈ (Ast.ofList x.1).toList, _
    rw [Ast.toList_ofList]
    exact hx

macro_rules | `(tactic| bleaf) => `(tactic| with_reducible exact b_formalParameters)

/-! ### Directives and function bodies -/

theorem b_matchDirectiveOpt :
    Blame S st mo (fun o => ∀ d, o = some d → NoPragma d) P.matchDirectiveOpt := by
  unfold P.matchDirectiveOpt
  refine bind posn fun start hst => bind read fun t ht => ?_
  split
  · rename_i lit hv
    refine bind peek fun t2 ht2 => ?_
    split
    · refine bind (Q := NoPragma)
        (endWithAutoSemi' hst fun l s _ => ht.good.noPragma hv _ rfl) fun d hd => ?_
      exact pure fun d' h => by cases h; exact hd
    · exact bind (unread ht) fun _ _ => pure fun _ h => by cases h
  · exact bind (unread ht) fun _ _ => pure fun _ h => by cases h

theorem b_directivesStep (dirs : List Dir) :
    Blame S st mo (fun _ => True) (P.directivesStep dirs) := by
  unfold P.directivesStep
  refine bind b_matchDirectiveOpt fun o ho => ?_
  cases o with
  | none => exact pure trivial
  | some dir =>
    obtain ⟨h1, h2⟩ := ho dir rfl
    refine get fun s _ => ?_
    simp only [h1, h2, if_false, decide_false, Bool.false_and, Bool.false_eq_true]
    exact pure trivial

theorem b_bodyDirectives : Blame S st mo (fun _ => True) P.bodyDirectives :=
  loop' b_directivesStep

macro_rules | `(tactic| bleaf) => `(tactic| with_reducible exact b_bodyDirectives)


theorem b_statementListStep {r : Rec} (items : List StmtListItem) (hr : BlameRec S st mo r) :
    Blame S st mo (fun _ => True) (P.statementListStep r items) := by
  unfold P.statementListStep; blame

macro_rules | `(tactic| bleaf) => `(tactic| with_reducible exact b_statementListStep _ ‹BlameRec _ _ _ _›)

theorem b_statementList {r : Rec}  (hr : BlameRec S st mo r) :
    Blame S st mo (fun _ => True) (P.statementList r) := by
  unfold P.statementList; blame

macro_rules | `(tactic| bleaf) => `(tactic| with_reducible exact b_statementList  ‹BlameRec _ _ _ _›)

theorem b_scriptBody {r : Rec} (hr : BlameRec S st mo r) :
    Blame S st mo (fun b => Placed S b.loc) (P.scriptBody r) := by
  unfold P.scriptBody
  refine spanQ (Q := fun _ => True) (by blame) fun a l _ hl => ?_
  cases a
  exact hl

macro_rules | `(tactic| bleaf) => `(tactic| with_reducible exact b_scriptBody ‹BlameRec _ _ _ _›)

theorem functionBodyCheck_simple {params : List PattId} (hp : ∀ p ∈ params, ∃ t, p = .pSimple t)
    (dirs : List Dir) : P.functionBodyCheck params dirs = none := by
  unfold P.functionBodyCheck
  split
  · rw [List.findSome?_eq_none_iff]
    intro p h
    obtain ⟨t, rfl⟩ := hp p h
    rfl
  · rfl

theorem b_functionBody {params : List PattId} (hp : ∀ p ∈ params, ∃ t, p = .pSimple t) {r : Rec}
    (hr : BlameRec S st mo r) :
    Blame S st mo (fun b => Placed S b.loc) (P.functionBody r params) := by
  unfold P.functionBody
  refine get fun s hs => ?_
  refine bind (modify fun _ hs => ⟨rfl, rfl, rfl, hs.strict⟩) fun _ _ => bind expect fun _ _ => ?_
  refine bind (b_scriptBody hr) fun body hb => ?_
  refine bind (strictCheck fun _ c' hc' => ?_) fun _ _ => bind expect fun _ _ => ?_
  · rw [functionBodyCheck_simple hp] at hc'; cases hc'
  · exact bind (modify fun _ _ => ⟨rfl, rfl, rfl, hs.strict⟩) fun _ _ => pure hb

theorem b_functionBody' {params : Ast .params} (hp : Simple params) {r : Rec}
    (hr : BlameRec S st mo r) :
    Blame S st mo (fun b => Placed S b.loc) (P.functionBody r (P.paramList params)) :=
  b_functionBody hp hr

macro_rules | `(tactic| bleaf) => `(tactic| with_reducible first
  | exact b_functionBody' ‹Simple _› ‹BlameRec _ _ _ _›
  | exact b_functionBody (by simp) ‹BlameRec _ _ _ _›)

theorem b_function {r : Rec} {c : Cat} {getId : P (Ast c)} (h : Blame S st mo (fun _ => True) getId)
    (hr : BlameRec S st mo r) : Blame S st mo (fun f => Placed S f.loc) (P.function r getId) := by
  unfold P.function
  refine spanQ (Q := fun _ => True) (by blame) fun a l _ hl => ?_
  cases a
  exact hl

theorem b_functionDeclaration {r : Rec} (hr : BlameRec S st mo r) :
    Blame S st mo (fun _ => True) (P.functionDeclaration r) := by
  unfold P.functionDeclaration
  refine span (bind (b_function ?_ hr) fun _ _ => pure trivial)
  blame

macro_rules | `(tactic| bleaf) => `(tactic| with_reducible exact b_functionDeclaration ‹BlameRec _ _ _ _›)

/-! ### Expressions -/

theorem b_moreComma {Q : α → Prop} {f : P α} (h : Blame S st mo Q f) {first : α} (h1 : Q first) :
    Blame S st mo (fun l => ∀ x ∈ l, Q x) (P.moreComma first f) := by
  refine loop (fun l => ∀ x ∈ l, Q x) (by simpa using h1) fun items hi => ?_
  unfold P.moreCommaStep
  refine bind «matches» fun b _ => ?_
  split
  · refine bind h fun x hx => pure fun y hy => ?_
    rcases List.mem_append.1 hy with hy | hy
    · exact hi y hy
    · cases List.mem_singleton.1 hy; exact hx
  · exact pure hi

theorem b_commaSeparated {f : P α} (h : Blame S st mo (fun _ => True) f) :
    Blame S st mo (fun _ => True) (P.commaSeparated f) := by
  unfold P.commaSeparated
  exact bind h fun _ _ => (b_moreComma h trivial).weak

macro_rules | `(tactic| bcomb) => `(tactic| with_reducible first
  | refine b_commaSeparated ?_ | refine weak (b_moreComma (Q := fun _ => True) ?_ trivial))

theorem b_moreExpressions {r : Rec} {first : Expr} (h : PlacedExpr S first)
    (hr : BlameRec S st mo r) : Blame S st mo (PlacedExpr S) (P.moreExpressions r first) := by
  unfold P.moreExpressions
  refine bind peek fun t ht => ?_
  split
  · exact pure h
  · refine bind (b_moreComma hr.assign h) fun l hl => bind (vecSpan l hl) fun loc hloc => ?_
    exact pure hloc

theorem b_expression {r : Rec} (hr : BlameRec S st mo r) :
    Blame S st mo (PlacedExpr S) (P.expression r) :=
  bind hr.assign fun _ h => b_moreExpressions h hr

macro_rules | `(tactic| bleaf) => `(tactic| with_reducible first
  | exact b_expression ‹BlameRec _ _ _ _› | exact allowIn (b_expression ‹BlameRec _ _ _ _›))

theorem b_parenExpression {r : Rec} (hr : BlameRec S st mo r) :
    Blame S st mo (PlacedExpr S) (P.parenExpression r) := by
  unfold P.parenExpression; blame
  exact pure ‹PlacedExpr _ _›

macro_rules | `(tactic| bleaf) => `(tactic| with_reducible exact b_parenExpression ‹BlameRec _ _ _ _›)


theorem b_exprListItem {r : Rec}  (hr : BlameRec S st mo r) :
    Blame S st mo (fun _ => True) (P.exprListItem r) := by
  unfold P.exprListItem; blame

macro_rules | `(tactic| bleaf) => `(tactic| with_reducible exact b_exprListItem  ‹BlameRec _ _ _ _›)

theorem b_arrayElement {r : Rec}  (hr : BlameRec S st mo r) :
    Blame S st mo (fun _ => True) (P.arrayElement r) := by
  unfold P.arrayElement; blame

macro_rules | `(tactic| bleaf) => `(tactic| with_reducible exact b_arrayElement  ‹BlameRec _ _ _ _›)

theorem b_arrayStep {r : Rec} (elts : List (Ast (.opt .item))) (hr : BlameRec S st mo r) :
    Blame S st mo (fun _ => True) (P.arrayStep r elts) := by
  unfold P.arrayStep; blame

macro_rules | `(tactic| bleaf) => `(tactic| with_reducible exact b_arrayStep _ ‹BlameRec _ _ _ _›)

theorem b_arrayLiteral {r : Rec} {start : Token} (h : TokenOf S start) (hr : BlameRec S st mo r) :
    Blame S st mo (PlacedExpr S) (P.arrayLiteral r start) := by
  unfold P.arrayLiteral
  refine allowIn ?_
  blame
  exact pure (Placed.span h.placed (TokenOf.placed ‹_›))

/-- A property name that is a token of the source. -/
def KeyOf (S : Str) (key : PropKey) : Prop :=
  ∀ l name, key = .id l name → ∃ t, TokenOf S t ∧ l = some t.location ∧
    ((∃ n, t.value = .identifier n ∧ n.intoString = name) ∨ ∃ w : Reserved, name = w.name)

theorem ite_text {γ : Type} (R : γ → Prop) {c : Prop} [Decidable c] {a b : γ} (ha : c → R a)
    (hb : R b) : R (if c then a else b) := by
  split
  · exact ha ‹_›
  · exact hb

theorem Name.from_text (s : Str) : (Name.from s).intoString = s := by
  unfold Name.from
  iterate 18 refine ite_text (fun n : Name => n.intoString = s) (fun h => h.symm) ?_
  rfl

theorem Name.from_atom {x : Str} {a : Atom} (h : Name.from x = .atom a) :
    x = (Name.atom a).intoString := by
  rw [← h, Name.from_text]

theorem Name.from_reserved (w : Reserved) (a : Atom) : Name.from w.name ≠ .atom a := by
  have : ∀ w : Reserved, (match Name.from w.name with | .atom _ => false | .string _ => true) = true := by
    intro w; cases w <;> decide
  intro h
  have := this w
  rw [h] at this
  cases this

theorem b_morePropInit {r : Rec} {key : PropKey} (hk : KeyOf S key) (hr : BlameRec S st mo r) :
    Blame S st mo (fun _ => True) (P.morePropInit r key) := by
  unfold P.morePropInit
  refine bind peek fun t ht => ?_
  split
  · blame
  · blame
  rotate_right
  · exact unexpected
  all_goals
  · split
    · rename_i l name
      split
      · rename_i l
        obtain ⟨t', h1, h2, h3⟩ := hk _ _ rfl
        cases h2
        refine bind (b_newId h1 (.inr ⟨rfl, fun a ha => ?_⟩)) fun _ _ => pure trivial
        rcases h3 with ⟨n, h3, h4⟩ | ⟨w, rfl⟩
        · exact ⟨n, h3, by rw [h4]; exact Name.from_atom ha⟩
        · exact (Name.from_reserved w a ha).elim
      · exact panic
    · exact unexpected


macro_rules | `(tactic| bleaf) => `(tactic| with_reducible first
  | exact b_morePropInit ‹KeyOf _ _› ‹BlameRec _ _ _ _›)

theorem b_propertyKeyOpt :
    Blame S st mo (fun o => ∀ k, o = some k → KeyOf S k) P.propertyKeyOpt := by
  unfold P.propertyKeyOpt
  refine bind read fun t ht => ?_
  split
  · rename_i n hv
    exact pure fun k hk => by cases hk; intro l name h; cases h; exact ⟨t, ht, rfl, .inl ⟨n, hv, rfl⟩⟩
  · rename_i w hv
    exact pure fun k hk => by cases hk; intro l name h; cases h; exact ⟨t, ht, rfl, .inr ⟨w, rfl⟩⟩
  · exact pure fun k hk => by cases hk; intro l name h; cases h
  · exact pure fun k hk => by cases hk; intro l name h; cases h
  · exact bind (unread ht) fun _ _ => pure fun k hk => by cases hk

theorem b_propertyKey : Blame S st mo (KeyOf S) P.propertyKey := by
  unfold P.propertyKey
  refine bind b_propertyKeyOpt fun o ho => ?_
  split
  · exact pure (ho _ rfl)
  · exact unexpected

macro_rules | `(tactic| bleaf) => `(tactic| with_reducible exact b_propertyKey)

theorem b_objectProperty {r : Rec} (hr : BlameRec S st mo r) :
    Blame S st mo (fun _ => True) (P.objectProperty r) := by
  unfold P.objectProperty
  refine bind read fun t ht => ?_
  split
  · rename_i hv
    refine bind b_propertyKeyOpt fun o ho => ?_
    split
    · blame
    · exact b_morePropInit (fun l name h => by cases h; exact ⟨t, ht, rfl, .inl ⟨_, hv, rfl⟩⟩) hr
  · rename_i hv
    refine bind b_propertyKeyOpt fun o ho => ?_
    split
    · refine bind expect fun _ _ => bind b_pattern fun p hp => bind expect fun _ _ => ?_
      refine bind (b_functionBody (by simpa using hp) hr) fun _ _ => pure trivial
    · exact b_morePropInit (fun l name h => by cases h; exact ⟨t, ht, rfl, .inl ⟨_, hv, rfl⟩⟩) hr
  all_goals blame

macro_rules | `(tactic| bleaf) => `(tactic| with_reducible exact b_objectProperty ‹BlameRec _ _ _ _›)


theorem b_objectStep {r : Rec} (props : List (Ast .prop)) (hr : BlameRec S st mo r) :
    Blame S st mo (fun _ => True) (P.objectStep r props) := by
  unfold P.objectStep; blame

macro_rules | `(tactic| bleaf) => `(tactic| with_reducible exact b_objectStep _ ‹BlameRec _ _ _ _›)

theorem b_objectLiteral {r : Rec} {start : Token} (h : TokenOf S start) (hr : BlameRec S st mo r) :
    Blame S st mo (PlacedExpr S) (P.objectLiteral r start) := by
  unfold P.objectLiteral
  blame
  exact pure (Placed.span h.placed (TokenOf.placed ‹_›))

theorem b_primaryExpression {r : Rec} (hr : BlameRec S st mo r) :
    Blame S st mo (PlacedExpr S) (P.primaryExpression r) := by
  unfold P.primaryExpression
  refine bind read fun t ht => ?_
  dsimp only
  split
  · rename_i n hv
    exact bind (b_newId ht (.inl hv)) fun i hi => pure (by subst hi; exact ht.placed)
  iterate 7 exact pure ht.placed
  · exact b_arrayLiteral ht hr
  · exact b_objectLiteral ht hr
  · refine bind (unread ht) fun _ _ => bind (b_function ?_ hr) fun f hf => pure hf
    blame
  · exact bind (unread ht) fun _ _ => b_parenExpression hr
  · exact throwToken ht

macro_rules | `(tactic| bleaf) => `(tactic| with_reducible exact b_primaryExpression ‹BlameRec _ _ _ _›)

theorem b_memberBaseExpression {r : Rec} (hr : BlameRec S st mo r) :
    Blame S st mo (PlacedExpr S) (P.memberBaseExpression r) := by
  unfold P.memberBaseExpression
  refine bind matchesToken fun o ho => ?_
  split
  · have h := ho _ rfl
    exact bind expect fun _ _ => bind expect fun _ h2 => pure (Placed.span h.placed h2.placed)
  · exact b_primaryExpression hr

macro_rules | `(tactic| bleaf) => `(tactic| with_reducible exact b_memberBaseExpression ‹BlameRec _ _ _ _›)


theorem b_argumentsStep {r : Rec} (args : List (Ast .item)) (hr : BlameRec S st mo r) :
    Blame S st mo (fun _ => True) (P.argumentsStep r args) := by
  unfold P.argumentsStep; blame

macro_rules | `(tactic| bleaf) => `(tactic| with_reducible exact b_argumentsStep _ ‹BlameRec _ _ _ _›)

theorem b_arguments {r : Rec} (hr : BlameRec S st mo r) :
    Blame S st mo (fun a => TokenOf S a.end) (P.arguments r) := by
  unfold P.arguments
  refine allowIn ?_
  blame
  all_goals exact pure ‹TokenOf _ _›

macro_rules | `(tactic| bleaf) => `(tactic| with_reducible exact b_arguments ‹BlameRec _ _ _ _›)

/-- Applied to an expression in the source. -/
def DerefOf (S : Str) (d : Deref) : Prop := ∀ e, PlacedExpr S e → PlacedExpr S (d.appendTo e)

theorem b_derefBrack {r : Rec} (hr : BlameRec S st mo r) :
    Blame S st mo (DerefOf S) (P.derefBrack r) := by
  unfold P.derefBrack
  refine bind reread fun _ _ => bind (allowIn (b_expression hr)) fun e he => bind expect fun t ht => ?_
  exact pure fun e he => Placed.span he ht.placed

theorem b_idName : Blame S st mo (fun k => Placed S k.location) P.idName := by
  unfold P.idName
  refine bind read fun t ht => ?_
  split
  · exact pure ht.placed
  · exact pure ht.placed
  · exact throwToken ht

theorem b_derefDot : Blame S st mo (DerefOf S) P.derefDot := by
  unfold P.derefDot
  refine bind reread fun _ _ => bind b_idName fun k hk => ?_
  exact pure fun e he => Placed.span he hk

theorem b_derefOpt {r : Rec} (hr : BlameRec S st mo r) :
    Blame S st mo (fun o => ∀ d, o = some d → DerefOf S d) (P.derefOpt r) := by
  unfold P.derefOpt
  refine bind peekOp fun t ht => ?_
  split
  · exact bind (b_derefBrack hr) fun d hd => pure fun d' h => by cases h; exact hd
  · exact bind b_derefDot fun d hd => pure fun d' h => by cases h; exact hd
  · exact pure fun d' h => by cases h

theorem b_suffixOpt {r : Rec} (hr : BlameRec S st mo r) :
    Blame S st mo (fun o => ∀ d, o = some d → ∀ e, PlacedExpr S e → PlacedExpr S (d.appendTo e))
      (P.suffixOpt r) := by
  unfold P.suffixOpt
  refine bind peekOp fun t ht => ?_
  split
  · exact bind b_derefDot fun d hd => pure fun d' h => by cases h; exact hd
  · exact bind (b_derefBrack hr) fun d hd => pure fun d' h => by cases h; exact hd
  · exact bind (b_arguments hr) fun d hd => pure fun d' h => by
      cases h; exact fun e he => Placed.span he hd.placed
  · exact pure fun d' h => by cases h

theorem b_moreSuffixes {r : Rec} {e : Expr} (he : PlacedExpr S e) (hr : BlameRec S st mo r) :
    Blame S st mo (PlacedExpr S) (P.moreSuffixes r e) := by
  refine loop (PlacedExpr S) he fun e he => ?_
  unfold P.suffixStep
  refine bind (b_suffixOpt hr) fun o ho => ?_
  split
  · exact pure (ho _ rfl e he)
  · exact pure he

theorem b_newLoop {r : Rec} (hr : BlameRec S st mo r) (news : List Token) :
    (∀ t ∈ news, TokenOf S t) → ∀ (hasArgs : Bool) (base : Expr), PlacedExpr S base →
      Blame S st mo (PlacedExpr S) (P.newLoop r news hasArgs base) := by
  induction news with
  | nil => exact fun _ _ _ h => pure h
  | cons t ts ih =>
    intro hn hasArgs base hb
    have ht := hn t (by simp)
    have ih := ih fun t h => hn t (by simp [h])
    unfold P.newLoop
    have key : ∀ b : Bool, Blame S st mo (PlacedExpr S) (if b = true then do
        let args ← P.arguments r
        P.newLoop r ts b (args.appendToNew t base)
      else P.newLoop r ts b (Ast.eNew (spanLoc (some t.location) (Ast.loc base)) base Ast.none)) := by
      intro b
      split
      · exact bind (b_arguments hr) fun a ha => ih _ _ (Placed.span ht.placed ha.placed)
      · exact ih _ _ (Placed.span ht.placed hb)
    dsimp only
    split
    · exact bind peekOp fun _ _ => bind (Q := fun _ => True) (pure trivial) fun b _ => key b
    · exact bind (Q := fun _ => True) (pure trivial) fun b _ => key b

theorem b_moreNewExpression {r : Rec} {news : List Token} (hn : ∀ t ∈ news, TokenOf S t)
    {base : Expr} (hb : PlacedExpr S base) (hr : BlameRec S st mo r) :
    Blame S st mo (PlacedExpr S) (P.moreNewExpression r news base) := by
  unfold P.moreNewExpression
  refine bind (Q := PlacedExpr S) (loop (PlacedExpr S) hb fun e he => ?_) fun e he => ?_
  · unfold P.derefStep
    refine bind (b_derefOpt hr) fun o ho => ?_
    split
    · exact pure (ho _ rfl e he)
    · exact pure he
  · exact bind (b_newLoop hr _ (fun t h => hn t (by simpa using h)) _ _ he) fun e he =>
      b_moreSuffixes he hr

theorem b_newExpression {r : Rec} {news : List Token} (hn : ∀ t ∈ news, TokenOf S t)
    (hr : BlameRec S st mo r) : Blame S st mo (PlacedExpr S) (P.newExpression r news) :=
  bind (b_memberBaseExpression hr) fun _ h => b_moreNewExpression hn h hr

theorem b_callExpression {r : Rec} (hr : BlameRec S st mo r) :
    Blame S st mo (PlacedExpr S) (P.callExpression r) :=
  bind (b_primaryExpression hr) fun _ h => b_moreSuffixes h hr

theorem b_lhsExpression {r : Rec} (hr : BlameRec S st mo r) :
    Blame S st mo (PlacedExpr S) (P.lhsExpression r) := by
  unfold P.lhsExpression
  refine bind (Q := fun news => ∀ t ∈ news, TokenOf S t)
    (loop (fun news => ∀ t ∈ news, TokenOf S t) (by simp) fun news hn => ?_) fun news hn => ?_
  · unfold P.newsStep
    refine bind peek fun t ht => ?_
    split
    · refine bind reread fun t ht => pure fun t' h => ?_
      rcases List.mem_append.1 h with h | h
      · exact hn t' h
      · cases List.mem_singleton.1 h; exact ht
    · exact pure hn
  · split
    · rename_i hl
      refine bind matchesOp fun b _ => ?_
      split
      · refine bind expect fun t ht => ?_
        have hlast : Placed S (news.getLast?.map (·.location)) := by
          cases hg : news.getLast? with
          | none => rw [List.getLast?_eq_none_iff.1 hg] at hl; cases hl
          | some t => exact (hn t (List.mem_of_getLast? hg)).placed
        have hnt : PlacedExpr S (.eNewTarget
          (spanLoc (news.getLast?.map (·.location)) (some t.location))) :=
          Placed.span hlast ht.placed
        dsimp only
        split
        · exact b_moreNewExpression (fun t h => hn t ((List.dropLast_sublist _).subset h)) hnt hr
        · exact b_moreSuffixes hnt hr
      · exact b_newExpression hn hr
    · exact b_callExpression hr

/-- The location of a prefix operator is in the source. -/
def PrefixOf (S : Str) : Prefix → Prop
  | .unop op => Placed S op.location
  | .inc l => Placed S (some l)
  | .dec l => Placed S (some l)

theorem b_matchUnop : Blame S st mo (fun o => ∀ op, o = some op → Placed S op.location)
    P.matchUnop := by
  unfold P.matchUnop
  refine bind read fun t ht => ?_
  split
  · exact pure fun op h => by cases h; exact ht.placed
  · exact bind (unread ht) fun _ _ => pure fun op h => by cases h

theorem b_matchPrefix : Blame S st mo (fun o => ∀ op, o = some op → PrefixOf S op)
    P.matchPrefix := by
  unfold P.matchPrefix
  refine bind read fun t ht => ?_
  split
  · exact pure fun op h => by cases h; exact ht.placed
  · exact pure fun op h => by cases h; exact ht.placed
  · refine bind (unread ht) fun _ _ => bind b_matchUnop fun o ho => pure fun op h => ?_
    cases o with
    | none => cases h
    | some o => cases h; exact ho o rfl

theorem b_matchPostfixOperatorOpt :
    Blame S st mo (fun o => ∀ p, o = some p → match p with
      | Postfix.inc l => Placed S (some l)
      | Postfix.dec l => Placed S (some l)) P.matchPostfixOperatorOpt := by
  unfold P.matchPostfixOperatorOpt
  refine bind readOp fun t ht => ?_
  split
  · split
    · exact pure fun op h => by cases h; exact ht.placed
    · exact pure fun op h => by cases h; exact ht.placed
    · exact bind (unread ht) fun _ _ => pure fun op h => by cases h
  · exact bind (unread ht) fun _ _ => pure fun op h => by cases h

theorem b_toTarget {e : Expr} (he : PlacedExpr S e) :
    Blame S st mo (fun t => Placed S t.loc) (P.toTarget e) := by
  unfold P.toTarget
  split
  · rename_i t ht
    refine pure ?_
    cases e <;> cases ht <;> exact he
  · rename_i err h
    have : PError.Blames S st mo (.invalidLHS e.loc err) := ⟨he, e, rfl, .inl h⟩
    exact throw this

theorem b_toPatt {e : Expr} (he : PlacedExpr S e) :
    Blame S st mo (fun t => Placed S t.loc) (P.toPatt e) := by
  unfold P.toPatt
  split
  · rename_i t ht
    refine pure ?_
    have hb := (Cover.cover_ok e).back t ht
    subst hb
    cases t with
    | pSimple t => cases t <;> exact he
    | pCompound c => cases c <;> exact he
  · rename_i err h
    have : PError.Blames S st mo (.invalidLHS e.loc err) := ⟨he, e, rfl, .inr h⟩
    exact throw this

theorem b_applyPostfix {o : Option Postfix} {arg : Expr} (ho : ∀ p, o = some p → match p with
      | Postfix.inc l => Placed S (some l)
      | Postfix.dec l => Placed S (some l)) (he : PlacedExpr S arg) :
    Blame S st mo (PlacedExpr S) (P.applyPostfix o arg) := by
  unfold P.applyPostfix
  split
  · exact pure he
  · exact bind (b_toTarget he) fun _ _ => pure (ho _ rfl)
  · exact bind (b_toTarget he) fun _ _ => pure (ho _ rfl)

theorem b_applyPrefixes (ps : List Prefix) : (∀ p ∈ ps, PrefixOf S p) → ∀ arg : Expr,
    PlacedExpr S arg → Blame S st mo (PlacedExpr S) (P.applyPrefixes ps arg) := by
  induction ps with
  | nil => exact fun _ _ h => pure h
  | cons p ps ih =>
    intro hp arg ha
    have h1 := hp p (by simp)
    have ih := ih fun p h => hp p (by simp [h])
    cases p with
    | unop op => exact ih _ (Placed.span h1 ha)
    | inc l => exact bind (b_toTarget ha) fun _ _ => ih _ h1
    | dec l => exact bind (b_toTarget ha) fun _ _ => ih _ h1

theorem b_unaryExpression {r : Rec} (hr : BlameRec S st mo r) :
    Blame S st mo (PlacedExpr S) (P.unaryExpression r) := by
  unfold P.unaryExpression
  refine bind (Q := fun ps => ∀ p ∈ ps, PrefixOf S p)
    (loop (fun ps => ∀ p ∈ ps, PrefixOf S p) (by simp) fun ps hp => ?_) fun ps hp => ?_
  · unfold P.prefixStep
    refine bind b_matchPrefix fun o ho => ?_
    split
    · refine pure fun p h => ?_
      rcases List.mem_append.1 h with h | h
      · exact hp p h
      · cases List.mem_singleton.1 h; exact ho _ rfl
    · exact pure hp
  · refine bind (b_lhsExpression hr) fun e he => bind b_matchPostfixOperatorOpt fun o ho => ?_
    refine bind (b_applyPostfix ho he) fun e he => ?_
    exact b_applyPrefixes _ (fun p h => hp p (by simpa using h)) _ he

theorem b_matchInfix : Blame S st mo (fun _ => True) P.matchInfix := by
  unfold P.matchInfix; blame

theorem Frame.fill_placed {f : Frame} {e : Expr} (hf : PlacedExpr S f.left) (he : PlacedExpr S e) :
    PlacedExpr S (f.fill e) := by
  unfold Frame.fill
  split <;> exact Placed.span hf he

theorem Stack.extend_placed {fs : Stack} : ∀ {e : Expr} {op : Infix},
    (∀ f ∈ fs, PlacedExpr S f.left) → PlacedExpr S e →
    ∀ f ∈ Stack.extend fs e op, PlacedExpr S f.left := by
  induction fs with
  | nil =>
    intro e op _ he f hf
    cases List.mem_singleton.1 hf; exact he
  | cons g fs ih =>
    intro e op hfs he
    unfold Stack.extend
    split
    · exact ih (fun f h => hfs f (by simp [h])) (Frame.fill_placed (hfs g (by simp)) he)
    · intro f hf
      rcases List.mem_cons.1 hf with rfl | hf
      · exact he
      · exact hfs f hf

theorem Stack.finish_placed {fs : Stack} : ∀ {e : Expr},
    (∀ f ∈ fs, PlacedExpr S f.left) → PlacedExpr S e → PlacedExpr S (Stack.finish fs e) := by
  induction fs with
  | nil => exact fun _ h => h
  | cons g fs ih =>
    intro e hfs he
    exact ih (fun f h => hfs f (by simp [h])) (Frame.fill_placed (hfs g (by simp)) he)

theorem b_moreInfixExpressions {r : Rec} {left : Expr} (hl : PlacedExpr S left)
    (hr : BlameRec S st mo r) :
    Blame S st mo (PlacedExpr S) (P.moreInfixExpressions r left) := by
  unfold P.moreInfixExpressions
  refine bind (Q := fun x => (∀ f ∈ x.1, PlacedExpr S f.left) ∧ PlacedExpr S x.2)
    (loop (fun x => (∀ f ∈ x.1, PlacedExpr S f.left) ∧ PlacedExpr S x.2) ⟨by simp, hl⟩
      fun x hx => ?_) fun x hx => pure (Stack.finish_placed hx.1 hx.2)
  unfold P.infixStep
  refine bind b_matchInfix fun o _ => ?_
  split
  · exact bind (b_unaryExpression hr) fun e he => pure ⟨Stack.extend_placed hx.1 hx.2, he⟩
  · exact pure hx

theorem b_moreConditional {r : Rec} {left : Expr} (hl : PlacedExpr S left)
    (hr : BlameRec S st mo r) : Blame S st mo (PlacedExpr S) (P.moreConditional r left) := by
  unfold P.moreConditional
  refine bind matchesOp fun b _ => ?_
  split
  · exact bind (allowIn hr.assign) fun a ha => bind expect fun _ _ => bind hr.assign fun b hb =>
      pure (Placed.span ha hb)
  · exact pure hl

theorem b_conditionalExpression {r : Rec} (hr : BlameRec S st mo r) :
    Blame S st mo (PlacedExpr S) (P.conditionalExpression r) :=
  bind (b_unaryExpression hr) fun _ h => bind (b_moreInfixExpressions h hr) fun _ h =>
    b_moreConditional h hr

theorem b_moreAssignment {r : Rec} {left : Expr} (hl : PlacedExpr S left)
    (hr : BlameRec S st mo r) : Blame S st mo (PlacedExpr S) (P.moreAssignment r left) := by
  unfold P.moreAssignment
  refine bind readOp fun t ht => ?_
  split
  · exact bind (b_toPatt hl) fun p hp => bind hr.assign fun e he => pure (Placed.span hp he)
  · split
    · exact bind (b_toTarget hl) fun p hp => bind hr.assign fun e he => pure (Placed.span hp he)
    · exact bind (unread ht) fun _ _ => pure hl

theorem b_assignmentExpression {r : Rec} (hr : BlameRec S st mo r) :
    Blame S st mo (PlacedExpr S) (P.assignmentExpression r) :=
  bind (b_conditionalExpression hr) fun _ h => b_moreAssignment h hr

/-! ### Statements and declarations -/


theorem b_expressionStatement {r : Rec}  (hr : BlameRec S st mo r) :
    Blame S st mo (fun _ => True) (P.expressionStatement r) := by
  unfold P.expressionStatement; blame

macro_rules | `(tactic| bleaf) => `(tactic| with_reducible exact b_expressionStatement  ‹BlameRec _ _ _ _›)

theorem b_statement {r : Rec}  (hr : BlameRec S st mo r) :
    Blame S st mo (fun _ => True) (P.statement r) := by
  unfold P.statement; blame

macro_rules | `(tactic| bleaf) => `(tactic| with_reducible exact b_statement  ‹BlameRec _ _ _ _›)

theorem b_labelStep (labels : List Id) :
    Blame S st mo (fun _ => True) (P.labelStep labels) := by
  unfold P.labelStep; blame

macro_rules | `(tactic| bleaf) => `(tactic| with_reducible exact b_labelStep _)

theorem b_labelledStatement {r : Rec} (i : Id) (hr : BlameRec S st mo r) :
    Blame S st mo (fun _ => True) (P.labelledStatement r i) := by
  unfold P.labelledStatement; blame

macro_rules | `(tactic| bleaf) => `(tactic| with_reducible exact b_labelledStatement _ ‹BlameRec _ _ _ _›)

theorem b_block {r : Rec}  (hr : BlameRec S st mo r) :
    Blame S st mo (fun _ => True) (P.block r) := by
  unfold P.block; blame

macro_rules | `(tactic| bleaf) => `(tactic| with_reducible exact b_block  ‹BlameRec _ _ _ _›)

theorem b_declarator {r : Rec} (hr : BlameRec S st mo r) :
    Blame S st mo (fun _ => True) (P.declarator r) := by
  unfold P.declarator
  refine span fun s hs => ?_
  refine bindAt (peekTokenAt false hs) fun t s1 ht hs1 => ?_
  obtain ⟨ht, tl, hla⟩ := ht
  split
  · revert s1
    intro s1 hs1 _
    exact Blame.toAt (Q := fun _ => True) (by blame) (fun _ _ _ => trivial) hs1
  · rename_i hv
    exact bindAt (R := fun _ _ => False)
      (b_bindingPatternAt hs1 hla (fun n h => hv n h)) fun _ _ h _ => h.elim

macro_rules | `(tactic| bleaf) => `(tactic| with_reducible exact b_declarator ‹BlameRec _ _ _ _›)


theorem b_constDeclarator {r : Rec}  (hr : BlameRec S st mo r) :
    Blame S st mo (fun _ => True) (P.constDeclarator r) := by
  unfold P.constDeclarator; blame

macro_rules | `(tactic| bleaf) => `(tactic| with_reducible exact b_constDeclarator  ‹BlameRec _ _ _ _›)

theorem b_varStatement {r : Rec}  (hr : BlameRec S st mo r) :
    Blame S st mo (fun _ => True) (P.varStatement r) := by
  unfold P.varStatement; blame

macro_rules | `(tactic| bleaf) => `(tactic| with_reducible exact b_varStatement  ‹BlameRec _ _ _ _›)

theorem b_letDeclaration {r : Rec} {start : Posn} (h : ∃ k ≤ S.length, PosnAt S k start)
    (hr : BlameRec S st mo r) : Blame S st mo (fun _ => True) (P.letDeclaration r start) := by
  unfold P.letDeclaration; blame


theorem b_constDeclaration {r : Rec}  (hr : BlameRec S st mo r) :
    Blame S st mo (fun _ => True) (P.constDeclaration r) := by
  unfold P.constDeclaration; blame

macro_rules | `(tactic| bleaf) => `(tactic| with_reducible exact b_constDeclaration  ‹BlameRec _ _ _ _›)

theorem b_emptyStatement  :
    Blame S st mo (fun _ => True) (P.emptyStatement) := by
  unfold P.emptyStatement; blame

macro_rules | `(tactic| bleaf) => `(tactic| with_reducible exact b_emptyStatement)

theorem b_ifStatement {r : Rec}  (hr : BlameRec S st mo r) :
    Blame S st mo (fun _ => True) (P.ifStatement r) := by
  unfold P.ifStatement; blame

macro_rules | `(tactic| bleaf) => `(tactic| with_reducible exact b_ifStatement  ‹BlameRec _ _ _ _›)

theorem b_iterationBody {r : Rec}  (hr : BlameRec S st mo r) :
    Blame S st mo (fun _ => True) (P.iterationBody r) := by
  unfold P.iterationBody; blame

macro_rules | `(tactic| bleaf) => `(tactic| with_reducible exact b_iterationBody  ‹BlameRec _ _ _ _›)

theorem b_doStatement {r : Rec}  (hr : BlameRec S st mo r) :
    Blame S st mo (fun _ => True) (P.doStatement r) := by
  unfold P.doStatement; blame

macro_rules | `(tactic| bleaf) => `(tactic| with_reducible exact b_doStatement  ‹BlameRec _ _ _ _›)

theorem b_whileStatement {r : Rec}  (hr : BlameRec S st mo r) :
    Blame S st mo (fun _ => True) (P.whileStatement r) := by
  unfold P.whileStatement; blame

macro_rules | `(tactic| bleaf) => `(tactic| with_reducible exact b_whileStatement  ‹BlameRec _ _ _ _›)

theorem b_expressionOptSemi {r : Rec}  (hr : BlameRec S st mo r) :
    Blame S st mo (fun _ => True) (P.expressionOptSemi r) := by
  unfold P.expressionOptSemi; blame

macro_rules | `(tactic| bleaf) => `(tactic| with_reducible exact b_expressionOptSemi  ‹BlameRec _ _ _ _›)

theorem b_forUpdate {r : Rec}  (hr : BlameRec S st mo r) :
    Blame S st mo (fun _ => True) (P.forUpdate r) := by
  unfold P.forUpdate; blame

macro_rules | `(tactic| bleaf) => `(tactic| with_reducible exact b_forUpdate  ‹BlameRec _ _ _ _›)

theorem b_moreFor {r : Rec} (head : Ast (.opt .forHead)) (hr : BlameRec S st mo r) :
    Blame S st mo (fun _ => True) (P.moreFor r head) := by
  unfold P.moreFor; blame

macro_rules | `(tactic| bleaf) => `(tactic| with_reducible exact b_moreFor _ ‹BlameRec _ _ _ _›)

theorem b_moreForIn {r : Rec} (head : Ast .forInHead) (hr : BlameRec S st mo r) :
    Blame S st mo (fun _ => True) (P.moreForIn r head) := by
  unfold P.moreForIn; blame

macro_rules | `(tactic| bleaf) => `(tactic| with_reducible exact b_moreForIn _ ‹BlameRec _ _ _ _›)

theorem b_moreForOf {r : Rec} (head : Ast .forOfHead) (hr : BlameRec S st mo r) :
    Blame S st mo (fun _ => True) (P.moreForOf r head) := by
  unfold P.moreForOf; blame

macro_rules | `(tactic| bleaf) => `(tactic| with_reducible exact b_moreForOf _ ‹BlameRec _ _ _ _›)

theorem b_moreForHead {r : Rec} (start : Loc) (dtor : Ast .dtor) (op : Loc → Ast (.list .dtor) → Ast .forHead) (hr : BlameRec S st mo r) :
    Blame S st mo (fun _ => True) (P.moreForHead r start dtor op) := by
  unfold P.moreForHead; blame

macro_rules | `(tactic| bleaf) => `(tactic| with_reducible exact b_moreForHead _ _ _ ‹BlameRec _ _ _ _›)

theorem b_forVar {r : Rec}  (hr : BlameRec S st mo r) :
    Blame S st mo (fun _ => True) (P.forVar r) := by
  unfold P.forVar; blame

macro_rules | `(tactic| bleaf) => `(tactic| with_reducible exact b_forVar  ‹BlameRec _ _ _ _›)

theorem b_forExpr {r : Rec} (hr : BlameRec S st mo r) :
    Blame S st mo (fun _ => True) (P.forExpr r) := by
  unfold P.forExpr
  refine bind (allowIn (b_expression hr)) fun e he => bind peek fun t ht => ?_
  split
  · blame
  · exact bind reread fun _ _ => bind (b_toPatt he) fun _ _ => b_moreForIn _ hr
  · exact bind reread fun _ _ => bind (b_toPatt he) fun _ _ => b_moreForOf _ hr
  · exact unexpected

macro_rules | `(tactic| bleaf) => `(tactic| with_reducible exact b_forExpr ‹BlameRec _ _ _ _›)


theorem b_forLet {r : Rec}  (hr : BlameRec S st mo r) :
    Blame S st mo (fun _ => True) (P.forLet r) := by
  unfold P.forLet; blame

macro_rules | `(tactic| bleaf) => `(tactic| with_reducible exact b_forLet  ‹BlameRec _ _ _ _›)

theorem b_forConst {r : Rec}  (hr : BlameRec S st mo r) :
    Blame S st mo (fun _ => True) (P.forConst r) := by
  unfold P.forConst; blame

macro_rules | `(tactic| bleaf) => `(tactic| with_reducible exact b_forConst  ‹BlameRec _ _ _ _›)

theorem b_forStatement {r : Rec}  (hr : BlameRec S st mo r) :
    Blame S st mo (fun _ => True) (P.forStatement r) := by
  unfold P.forStatement; blame

macro_rules | `(tactic| bleaf) => `(tactic| with_reducible exact b_forStatement  ‹BlameRec _ _ _ _›)

theorem b_caseClause {r : Rec}  (hr : BlameRec S st mo r) :
    Blame S st mo (fun _ => True) (P.caseClause r) := by
  unfold P.caseClause; blame

macro_rules | `(tactic| bleaf) => `(tactic| with_reducible exact b_caseClause  ‹BlameRec _ _ _ _›)

theorem b_defaultClause {r : Rec}  (hr : BlameRec S st mo r) :
    Blame S st mo (fun _ => True) (P.defaultClause r) := by
  unfold P.defaultClause; blame

macro_rules | `(tactic| bleaf) => `(tactic| with_reducible exact b_defaultClause  ‹BlameRec _ _ _ _›)

theorem b_switchStep {r : Rec} (x : List (Ast .case) × Bool) (hr : BlameRec S st mo r) :
    Blame S st mo (fun _ => True) (P.switchStep r x) := by
  unfold P.switchStep
  refine bind peek fun t ht => ?_
  split
  · blame
  · split
    · exact bind rereadReserved fun t ht => throw ht
    · blame
  · blame

macro_rules | `(tactic| bleaf) => `(tactic| with_reducible exact b_switchStep _ ‹BlameRec _ _ _ _›)


theorem b_switchCases {r : Rec}  (hr : BlameRec S st mo r) :
    Blame S st mo (fun _ => True) (P.switchCases r) := by
  unfold P.switchCases; blame

macro_rules | `(tactic| bleaf) => `(tactic| with_reducible exact b_switchCases  ‹BlameRec _ _ _ _›)

theorem b_switchStatement {r : Rec}  (hr : BlameRec S st mo r) :
    Blame S st mo (fun _ => True) (P.switchStatement r) := by
  unfold P.switchStatement; blame

macro_rules | `(tactic| bleaf) => `(tactic| with_reducible exact b_switchStatement  ‹BlameRec _ _ _ _›)

theorem b_breakArg {t : Token} (ht : TokenOf S t ∧ t.value = .reserved .break) :
    Blame S st mo (fun _ => True) (P.breakArg t) := by
  unfold P.breakArg
  refine bind hasArgSameLine fun b _ => ?_
  split
  · refine bind (b_id false) fun i hi => get fun s _ => ?_
    split
    · exact throw (show PError.Blames _ _ _ (.invalidLabel i) from hi)
    · exact pure trivial
  · refine get fun s _ => ?_
    split
    · exact throw ht
    · exact pure trivial

theorem b_breakStatement : Blame S st mo (fun _ => True) P.breakStatement :=
  bind posn fun _ h => bind rereadReserved fun _ ht => bind (b_breakArg ht) fun _ _ =>
    endWithAutoSemi h

theorem b_continueArg {t : Token} (ht : TokenOf S t ∧ t.value = .reserved .continue) :
    Blame S st mo (fun _ => True) (P.continueArg t) := by
  unfold P.continueArg
  refine bind hasArgSameLine fun b _ => ?_
  split
  · refine bind (b_id false) fun i hi => get fun s _ => ?_
    split
    · exact throw (show PError.Blames _ _ _ (.invalidLabel i) from hi)
    · exact throw (show PError.Blames _ _ _ (.invalidLabelType i) from hi)
    · exact pure trivial
  · refine get fun s _ => ?_
    split
    · exact throw ht
    · exact pure trivial

theorem b_continueStatement : Blame S st mo (fun _ => True) P.continueStatement :=
  bind posn fun _ h => bind rereadReserved fun _ ht => bind (b_continueArg ht) fun _ _ =>
    endWithAutoSemi h


theorem b_returnArg {r : Rec}  (hr : BlameRec S st mo r) :
    Blame S st mo (fun _ => True) (P.returnArg r) := by
  unfold P.returnArg; blame

macro_rules | `(tactic| bleaf) => `(tactic| with_reducible exact b_returnArg  ‹BlameRec _ _ _ _›)

theorem b_returnStatement {r : Rec} (hr : BlameRec S st mo r) :
    Blame S st mo (fun _ => True) (P.returnStatement r) := by
  unfold P.returnStatement
  refine bind posn fun _ h => bind rereadReserved fun t ht => bind (b_returnArg hr) fun _ _ => ?_
  refine bind (Q := fun x : Stmt => Placed S x.loc)
    (endWithAutoSemi' h fun l s hl => hl) fun x hx => get fun s _ => ?_
  split
  · split
    · rename_i l hl
      rw [hl] at hx
      exact throw (show PError.Blames _ _ _ (.topLevelReturn l) from ⟨hx, t, ht⟩)
    · exact panic
  · exact pure trivial

theorem b_withStatement {r : Rec} (hr : BlameRec S st mo r) :
    Blame S st mo (fun _ => True) (P.withStatement r) := by
  unfold P.withStatement
  refine span (bind rereadReserved fun t ht => bind (strictCheck fun hst c' hc' m e he => ?_)
    fun _ _ => ?_)
  · cases hc'; cases he
    exact ⟨hst, ht⟩
  · blame

theorem b_throwStatement {r : Rec} (hr : BlameRec S st mo r) :
    Blame S st mo (fun _ => True) (P.throwStatement r) := by
  unfold P.throwStatement
  refine bind posn fun _ h => bind rereadReserved fun t ht => bind hasArgSameLine fun _ _ => ?_
  split
  · exact throw ht
  · blame

macro_rules | `(tactic| bleaf) => `(tactic| with_reducible first
  | exact b_breakStatement | exact b_continueStatement | exact b_returnStatement ‹BlameRec _ _ _ _›
  | exact b_withStatement ‹BlameRec _ _ _ _› | exact b_throwStatement ‹BlameRec _ _ _ _›)


theorem b_catchOpt {r : Rec}  (hr : BlameRec S st mo r) :
    Blame S st mo (fun _ => True) (P.catchOpt r) := by
  unfold P.catchOpt; blame

macro_rules | `(tactic| bleaf) => `(tactic| with_reducible exact b_catchOpt  ‹BlameRec _ _ _ _›)

theorem b_finallyOpt {r : Rec}  (hr : BlameRec S st mo r) :
    Blame S st mo (fun _ => True) (P.finallyOpt r) := by
  unfold P.finallyOpt; blame

macro_rules | `(tactic| bleaf) => `(tactic| with_reducible exact b_finallyOpt  ‹BlameRec _ _ _ _›)

theorem b_tryTail {r : Rec} (body : Ast .block) (hr : BlameRec S st mo r) :
    Blame S st mo (fun _ => True) (P.tryTail r body) := by
  unfold P.tryTail; blame

macro_rules | `(tactic| bleaf) => `(tactic| with_reducible exact b_tryTail _ ‹BlameRec _ _ _ _›)

theorem b_tryStatement {r : Rec} (hr : BlameRec S st mo r) :
    Blame S st mo (fun _ => True) (P.tryStatement r) := by
  unfold P.tryStatement
  refine span (bind reread fun _ _ => bind (b_block hr) fun b _ => fun s hs => ?_)
  refine bindAt (peekTokenAt false hs) fun t s1 ht hs1 => ?_
  obtain ⟨ht, tl, hla⟩ := ht
  split
  · exact b_tryTail _ hr s1 hs1
  · exact b_tryTail _ hr s1 hs1
  · rename_i h1 h2
    refine bindAt (readAt hs1 hla) fun t' s2 ht' hs2 => ?_
    subst ht'
    have : PError.Blames S st mo (.orphanTry t') := ⟨ht, by
      simp only [List.mem_cons, List.not_mem_nil, or_false, not_or]
      exact ⟨h1, h2⟩⟩
    exact this

macro_rules | `(tactic| bleaf) => `(tactic| with_reducible exact b_tryStatement ‹BlameRec _ _ _ _›)


theorem b_debuggerStatement  :
    Blame S st mo (fun _ => True) (P.debuggerStatement) := by
  unfold P.debuggerStatement; blame

macro_rules | `(tactic| bleaf) => `(tactic| with_reducible exact b_debuggerStatement)

theorem b_identifierItem {r : Rec} (allowDecl : Bool) (hr : BlameRec S st mo r) :
    Blame S st mo (fun _ => True) (P.identifierItem r allowDecl) := by
  unfold P.identifierItem
  refine bind rereadToken fun t ht => bind peekOp fun t2 ht2 => ?_
  have hstart : ∃ k ≤ S.length, PosnAt S k t.location.start := by
    obtain ⟨sp, h1, h2, -⟩ := ht.placed
    cases h1
    exact h2
  have hlet := b_letDeclaration (S := S) (st := st) (mo := mo) hstart hr
  blame

macro_rules | `(tactic| bleaf) => `(tactic| with_reducible exact b_identifierItem _ ‹BlameRec _ _ _ _›)

theorem b_asItem {p : P Stmt} (h : Blame S st mo (fun _ => True) p) :
    Blame S st mo (fun _ => True) (P.asItem p) := by
  unfold P.asItem; blame

macro_rules | `(tactic| bcomb) => `(tactic| with_reducible refine b_asItem ?_)


theorem b_stmtListItem {r : Rec} (allowDecl : Bool) (hr : BlameRec S st mo r) :
    Blame S st mo (fun _ => True) (P.stmtListItem r allowDecl) := by
  unfold P.stmtListItem; blame

macro_rules | `(tactic| bleaf) => `(tactic| with_reducible exact b_stmtListItem _ ‹BlameRec _ _ _ _›)

theorem blameRec (n : Nat) : BlameRec S st mo (P.recOf n) := by
  induction n with
  | zero => exact ⟨fuel, fun _ => fuel⟩
  | succ n ih => exact ⟨b_assignmentExpression ih, fun b => b_stmtListItem b ih⟩


/-! ### Entry points -/

theorem b_moreModuleItems {r : Rec} (hr : BlameRec S st mo r) (items : List (Ast .modItem)) :
    Blame S st mo (fun _ => True) (P.moreModuleItems r items) := by
  unfold P.moreModuleItems
  refine loop' fun items => ?_
  unfold P.moduleItemsStep
  blame
  · exact panicAt ‹TokenOf _ _› (.inl ‹_›)
  · exact panicAt ‹TokenOf _ _› (.inr ‹_›)

theorem b_force : Blame S st true (fun _ => True) P.forceDeferredModuleValidation := by
  unfold P.forceDeferredModuleValidation
  refine get fun s _ => ?_
  split
  · exact pure trivial
  · intro s hs
    refine bindAt (R := fun c _ => c = s.deferred) (p := P.takeDeferred)
      (show BlameAt S st true (fun c _ => c = s.deferred) P.takeDeferred s from
        ⟨rfl, hs.lexer, hs.la, hs.strict, hs.goal, fun _ h => absurd h (by simp)⟩)
      fun c s1 hc hs1 => ?_
    subst hc
    split
    · rename_i e he
      obtain ⟨c, hc, h⟩ := List.exists_of_findSome?_eq_some he
      exact hs.checks c hc _ e h
    · exact ⟨trivial, hs1⟩

theorem force_eq (s : PState) : P.forceDeferredModuleValidation s =
    if s.validate = false then .ok ((), s)
    else match P.firstFailing true s.deferred with
      | some e => .err e
      | none => .ok ((), { s with deferred := [] }) := by
  unfold P.forceDeferredModuleValidation
  show P.bind _ _ _ = _
  unfold P.bind P.get
  by_cases hv : s.validate = false
  · simp only [hv, Bool.not_false, if_true]; rfl
  · rw [if_neg hv]
    simp only [if_neg (show ¬(!s.validate) = true by simpa using hv)]
    show P.bind _ _ _ = _
    unfold P.bind P.takeDeferred
    simp only
    cases P.firstFailing true s.deferred <;> rfl

theorem module_panic {r : Rec} {items : List (Ast .modItem)} {s : PState} {t : Token}
    {tl : List Token} (hla : s.la = t :: tl)
    (ht : t.value = .reserved .import ∨ t.value = .reserved .export) :
    P.moreModuleItems r items s = .panic .unimplemented := by
  have hpeek : P.peek s = .ok (t, s) := by
    have hla : s.lexer.lookahead = t :: tl := hla
    unfold P.peek P.lex Lexer.peekToken
    simp only [hla]
  have hstep : P.moduleItemsStep r items s = .panic .unimplemented := by
    unfold P.moduleItemsStep
    show P.bind _ _ _ = _
    unfold P.bind
    rw [hpeek]
    rcases ht with ht | ht <;> simp only [ht] <;> rfl
  unfold P.moreModuleItems P.loop P.loopN
  simp only [hstep]

theorem b_programModule {r : Rec} {s : PState} (hs : BInv S st true s) {t : Token}
    {tl : List Token} (hla : s.la = t :: tl)
    (ht : t.value = .reserved .import ∨ t.value = .reserved .export)
    {items : List (Ast .modItem)} {β : Type} {f : List (Ast .modItem) → P β}
    {R : β → PState → Prop} :
    BlameAt S st true R (do
      P.forceDeferredModuleValidation
      let items ← P.moreModuleItems r items
      f items) s := by
  have hf := b_force s hs
  have hla' : ∀ u s', P.forceDeferredModuleValidation s = .ok (u, s') → s'.la = t :: tl := by
    intro u s' h
    rw [force_eq] at h
    split at h
    · cases h; exact hla
    · split at h
      · cases h
      · cases h; exact hla
  refine bindAt (R := fun _ s' => s'.la = t :: tl) ?_ fun u s1 h hs1 =>
    bindAt (R := fun _ _ => False) (by
      unfold BlameAt
      rw [module_panic h ht]
      exact .inr (.inl ⟨rfl, t, hs1.la t (by rw [h]; simp), ht⟩))
      fun _ _ h => h.elim
  unfold BlameAt at hf ⊢
  cases h1 : P.forceDeferredModuleValidation s with
  | ok v => rw [h1] at hf; exact ⟨hla' v.1 v.2 h1, hf.2⟩
  | err e => rw [h1] at hf; exact hf
  | panic p => rw [h1] at hf; exact hf
  | fuel => trivial

theorem b_programItems {r : Rec} (hr : BlameRec S st true r) :
    Blame S st true (fun x => ∃ items, x = .script items) (P.programItems r) := by
  unfold P.programItems
  refine loop (fun _ => True) trivial fun items _ => ?_
  unfold P.programItemsStep
  intro s hs
  refine bindAt (peekTokenAt false hs) fun t s1 ht hs1 => ?_
  obtain ⟨ht, tl, hla⟩ := ht
  split
  · exact ⟨⟨_, rfl⟩, hs1⟩
  · rename_i hv
    exact b_programModule hs1 hla (.inl hv)
  · rename_i hv
    exact b_programModule hs1 hla (.inr hv)
  · exact bind (hr.item true) (fun _ _ => pure trivial) s1 hs1

theorem b_assertGoalUnknown : Blame S st mo (fun _ => True) P.assertGoalUnknown := by
  unfold P.assertGoalUnknown; blame

/-- The state in which a parse starts. -/
theorem BInv.start (S : Str) : BInv S true true (.fromChars S) :=
  ⟨⟨[], [], rfl⟩, fun t h => (by cases h), nofun, nofun, fun c h => (by cases h)⟩

theorem blame_script (S : Str) (b : Bool) (n : Nat) :
    BlameAt S b false (fun _ _ => True) (P.parseScript (P.recOf n) b) (.fromChars S) := by
  have h0 : BInv S b false { PState.fromChars S with
      goal := .script, ctx := { (PState.fromChars S).ctx with strict := .ofBool b } } :=
    ⟨⟨[], [], rfl⟩, fun t h => (by cases h), fun h => (by subst h; rfl), fun _ => rfl,
      fun c h => (by cases h)⟩
  exact toAt (b_scriptBody (blameRec n)) (fun _ _ _ => trivial) h0

theorem blame_module (S : Str) (n : Nat) :
    BlameAt S true true (fun _ _ => True) (P.parseModule (P.recOf n)) (.fromChars S) := by
  have h0 : BInv S true true { PState.fromChars S with
      goal := .module, ctx := { (PState.fromChars S).ctx with strict := .yes } } :=
    ⟨⟨[], [], rfl⟩, fun t h => (by cases h), nofun, nofun, fun c h => (by cases h)⟩
  have h1 : Blame S true true (fun _ => True) (P.span do
      let dirs ← P.bodyDirectives
      let items ← P.moreModuleItems (P.recOf n) []
      Pure.pure (Ast.body none dirs (.ofList items)) : P Module) :=
    span (bind b_bodyDirectives fun _ _ => bind (b_moreModuleItems (blameRec n) _) fun _ _ =>
      pure trivial)
  exact h1 _ h0

/-- What a program that has been parsed will report. -/
def ChecksBlame (S : Str) (p : Program) : Prop :=
  ∃ c l, p = Program.ambiguous c l ∧ ∀ c' ∈ c, ∀ m e, c'.perform m = some e → e.Blames S true m

theorem blame_program (S : Str) (n : Nat) :
    BlameAt S true true (fun p _ => ChecksBlame S p) (P.parseProgram (P.recOf n)) (.fromChars S) := by
  unfold P.parseProgram
  refine (bind (Q' := ChecksBlame S) b_assertGoalUnknown fun _ _ => ?_) _ (BInv.start S)
  refine spanQ (Q := ChecksBlame S) ?_ ?_
  · refine bind b_bodyDirectives fun _ _ => bind (b_programItems (blameRec n)) fun x hx => ?_
    obtain ⟨items, rfl⟩ := hx
    intro s hs
    refine bindAt (R := fun c _ => c = s.deferred) (p := P.takeDeferred)
      (show BlameAt S true true (fun c _ => c = s.deferred) P.takeDeferred s from
        ⟨rfl, hs.lexer, hs.la, hs.strict, hs.goal, fun _ h => absurd h (by simp)⟩)
      fun c s1 hc hs1 => ⟨⟨_, _, rfl, ?_⟩, hs1⟩
    subst hc
    exact hs.checks
  · rintro p l ⟨c, x, rfl, h⟩ _
    exact ⟨c, _, rfl, h⟩


end Esprit
