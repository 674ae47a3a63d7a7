import Verif.Proofs.Parser.LayoutVals

/-! The parser functions see only what the lexer returns. -/

set_option linter.unusedSectionVars false

namespace Esprit

open J JP

variable [Env] [Prompt] {α : Type} [Blur α] {pre : List Token}

theorem lay_newIdP (binding : Bool) (name : Name) {l l' : Span} {Post : Id → List Token → Prop}
    (hl : ∃ t ∈ lastTwo pre, t.location = l) (hp : Post ⟨some l, name⟩ pre) :
    JP pre Post (P.newId binding name l) (P.newId binding name l) (P.newId binding name l') := by
  unfold P.newId
  refine bindKeep ?_ fun _ _ _ => pureP rfl hp (List.suffix_refl _)
  unfold P.newIdCheck
  split
  · split
    · exact strictCheckP rfl fun k hk => by cases hk; exact hl
    · exact strictCheck_panic
  · split
    · split
      · refine strictCheckP ?_ fun k hk => ?_
        · split <;> rfl
        · split at hk <;> cases hk <;> exact hl
      · exact strictCheck_panic
    · exact strictCheckP rfl fun k hk => by cases hk

theorem lay_newId (binding : Bool) (name : Name) {l l' : Span}
    (hl : ∃ t ∈ lastTwo pre, t.location = l) :
    JP pre Nil (P.newId binding name l) (P.newId binding name l) (P.newId binding name l') :=
  forget (lay_newIdP (Post := fun _ g => g = pre) binding name hl rfl)

macro_rules | `(tactic| layleaf) => `(tactic|
  ((with_reducible refine lay_newId _ _ ?_); focus (simp [lastTwo]; done)))

theorem lay_newIdFromToken (binding : Bool) {token token' : Token} (htoken : Rel token token')
    (ht : token ∈ lastTwo pre) :
    JP pre Nil (P.newIdFromToken binding token) (P.newIdFromToken binding token)
      (P.newIdFromToken binding token') := by
  obtain ⟨ltoken, ltoken', nltoken, vtoken, rfl, rfl⟩ := htoken.tok
  unfold P.newIdFromToken
  dsimp only
  split
  · exact lay_newId _ _ ⟨_, ht, rfl⟩
  · exact panic

macro_rules | `(tactic| layleaf) => `(tactic|
  ((with_reducible refine lay_newIdFromToken _ ?_ ?_); (focus rel); (focus (simp [lastTwo]; done))))

/-- The location of an identifier is that of the token read last. -/
def IdPost (i : Id) (g : List Token) : Prop :=
  ∀ l, i.location = some l → ∃ t ∈ lastTwo g, t.location = l

theorem idPost_ex (i : Id) : ∃ g, IdPost i g := by
  cases h : i.location with
  | none => exact ⟨[], fun l hl => by rw [h] at hl; cases hl⟩
  | some l => exact ⟨[⟨l, false, .eof⟩], fun l' hl => by
      rw [h] at hl; cases hl; exact ⟨_, List.mem_singleton.2 rfl, rfl⟩⟩

theorem lay_idP (binding : Bool) : JP [] IdPost (P.id binding) (P.id binding) (P.id binding) := by
  unfold P.id
  refine bindRead readT fun l l' nl v => ?_
  dsimp only
  split
  · exact lay_newIdP _ _ ⟨_, List.mem_singleton.2 rfl, rfl⟩ fun l' hl =>
      ⟨_, List.mem_singleton.2 rfl, by cases hl; rfl⟩
  · exact throw rfl (by points)

theorem lay_id (binding : Bool) :
    J (P.id binding) (P.id binding) (P.id binding) := forget (lay_idP binding)

macro_rules | `(tactic| layleaf) => `(tactic| with_reducible exact lay_id _)

theorem lay_idOpt (binding : Bool) :
    J (P.idOpt binding) (P.idOpt binding) (P.idOpt binding) := by
  unfold P.idOpt; lay

macro_rules | `(tactic| layleaf) => `(tactic| with_reducible exact lay_idOpt _)

theorem lay_bindingPattern  :
    J P.bindingPattern P.bindingPattern P.bindingPattern := by
  unfold P.bindingPattern; lay

macro_rules | `(tactic| layleaf) => `(tactic| with_reducible exact lay_bindingPattern )

theorem lay_pattern  :
    J P.pattern P.pattern P.pattern := by
  unfold P.pattern; lay

macro_rules | `(tactic| layleaf) => `(tactic| with_reducible exact lay_pattern )

theorem lay_paramsStep {list list' : List PattId} (hlist : Rel list list') :
    J (P.paramsStep list) (P.paramsStep list) (P.paramsStep list') := by
  unfold P.paramsStep; lay

macro_rules | `(tactic| layleaf) => `(tactic| ((with_reducible refine lay_paramsStep ?_) <;> rel))

theorem lay_formalParameters  :
    J P.formalParameters P.formalParameters P.formalParameters := by
  unfold P.formalParameters; lay

macro_rules | `(tactic| layleaf) => `(tactic| with_reducible exact lay_formalParameters )

theorem lay_matchDirectiveOpt  :
    J P.matchDirectiveOpt P.matchDirectiveOpt P.matchDirectiveOpt := by
  unfold P.matchDirectiveOpt; lay

macro_rules | `(tactic| layleaf) => `(tactic| with_reducible exact lay_matchDirectiveOpt )

theorem lay_setModule  :
    J P.setModule P.setModule P.setModule := by
  unfold P.setModule; lay

macro_rules | `(tactic| layleaf) => `(tactic| with_reducible exact lay_setModule )

theorem lay_directivesStep {dirs dirs' : List Dir} (hdirs : Rel dirs dirs') :
    J (P.directivesStep dirs) (P.directivesStep dirs) (P.directivesStep dirs') := by
  unfold P.directivesStep
  refine bindOpt lay_matchDirectiveOpt (pure hdirs.inr) fun d d' hd => ?_
  refine get fun s s' hs => ?_
  dsimp only
  simp only [← hs.ctx, ← hd.pragma]
  lay

macro_rules | `(tactic| layleaf) => `(tactic| ((with_reducible refine lay_directivesStep ?_) <;> rel))

theorem lay_bodyDirectives  :
    J P.bodyDirectives P.bodyDirectives P.bodyDirectives := by
  unfold P.bodyDirectives; lay

macro_rules | `(tactic| layleaf) => `(tactic| with_reducible exact lay_bodyDirectives )

theorem lay_statementListStep {r r' : Rec} {items items' : List StmtListItem} (hitems : Rel items items') (hr : RecJ r r') :
    J (P.statementListStep r items) (P.statementListStep r' items) (P.statementListStep r' items') := by
  unfold P.statementListStep; lay

macro_rules | `(tactic| layleaf) => `(tactic| ((with_reducible refine lay_statementListStep ?_ ‹RecJ _ _›) <;> rel))

theorem lay_statementList {r r' : Rec}  (hr : RecJ r r') :
    J (P.statementList r) (P.statementList r') (P.statementList r') := by
  unfold P.statementList; lay

macro_rules | `(tactic| layleaf) => `(tactic| with_reducible exact lay_statementList ‹RecJ _ _›)

theorem lay_scriptBody {r r' : Rec}  (hr : RecJ r r') :
    J (P.scriptBody r) (P.scriptBody r') (P.scriptBody r') := by
  unfold P.scriptBody; lay

macro_rules | `(tactic| layleaf) => `(tactic| with_reducible exact lay_scriptBody ‹RecJ _ _›)

theorem functionBodyCheck_points {ps : List PattId} {ds : List Dir} {k : Check} {ts : List Token}
    (h : P.functionBodyCheck ps ds = some k) : k.Points ts := by
  unfold P.functionBodyCheck at h
  split at h
  · obtain ⟨p, _, hp⟩ := List.exists_of_findSome?_eq_some h
    split at hp <;> cases hp
    trivial
  · cases h

theorem lay_functionBody {r r' : Rec} {params params' : List PattId} (hparams : Rel params params')
    (hr : RecJ r r') :
    J (P.functionBody r params) (P.functionBody r' params) (P.functionBody r' params') := by
  unfold P.functionBody
  refine get fun s s' hs => ?_
  simp only [← hs.ctx]
  refine bindUnit (by lay) (bindTok (by lay) fun _ _ _ _ => bind (by lay) fun _ _ hb => ?_)
  refine bindKeep (strictCheckP (Rel.functionBodyCheck hparams hb.dirsOf) fun k hk => ?_) fun _ _ _ => ?_
  · exact functionBodyCheck_points hk
  lay

macro_rules | `(tactic| layleaf) => `(tactic| first
  | ((with_reducible refine lay_functionBody ?_ ‹RecJ _ _›); focus rel)
  | ((with_reducible refine lay_functionBody (Rel.paramList ?_) ‹RecJ _ _›); focus rel))

theorem lay_function {r r' : Rec} {c : Cat} {g1 g2 g3 : P (Ast c)} (h : J g1 g2 g3)
    (hr : RecJ r r') : J (P.function r g1) (P.function r' g2) (P.function r' g3) := by
  unfold P.function; lay

macro_rules | `(tactic| laycomb) => `(tactic| with_reducible refine lay_function ?_ ‹RecJ _ _›)

theorem lay_functionDeclaration {r r' : Rec}  (hr : RecJ r r') :
    J (P.functionDeclaration r) (P.functionDeclaration r') (P.functionDeclaration r') := by
  unfold P.functionDeclaration; lay

macro_rules | `(tactic| layleaf) => `(tactic| with_reducible exact lay_functionDeclaration ‹RecJ _ _›)

theorem lay_moreCommaStep {f1 f2 f3 : P α} (h : J f1 f2 f3) {xs xs' : List α} (hx : Rel xs xs') :
    J (P.moreCommaStep f1 xs) (P.moreCommaStep f2 xs) (P.moreCommaStep f3 xs') := by
  unfold P.moreCommaStep
  refine bindBool «matches» fun b => ?_
  split
  · exact bind h fun _ _ ha => pure (congrArg Sum.inl (hx.snoc ha))
  · exact pure (congrArg Sum.inr hx)

theorem lay_moreComma {f1 f2 f3 : P α} {a a' : α} (ha : Rel a a') (h : J f1 f2 f3) :
    J (P.moreComma a f1) (P.moreComma a f2) (P.moreComma a' f3) :=
  loop (ha.cons rfl) fun _ _ hx => lay_moreCommaStep h hx

macro_rules | `(tactic| laycomb) => `(tactic|
  ((with_reducible refine lay_moreComma ?_ ?_); focus rel))

theorem lay_commaSeparated {f1 f2 f3 : P α} (h : J f1 f2 f3) :
    J (P.commaSeparated f1) (P.commaSeparated f2) (P.commaSeparated f3) := by
  unfold P.commaSeparated
  exact bind h fun _ _ ha => lay_moreComma ha h

macro_rules | `(tactic| laycomb) => `(tactic| with_reducible refine lay_commaSeparated ?_)

theorem lay_moreExpressions {r r' : Rec} {first first' : Expr} (hfirst : Rel first first') (hr : RecJ r r') :
    J (P.moreExpressions r first) (P.moreExpressions r' first) (P.moreExpressions r' first') := by
  unfold P.moreExpressions; lay

macro_rules | `(tactic| layleaf) => `(tactic| ((with_reducible refine lay_moreExpressions ?_ ‹RecJ _ _›) <;> rel))

theorem lay_expression {r r' : Rec}  (hr : RecJ r r') :
    J (P.expression r) (P.expression r') (P.expression r') := by
  unfold P.expression; lay

macro_rules | `(tactic| layleaf) => `(tactic| with_reducible exact lay_expression ‹RecJ _ _›)

theorem lay_parenExpression {r r' : Rec}  (hr : RecJ r r') :
    J (P.parenExpression r) (P.parenExpression r') (P.parenExpression r') := by
  unfold P.parenExpression; lay

macro_rules | `(tactic| layleaf) => `(tactic| with_reducible exact lay_parenExpression ‹RecJ _ _›)

theorem lay_exprListItem {r r' : Rec}  (hr : RecJ r r') :
    J (P.exprListItem r) (P.exprListItem r') (P.exprListItem r') := by
  unfold P.exprListItem; lay

macro_rules | `(tactic| layleaf) => `(tactic| with_reducible exact lay_exprListItem ‹RecJ _ _›)

theorem lay_arrayElement {r r' : Rec}  (hr : RecJ r r') :
    J (P.arrayElement r) (P.arrayElement r') (P.arrayElement r') := by
  unfold P.arrayElement; lay

macro_rules | `(tactic| layleaf) => `(tactic| with_reducible exact lay_arrayElement ‹RecJ _ _›)

theorem lay_arrayStep {r r' : Rec} {elts elts' : List (Ast (.opt .item))} (helts : Rel elts elts') (hr : RecJ r r') :
    J (P.arrayStep r elts) (P.arrayStep r' elts) (P.arrayStep r' elts') := by
  unfold P.arrayStep; lay

macro_rules | `(tactic| layleaf) => `(tactic| ((with_reducible refine lay_arrayStep ?_ ‹RecJ _ _›) <;> rel))

theorem lay_arrayLiteral {r r' : Rec} {start start' : Token} (hstart : Rel start start') (hr : RecJ r r') :
    J (P.arrayLiteral r start) (P.arrayLiteral r' start) (P.arrayLiteral r' start') := by
  obtain ⟨lstart, lstart', nlstart, vstart, rfl, rfl⟩ := hstart.tok
  unfold P.arrayLiteral; lay

macro_rules | `(tactic| layleaf) => `(tactic| ((with_reducible refine lay_arrayLiteral ?_ ‹RecJ _ _›) <;> rel))

/-- The location of a property name is that of the token read last. -/
def KeyPost (k : PropKey) (g : List Token) : Prop :=
  ∀ l, k.loc = some l → ∃ t ∈ lastTwo g, t.location = l

theorem keyPost_ex (k : PropKey) : ∃ t, KeyPost k [t] := by
  cases h : k.loc with
  | none => exact ⟨⟨.zero, false, .eof⟩, fun l hl => by rw [h] at hl; cases hl⟩
  | some l => exact ⟨⟨l, false, .eof⟩, fun l' hl => by
      rw [h] at hl; cases hl; exact ⟨_, List.mem_singleton.2 rfl, rfl⟩⟩

theorem lay_morePropInit {r r' : Rec} {key key' : PropKey} (hkey : Rel key key') (hr : RecJ r r')
    (hpre : pre.length ≤ 1) (hp : KeyPost key pre) :
    JP pre Nil (P.morePropInit r key) (P.morePropInit r' key) (P.morePropInit r' key') := by
  unfold P.morePropInit
  refine bindPeek hpre fun l l' nl v => ?_
  dsimp only
  split
  · lay
  · lay
  · cases key with
    | id o n => cases key' with
      | id o' n' =>
        have h : PropKey.id (blurLoc o) n = .id (blurLoc o') n' := hkey
        injection h with h1 h2
        subst h2
        cases o <;> cases o' <;> first
          | (cases h1; done)
          | exact panic
          | exact bind (lay_newId _ _ (hp _ rfl)) fun _ _ h => by lay
      | string => cases hkey
      | number => cases hkey
    | string => cases key' with
      | id o' n' => cases hkey
      | string => lay
      | number => cases hkey
    | number => cases key' with
      | id o' n' => cases hkey
      | string => cases hkey
      | number => lay
  · cases key with
    | id o n => cases key' with
      | id o' n' =>
        have h : PropKey.id (blurLoc o) n = .id (blurLoc o') n' := hkey
        injection h with h1 h2
        subst h2
        cases o <;> cases o' <;> first
          | (cases h1; done)
          | exact panic
          | exact bind (lay_newId _ _ (hp _ rfl)) fun _ _ h => by lay
      | string => cases hkey
      | number => cases hkey
    | string => cases key' with
      | id o' n' => cases hkey
      | string => lay
      | number => cases hkey
    | number => cases key' with
      | id o' n' => cases hkey
      | string => cases hkey
      | number => lay
  · lay

/-- What is known after looking for a property name. -/
def KeyOptPost (pre : List Token) : Option PropKey → List Token → Prop
  | none, g => g = pre
  | some k, g => ∃ t, g = [t] ∧ KeyPost k [t]

theorem lay_propertyKeyOptP (hpre : pre.length ≤ 1) :
    JP pre (KeyOptPost pre) P.propertyKeyOpt P.propertyKeyOpt P.propertyKeyOpt := by
  unfold P.propertyKeyOpt
  refine bindP (readTokenP false hpre) (fun t => ⟨_, rfl⟩) fun a a' ha g hg => ?_
  subst hg
  obtain ⟨l, l', nl, v, rfl, rfl⟩ := ha.tok
  have hk : ∀ k : PropKey, k.loc = some l → KeyOptPost pre (some k) [⟨l, nl, v⟩] := fun k hk =>
    ⟨_, rfl, fun l' hl => ⟨_, List.mem_singleton.2 rfl, by rw [hk] at hl; cases hl; rfl⟩⟩
  dsimp only
  split <;> first
    | exact pureP rfl (hk _ rfl) (List.suffix_append _ _)
    | exact bindP (unreadP ha) (fun _ => ⟨_, rfl⟩) fun _ _ _ g hg => by
        subst hg; exact pureP rfl rfl (List.suffix_refl _)

theorem lay_propertyKeyOpt  :
    J P.propertyKeyOpt P.propertyKeyOpt P.propertyKeyOpt :=
  forget (lay_propertyKeyOptP (Nat.zero_le _))

macro_rules | `(tactic| layleaf) => `(tactic| with_reducible exact lay_propertyKeyOpt )

theorem lay_propertyKeyP : JP [] (fun k g => ∃ t, g = [t] ∧ KeyPost k [t]) P.propertyKey P.propertyKey
    P.propertyKey := by
  unfold P.propertyKey
  refine bindP (lay_propertyKeyOptP (Nat.zero_le _)) (fun o => ?_) fun o o' ho g hg => ?_
  · cases o with
    | none => exact ⟨_, rfl⟩
    | some k => exact ⟨_, (keyPost_ex k).choose, rfl, (keyPost_ex k).choose_spec⟩
  · rcases ho.opt_cases with ⟨rfl, rfl⟩ | ⟨y, y', rfl, rfl, hy⟩
    · exact unexpected
    · exact pureP hy hg (List.suffix_refl _)

theorem lay_propertyKey  :
    J P.propertyKey P.propertyKey P.propertyKey := forget lay_propertyKeyP

macro_rules | `(tactic| layleaf) => `(tactic| with_reducible exact lay_propertyKey )

theorem lay_regularProperty {r r' : Rec} (hr : RecJ r r') :
    J (P.propertyKey >>= fun key => P.morePropInit r key)
      (P.propertyKey >>= fun key => P.morePropInit r' key)
      (P.propertyKey >>= fun key => P.morePropInit r' key) := by
  refine bindP lay_propertyKeyP (fun k => ⟨_, (keyPost_ex k).choose, rfl, (keyPost_ex k).choose_spec⟩)
    fun k k' hk g hg => ?_
  obtain ⟨t, rfl, ht⟩ := hg
  exact lay_morePropInit hk hr (Nat.le_refl _) ht

theorem lay_objectProperty {r r' : Rec}  (hr : RecJ r r') :
    J (P.objectProperty r) (P.objectProperty r') (P.objectProperty r') := by
  unfold P.objectProperty
  refine bindRead readT fun l l' nl v => ?_
  have hex : ∀ o : Option PropKey, ∃ g, KeyOptPost [⟨l, nl, v⟩] o g := fun o => by
    cases o with
    | none => exact ⟨_, rfl⟩
    | some k => exact ⟨_, (keyPost_ex k).choose, rfl, (keyPost_ex k).choose_spec⟩
  dsimp only
  split
  · refine bindP (lay_propertyKeyOptP (Nat.le_refl _)) hex fun o o' ho g hg => ?_
    rcases ho.opt_cases with ⟨rfl, rfl⟩ | ⟨y, y', rfl, rfl, hy⟩
    · have hg : g = _ := hg
      subst hg
      exact lay_morePropInit rfl hr (Nat.le_refl _) fun l' hl =>
        ⟨_, List.mem_singleton.2 rfl, by cases hl; rfl⟩
    · lay
  · refine bindP (lay_propertyKeyOptP (Nat.le_refl _)) hex fun o o' ho g hg => ?_
    rcases ho.opt_cases with ⟨rfl, rfl⟩ | ⟨y, y', rfl, rfl, hy⟩
    · have hg : g = _ := hg
      subst hg
      exact lay_morePropInit rfl hr (Nat.le_refl _) fun l' hl =>
        ⟨_, List.mem_singleton.2 rfl, by cases hl; rfl⟩
    · lay
  · lay
  · refine bindPeek (Nat.le_refl _) fun _ _ _ _ => ?_
    dsimp only
    split
    · exact throw rfl (by points)
    · exact throw rfl (by points)
    · exact bindUnit (unread rfl) (lay_regularProperty hr)
  · exact bindUnit (unread rfl) (lay_regularProperty hr)

macro_rules | `(tactic| layleaf) => `(tactic| with_reducible exact lay_objectProperty ‹RecJ _ _›)

theorem lay_objectStep {r r' : Rec} {props props' : List (Ast .prop)} (hprops : Rel props props') (hr : RecJ r r') :
    J (P.objectStep r props) (P.objectStep r' props) (P.objectStep r' props') := by
  unfold P.objectStep; lay

macro_rules | `(tactic| layleaf) => `(tactic| ((with_reducible refine lay_objectStep ?_ ‹RecJ _ _›) <;> rel))

theorem lay_objectLiteral {r r' : Rec} {start start' : Token} (hstart : Rel start start') (hr : RecJ r r') :
    J (P.objectLiteral r start) (P.objectLiteral r' start) (P.objectLiteral r' start') := by
  obtain ⟨lstart, lstart', nlstart, vstart, rfl, rfl⟩ := hstart.tok
  unfold P.objectLiteral; lay

macro_rules | `(tactic| layleaf) => `(tactic| ((with_reducible refine lay_objectLiteral ?_ ‹RecJ _ _›) <;> rel))

theorem lay_primaryExpression {r r' : Rec}  (hr : RecJ r r') :
    J (P.primaryExpression r) (P.primaryExpression r') (P.primaryExpression r') := by
  unfold P.primaryExpression; lay

macro_rules | `(tactic| layleaf) => `(tactic| with_reducible exact lay_primaryExpression ‹RecJ _ _›)

theorem lay_memberBaseExpression {r r' : Rec}  (hr : RecJ r r') :
    J (P.memberBaseExpression r) (P.memberBaseExpression r') (P.memberBaseExpression r') := by
  unfold P.memberBaseExpression; lay

macro_rules | `(tactic| layleaf) => `(tactic| with_reducible exact lay_memberBaseExpression ‹RecJ _ _›)

theorem lay_argumentsStep {r r' : Rec} {args args' : List (Ast .item)} (hargs : Rel args args') (hr : RecJ r r') :
    J (P.argumentsStep r args) (P.argumentsStep r' args) (P.argumentsStep r' args') := by
  unfold P.argumentsStep; lay

macro_rules | `(tactic| layleaf) => `(tactic| ((with_reducible refine lay_argumentsStep ?_ ‹RecJ _ _›) <;> rel))

theorem lay_arguments {r r' : Rec}  (hr : RecJ r r') :
    J (P.arguments r) (P.arguments r') (P.arguments r') := by
  unfold P.arguments; lay

macro_rules | `(tactic| layleaf) => `(tactic| with_reducible exact lay_arguments ‹RecJ _ _›)

theorem lay_derefBrack {r r' : Rec}  (hr : RecJ r r') :
    J (P.derefBrack r) (P.derefBrack r') (P.derefBrack r') := by
  unfold P.derefBrack; lay

macro_rules | `(tactic| layleaf) => `(tactic| with_reducible exact lay_derefBrack ‹RecJ _ _›)

theorem lay_idName  :
    J P.idName P.idName P.idName := by
  unfold P.idName; lay

macro_rules | `(tactic| layleaf) => `(tactic| with_reducible exact lay_idName )

theorem lay_derefDot  :
    J P.derefDot P.derefDot P.derefDot := by
  unfold P.derefDot; lay

macro_rules | `(tactic| layleaf) => `(tactic| with_reducible exact lay_derefDot )

theorem lay_derefOpt {r r' : Rec}  (hr : RecJ r r') :
    J (P.derefOpt r) (P.derefOpt r') (P.derefOpt r') := by
  unfold P.derefOpt; lay

macro_rules | `(tactic| layleaf) => `(tactic| with_reducible exact lay_derefOpt ‹RecJ _ _›)

theorem lay_suffixOpt {r r' : Rec}  (hr : RecJ r r') :
    J (P.suffixOpt r) (P.suffixOpt r') (P.suffixOpt r') := by
  unfold P.suffixOpt; lay

macro_rules | `(tactic| layleaf) => `(tactic| with_reducible exact lay_suffixOpt ‹RecJ _ _›)

theorem lay_suffixStep {r r' : Rec} {result result' : Expr} (hresult : Rel result result')
    (hr : RecJ r r') :
    J (P.suffixStep r result) (P.suffixStep r' result) (P.suffixStep r' result') := by
  unfold P.suffixStep
  exact bindOpt (by lay) (pure hresult.inr) fun _ _ h => pure (h.suffix hresult).inl

macro_rules | `(tactic| layleaf) => `(tactic| ((with_reducible refine lay_suffixStep ?_ ‹RecJ _ _›) <;> rel))

theorem lay_moreSuffixes {r r' : Rec} {result result' : Expr} (hresult : Rel result result') (hr : RecJ r r') :
    J (P.moreSuffixes r result) (P.moreSuffixes r' result) (P.moreSuffixes r' result') := by
  unfold P.moreSuffixes; lay

macro_rules | `(tactic| layleaf) => `(tactic| ((with_reducible refine lay_moreSuffixes ?_ ‹RecJ _ _›) <;> rel))

theorem lay_derefStep {r r' : Rec} {result result' : Expr} (hresult : Rel result result')
    (hr : RecJ r r') :
    J (P.derefStep r result) (P.derefStep r' result) (P.derefStep r' result') := by
  unfold P.derefStep
  exact bindOpt (by lay) (pure hresult.inr) fun _ _ h => pure (h.deref hresult).inl

macro_rules | `(tactic| layleaf) => `(tactic| ((with_reducible refine lay_derefStep ?_ ‹RecJ _ _›) <;> rel))

theorem lay_newLoop {r r' : Rec} {news news' : List Token} (b : Bool) {base base' : Expr}
    (hnews : Rel news news') (hbase : Rel base base') (hr : RecJ r r') :
    J (P.newLoop r news b base) (P.newLoop r' news b base) (P.newLoop r' news' b base') := by
  induction news generalizing news' b base base' with
  | nil => cases news' with
    | nil => exact pure hbase
    | cons => cases hnews
  | cons t ts ih => cases news' with
    | nil => cases hnews
    | cons t' ts' =>
      obtain ⟨h1, h2⟩ := Rel.cons_inv hnews
      rw [P.newLoop, P.newLoop, P.newLoop]
      have he : Rel (Ast.eNew (spanLoc (some t.location) base.loc) base .none)
          (.eNew (spanLoc (some t'.location) base'.loc) base' .none) := by
        show Ast.blur (.eNew _ _ _) = Ast.blur (.eNew _ _ _)
        rw [Ast.blur_eNew, Ast.blur_eNew, blurLoc_spanLoc, blurLoc_spanLoc, hbase.loc, hbase.ast]
        rfl
      refine ite Iff.rfl (bindTok peekOp fun _ _ _ _ => bindBool (pure rfl) fun b => ?_)
          (bindBool (pure rfl) fun b => ?_) <;>
        exact ite Iff.rfl (bind (by lay) fun _ _ ha => ih _ h2 (ha.appendToNew hbase)) (ih _ h2 he)

theorem lay_moreNewExpression {r r' : Rec} {news news' : List Token} {base base' : Expr}
    (hnews : Rel news news') (hbase : Rel base base') (hr : RecJ r r') :
    J (P.moreNewExpression r news base) (P.moreNewExpression r' news base)
      (P.moreNewExpression r' news' base') := by
  unfold P.moreNewExpression
  exact bind (by lay) fun _ _ hb => bind (lay_newLoop _ hnews.reverse hb hr) fun _ _ hb => by lay

macro_rules | `(tactic| layleaf) => `(tactic| ((with_reducible refine lay_moreNewExpression ?_ ?_ ‹RecJ _ _›) <;> rel))

theorem lay_newExpression {r r' : Rec} {news news' : List Token} (hnews : Rel news news') (hr : RecJ r r') :
    J (P.newExpression r news) (P.newExpression r' news) (P.newExpression r' news') := by
  unfold P.newExpression; lay

macro_rules | `(tactic| layleaf) => `(tactic| ((with_reducible refine lay_newExpression ?_ ‹RecJ _ _›) <;> rel))

theorem lay_callExpression {r r' : Rec}  (hr : RecJ r r') :
    J (P.callExpression r) (P.callExpression r') (P.callExpression r') := by
  unfold P.callExpression; lay

macro_rules | `(tactic| layleaf) => `(tactic| with_reducible exact lay_callExpression ‹RecJ _ _›)

theorem lay_newsStep {news news' : List Token} (hnews : Rel news news') :
    J (P.newsStep news) (P.newsStep news) (P.newsStep news') := by
  unfold P.newsStep; lay

macro_rules | `(tactic| layleaf) => `(tactic| ((with_reducible refine lay_newsStep ?_) <;> rel))

theorem lay_lhsExpression {r r' : Rec} (hr : RecJ r r') :
    J (P.lhsExpression r) (P.lhsExpression r') (P.lhsExpression r') := by
  unfold P.lhsExpression
  refine bind (by lay) fun ns ns' hn => ?_
  refine ite (by rw [hn.length]) ?_ (by lay)
  refine bindBool (by lay) fun b => ite Iff.rfl (bindTok (by lay) fun l l' nl v => ?_) (by lay)
  dsimp only
  have hl : blurLoc (ns.getLast?.map (·.location)) = blurLoc (ns'.getLast?.map (·.location)) := by
    rcases hn.getLast?.opt_cases with ⟨h1, h2⟩ | ⟨y, y', h1, h2, _⟩ <;> rw [h1, h2] <;> rfl
  have ht : Rel (Ast.eNewTarget (spanLoc (ns.getLast?.map (·.location)) (some l)))
      (Ast.eNewTarget (spanLoc (ns'.getLast?.map (·.location)) (some l'))) := by
    show Ast.blur _ = Ast.blur _
    rw [Ast.blur_eNewTarget, Ast.blur_eNewTarget, blurLoc_spanLoc, blurLoc_spanLoc, hl]
    rfl
  refine ite (by rw [hn.dropLast.length]) (lay_moreNewExpression hn.dropLast ht hr) (by lay)

macro_rules | `(tactic| layleaf) => `(tactic| with_reducible exact lay_lhsExpression ‹RecJ _ _›)



theorem lay_matchUnop  :
    J P.matchUnop P.matchUnop P.matchUnop := by
  unfold P.matchUnop; lay

macro_rules | `(tactic| layleaf) => `(tactic| with_reducible exact lay_matchUnop )

theorem lay_matchPrefix  :
    J P.matchPrefix P.matchPrefix P.matchPrefix := by
  unfold P.matchPrefix; lay

macro_rules | `(tactic| layleaf) => `(tactic| with_reducible exact lay_matchPrefix )

theorem lay_matchPostfixOperatorOpt  :
    J P.matchPostfixOperatorOpt P.matchPostfixOperatorOpt P.matchPostfixOperatorOpt := by
  unfold P.matchPostfixOperatorOpt; lay

macro_rules | `(tactic| layleaf) => `(tactic| with_reducible exact lay_matchPostfixOperatorOpt )

theorem lay_toTarget {e e' : Expr} (he : Rel e e') :
    J (P.toTarget e) (P.toTarget e) (P.toTarget e') := by
  unfold P.toTarget
  have h : Cover.blurX (Cover.intoAssignTarget e) = Cover.blurX (Cover.intoAssignTarget e') := by
    rw [← Cover.intoAssignTarget_blur, ← Cover.intoAssignTarget_blur, he.ast]
  cases h1 : Cover.intoAssignTarget e <;> cases h2 : Cover.intoAssignTarget e' <;>
    rw [h1, h2] at h <;> first | (cases h; done) | injection h with h
  · refine throw ?_ trivial
    show PError.invalidLHS _ _ = .invalidLHS _ _
    rw [he.loc, h]
  · exact pure h

macro_rules | `(tactic| layleaf) => `(tactic| ((with_reducible refine lay_toTarget ?_) <;> rel))

theorem lay_toPatt {e e' : Expr} (he : Rel e e') :
    J (P.toPatt e) (P.toPatt e) (P.toPatt e') := by
  unfold P.toPatt
  have h : Cover.blurX (Cover.intoAssignPatt e) = Cover.blurX (Cover.intoAssignPatt e') := by
    rw [← Cover.intoAssignPatt_blur, ← Cover.intoAssignPatt_blur, he.ast]
  cases h1 : Cover.intoAssignPatt e <;> cases h2 : Cover.intoAssignPatt e' <;>
    rw [h1, h2] at h <;> first | (cases h; done) | injection h with h
  · refine throw ?_ trivial
    show PError.invalidLHS _ _ = .invalidLHS _ _
    rw [he.loc, h]
  · exact pure h

macro_rules | `(tactic| layleaf) => `(tactic| ((with_reducible refine lay_toPatt ?_) <;> rel))

theorem lay_prefixStep {prefixes prefixes' : List Prefix} (hprefixes : Rel prefixes prefixes') :
    J (P.prefixStep prefixes) (P.prefixStep prefixes) (P.prefixStep prefixes') := by
  unfold P.prefixStep; lay

macro_rules | `(tactic| layleaf) => `(tactic| ((with_reducible refine lay_prefixStep ?_) <;> rel))

theorem lay_applyPostfix {o o' : Option Postfix} {arg arg' : Expr} (ho : Rel o o')
    (harg : Rel arg arg') :
    J (P.applyPostfix o arg) (P.applyPostfix o arg) (P.applyPostfix o' arg') := by
  unfold P.applyPostfix
  rcases ho.opt_cases with ⟨rfl, rfl⟩ | ⟨y, y', rfl, rfl, hy⟩
  · exact pure harg
  · cases y <;> cases y' <;> first | (cases hy; done) | lay

macro_rules | `(tactic| layleaf) => `(tactic| ((with_reducible refine lay_applyPostfix ?_ ?_) <;> rel))

theorem lay_applyPrefixes {ps ps' : List Prefix} {arg arg' : Expr} (hps : Rel ps ps')
    (harg : Rel arg arg') :
    J (P.applyPrefixes ps arg) (P.applyPrefixes ps arg) (P.applyPrefixes ps' arg') := by
  induction ps generalizing ps' arg arg' with
  | nil => cases ps' with
    | nil => exact pure harg
    | cons => cases hps
  | cons p ps ih => cases ps' with
    | nil => cases hps
    | cons p' ps' =>
      obtain ⟨h1, h2⟩ := Rel.cons_inv hps
      cases p <;> cases p' <;> first | (cases h1; done) | skip
      · rename_i o o'
        have h1 : Prefix.unop o.blur = .unop o'.blur := h1
        injection h1 with h1
        refine ih (ps' := ps') (arg' := .eUnop (spanLoc o'.location arg'.loc) o' arg') h2 ?_
        show Ast.blur _ = Ast.blur _
        rw [Ast.blur_eUnop, Ast.blur_eUnop, blurLoc_spanLoc, blurLoc_spanLoc, harg.loc, harg.ast,
          Op.location_blur, Op.location_blur, h1]
      · exact bind (lay_toTarget harg) fun _ _ ht => ih h2 (by rel)
      · exact bind (lay_toTarget harg) fun _ _ ht => ih h2 (by rel)

theorem lay_unaryExpression {r r' : Rec} (hr : RecJ r r') :
    J (P.unaryExpression r) (P.unaryExpression r') (P.unaryExpression r') := by
  unfold P.unaryExpression
  refine bind (by lay) fun ps ps' hps => bind (by lay) fun _ _ ha => bind (by lay) fun _ _ ho =>
    bind (lay_applyPostfix ho ha) fun _ _ ha => lay_applyPrefixes hps.reverse ha

macro_rules | `(tactic| layleaf) => `(tactic| with_reducible exact lay_unaryExpression ‹RecJ _ _›)

theorem lay_matchInfix : J P.matchInfix P.matchInfix P.matchInfix := by
  unfold P.matchInfix
  refine bindRead readOpT fun l l' nl v => get fun s s' hs => ?_
  simp only [← hs.ctx, Token.toBinop, Token.toLogop]
  cases TokenData.toBinopTag s.ctx.allowIn v with
  | some => exact pure rfl
  | none =>
    cases TokenData.toLogopTag v with
    | some => exact pure rfl
    | none => simp only [Option.map]; lay

macro_rules | `(tactic| layleaf) => `(tactic| with_reducible exact lay_matchInfix)

theorem lay_infixStep {r r' : Rec} {st st' : Stack × Expr} (hst : Rel st st') (hr : RecJ r r') :
    J (P.infixStep r st) (P.infixStep r' st) (P.infixStep r' st') := by
  unfold P.infixStep
  exact bindOpt (by lay) (pure hst.inr) fun _ _ ho => bind (by lay) fun _ _ ha =>
    pure (Rel.pair (Rel.extend hst.fst hst.snd ho) ha).inl

theorem lay_moreInfixExpressions {r r' : Rec} {left left' : Expr} (hl : Rel left left')
    (hr : RecJ r r') :
    J (P.moreInfixExpressions r left) (P.moreInfixExpressions r' left)
      (P.moreInfixExpressions r' left') := by
  unfold P.moreInfixExpressions
  exact bind (loop (Rel.pair rfl hl) fun _ _ h => lay_infixStep h hr) fun _ _ h =>
    pure (Rel.finish h.fst h.snd)

macro_rules | `(tactic| layleaf) => `(tactic| ((with_reducible refine lay_moreInfixExpressions ?_ ‹RecJ _ _›) <;> rel))

theorem lay_moreConditional {r r' : Rec} {left left' : Expr} (hleft : Rel left left') (hr : RecJ r r') :
    J (P.moreConditional r left) (P.moreConditional r' left) (P.moreConditional r' left') := by
  unfold P.moreConditional; lay

macro_rules | `(tactic| layleaf) => `(tactic| ((with_reducible refine lay_moreConditional ?_ ‹RecJ _ _›) <;> rel))

theorem lay_conditionalExpression {r r' : Rec}  (hr : RecJ r r') :
    J (P.conditionalExpression r) (P.conditionalExpression r') (P.conditionalExpression r') := by
  unfold P.conditionalExpression; lay

macro_rules | `(tactic| layleaf) => `(tactic| with_reducible exact lay_conditionalExpression ‹RecJ _ _›)

theorem lay_moreAssignment {r r' : Rec} {left left' : Expr} (hl : Rel left left')
    (hr : RecJ r r') :
    J (P.moreAssignment r left) (P.moreAssignment r' left) (P.moreAssignment r' left') := by
  unfold P.moreAssignment
  refine bindRead readOpT fun l l' nl v => ite Iff.rfl (by lay) ?_
  simp only [Token.toAssop]
  cases TokenData.toAssopTag v with
  | some => simp only [Option.map]; lay
  | none => simp only [Option.map]; lay

macro_rules | `(tactic| layleaf) => `(tactic| ((with_reducible refine lay_moreAssignment ?_ ‹RecJ _ _›) <;> rel))

theorem lay_assignmentExpression {r r' : Rec}  (hr : RecJ r r') :
    J (P.assignmentExpression r) (P.assignmentExpression r') (P.assignmentExpression r') := by
  unfold P.assignmentExpression; lay

macro_rules | `(tactic| layleaf) => `(tactic| with_reducible exact lay_assignmentExpression ‹RecJ _ _›)

theorem lay_expressionStatement {r r' : Rec}  (hr : RecJ r r') :
    J (P.expressionStatement r) (P.expressionStatement r') (P.expressionStatement r') := by
  unfold P.expressionStatement; lay

macro_rules | `(tactic| layleaf) => `(tactic| with_reducible exact lay_expressionStatement ‹RecJ _ _›)

theorem lay_statement {r r' : Rec} (hr : RecJ r r') :
    J (P.statement r) (P.statement r') (P.statement r') := by
  unfold P.statement
  refine bind (by lay) fun x x' h => ?_
  rcases h.sitem with ⟨i, i', rfl, rfl, h⟩ | ⟨c, c', rfl, rfl, h⟩ <;> lay

macro_rules | `(tactic| layleaf) => `(tactic| with_reducible exact lay_statement ‹RecJ _ _›)

theorem lay_labelStep {labels labels' : List Id} (hlabels : Rel labels labels') :
    J (P.labelStep labels) (P.labelStep labels) (P.labelStep labels') := by
  unfold P.labelStep
  refine bindPeek (Nat.zero_le _) fun _ _ _ _ => ?_
  dsimp only
  split
  · refine bindRead rereadTokenT fun l l' nl v => bindP (matchesOpP (Nat.le_refl _)) (fun b => ?_)
      fun b b' hb g hg => ?_
    · cases b
      · exact ⟨_, rfl⟩
      · exact ⟨_, ⟨l, nl, v⟩, rfl⟩
    · have hb : b = b' := hb
      subst hb
      cases b
      · have hg : g = _ := hg
        subst hg
        lay
      · obtain ⟨c, rfl⟩ := hg
        refine bind (lay_newIdFromToken _ rfl (by simp [lastTwo])) fun i i' hi => ?_
        exact pure (hlabels.snoc hi).inl
  · lay

macro_rules | `(tactic| layleaf) => `(tactic| ((with_reducible refine lay_labelStep ?_) <;> rel))

theorem lay_labelledStatement {r r' : Rec} {i i' : Id} (hi : Rel i i') (hr : RecJ r r') :
    J (P.labelledStatement r i) (P.labelledStatement r' i) (P.labelledStatement r' i') := by
  unfold P.labelledStatement
  refine bindTok (by lay) fun _ _ _ _ => bind (loop (hi.cons rfl) fun _ _ h => by lay) fun _ _ hl =>
    bindTok (by lay) fun l l' nl v => ?_
  simp only [labelType_v]
  lay

macro_rules | `(tactic| layleaf) => `(tactic| ((with_reducible refine lay_labelledStatement ?_ ‹RecJ _ _›) <;> rel))

theorem lay_block {r r' : Rec}  (hr : RecJ r r') :
    J (P.block r) (P.block r') (P.block r') := by
  unfold P.block; lay

macro_rules | `(tactic| layleaf) => `(tactic| with_reducible exact lay_block ‹RecJ _ _›)

theorem lay_declarator {r r' : Rec}  (hr : RecJ r r') :
    J (P.declarator r) (P.declarator r') (P.declarator r') := by
  unfold P.declarator; lay

macro_rules | `(tactic| layleaf) => `(tactic| with_reducible exact lay_declarator ‹RecJ _ _›)

theorem lay_constDeclarator {r r' : Rec} (hr : RecJ r r') :
    J (P.constDeclarator r) (P.constDeclarator r') (P.constDeclarator r') := by
  unfold P.constDeclarator
  exact bind (by lay) fun _ _ hp => bindTok (by lay) fun _ _ _ _ => bind (by lay) fun _ _ he =>
    pure (hp.constFromInit he)

macro_rules | `(tactic| layleaf) => `(tactic| with_reducible exact lay_constDeclarator ‹RecJ _ _›)

theorem lay_varStatement {r r' : Rec}  (hr : RecJ r r') :
    J (P.varStatement r) (P.varStatement r') (P.varStatement r') := by
  unfold P.varStatement; lay

macro_rules | `(tactic| layleaf) => `(tactic| with_reducible exact lay_varStatement ‹RecJ _ _›)

theorem lay_letDeclaration {r r' : Rec} {start start' : Posn} (_ : Rel start start') (hr : RecJ r r') :
    J (P.letDeclaration r start) (P.letDeclaration r' start) (P.letDeclaration r' start') := by
  unfold P.letDeclaration; lay

macro_rules | `(tactic| layleaf) => `(tactic| ((with_reducible refine lay_letDeclaration ?_ ‹RecJ _ _›) <;> rel))

theorem lay_constDeclaration {r r' : Rec}  (hr : RecJ r r') :
    J (P.constDeclaration r) (P.constDeclaration r') (P.constDeclaration r') := by
  unfold P.constDeclaration; lay

macro_rules | `(tactic| layleaf) => `(tactic| with_reducible exact lay_constDeclaration ‹RecJ _ _›)

theorem lay_emptyStatement  :
    J P.emptyStatement P.emptyStatement P.emptyStatement := by
  unfold P.emptyStatement; lay

macro_rules | `(tactic| layleaf) => `(tactic| with_reducible exact lay_emptyStatement )

theorem lay_ifStatement {r r' : Rec}  (hr : RecJ r r') :
    J (P.ifStatement r) (P.ifStatement r') (P.ifStatement r') := by
  unfold P.ifStatement; lay

macro_rules | `(tactic| layleaf) => `(tactic| with_reducible exact lay_ifStatement ‹RecJ _ _›)

theorem lay_iterationBody {r r' : Rec}  (hr : RecJ r r') :
    J (P.iterationBody r) (P.iterationBody r') (P.iterationBody r') := by
  unfold P.iterationBody; lay

macro_rules | `(tactic| layleaf) => `(tactic| with_reducible exact lay_iterationBody ‹RecJ _ _›)

theorem lay_doStatement {r r' : Rec}  (hr : RecJ r r') :
    J (P.doStatement r) (P.doStatement r') (P.doStatement r') := by
  unfold P.doStatement; lay

macro_rules | `(tactic| layleaf) => `(tactic| with_reducible exact lay_doStatement ‹RecJ _ _›)

theorem lay_whileStatement {r r' : Rec}  (hr : RecJ r r') :
    J (P.whileStatement r) (P.whileStatement r') (P.whileStatement r') := by
  unfold P.whileStatement; lay

macro_rules | `(tactic| layleaf) => `(tactic| with_reducible exact lay_whileStatement ‹RecJ _ _›)

theorem lay_expressionOptSemi {r r' : Rec}  (hr : RecJ r r') :
    J (P.expressionOptSemi r) (P.expressionOptSemi r') (P.expressionOptSemi r') := by
  unfold P.expressionOptSemi; lay

macro_rules | `(tactic| layleaf) => `(tactic| with_reducible exact lay_expressionOptSemi ‹RecJ _ _›)

theorem lay_forUpdate {r r' : Rec}  (hr : RecJ r r') :
    J (P.forUpdate r) (P.forUpdate r') (P.forUpdate r') := by
  unfold P.forUpdate; lay

macro_rules | `(tactic| layleaf) => `(tactic| with_reducible exact lay_forUpdate ‹RecJ _ _›)

theorem lay_moreFor {r r' : Rec} {head head' : Ast (.opt .forHead)} (hhead : Rel head head') (hr : RecJ r r') :
    J (P.moreFor r head) (P.moreFor r' head) (P.moreFor r' head') := by
  unfold P.moreFor; lay

macro_rules | `(tactic| layleaf) => `(tactic| ((with_reducible refine lay_moreFor ?_ ‹RecJ _ _›) <;> rel))

theorem lay_moreForIn {r r' : Rec} {head head' : Ast .forInHead} (hhead : Rel head head') (hr : RecJ r r') :
    J (P.moreForIn r head) (P.moreForIn r' head) (P.moreForIn r' head') := by
  unfold P.moreForIn; lay

macro_rules | `(tactic| layleaf) => `(tactic| ((with_reducible refine lay_moreForIn ?_ ‹RecJ _ _›) <;> rel))

theorem lay_moreForOf {r r' : Rec} {head head' : Ast .forOfHead} (hhead : Rel head head') (hr : RecJ r r') :
    J (P.moreForOf r head) (P.moreForOf r' head) (P.moreForOf r' head') := by
  unfold P.moreForOf; lay

macro_rules | `(tactic| layleaf) => `(tactic| ((with_reducible refine lay_moreForOf ?_ ‹RecJ _ _›) <;> rel))

theorem lay_moreForHead {r r' : Rec} {start start' : Loc} {dtor dtor' : Ast .dtor}
    (op : Loc → Ast (.list .dtor) → Ast .forHead) (hstart : Rel start start')
    (hdtor : Rel dtor dtor')
    (hop : ∀ l l' d d', blurLoc l = blurLoc l' → Rel d d' → Rel (op l d) (op l' d'))
    (hr : RecJ r r') :
    J (P.moreForHead r start dtor op) (P.moreForHead r' start dtor op)
      (P.moreForHead r' start' dtor' op) := by
  unfold P.moreForHead
  refine bind (by lay) fun ds ds' hd => bindTok (by lay) fun l l' nl v => lay_moreFor ?_ hr
  show Ast.blur _ = Ast.blur _
  rw [Ast.blur_some, Ast.blur_some]
  refine congrArg Ast.some (hop _ _ _ _ ?_ ?_)
  · have hs : blurLoc start = blurLoc start' := hstart
    rw [blurLoc_spanLoc, blurLoc_spanLoc, hs]; rfl
  · show Ast.blur _ = Ast.blur _
    rw [Ast.blur_ofList, Ast.blur_ofList]
    exact congrArg Ast.ofList hd

theorem lay_fhVar (l l' : Loc) (d d' : Ast (.list .dtor)) (h : blurLoc l = blurLoc l')
    (hd : Rel d d') : Rel (Ast.fhVar l d) (Ast.fhVar l' d') := by
  show Ast.blur _ = Ast.blur _
  rw [Ast.blur_fhVar, Ast.blur_fhVar, h, hd.ast]

theorem lay_fhLet (l l' : Loc) (d d' : Ast (.list .dtor)) (h : blurLoc l = blurLoc l')
    (hd : Rel d d') : Rel (Ast.fhLet l d) (Ast.fhLet l' d') := by
  show Ast.blur _ = Ast.blur _
  rw [Ast.blur_fhLet, Ast.blur_fhLet, h, hd.ast]

theorem lay_forVar {r r' : Rec} (hr : RecJ r r') :
    J (P.forVar r) (P.forVar r') (P.forVar r') := by
  unfold P.forVar
  refine bindTok (by lay) fun l l' _ _ => bind (by lay) fun p p' hp => bindTok (by lay)
    fun _ _ _ v => ?_
  have hn : J (match Dtor.fromInitNone p with
        | some dtor => P.moreForHead r (some l) dtor .fhVar
        | none => P.unexpected) (match Dtor.fromInitNone p with
        | some dtor => P.moreForHead r' (some l) dtor .fhVar
        | none => P.unexpected) (match Dtor.fromInitNone p' with
        | some dtor => P.moreForHead r' (some l') dtor .fhVar
        | none => P.unexpected) := by
    rcases hp.fromInitNone.opt_cases with ⟨h1, h2⟩ | ⟨y, y', h1, h2, h⟩ <;> rw [h1, h2]
    · lay
    · exact lay_moreForHead _ rfl h lay_fhVar hr
  dsimp only
  split
  · refine bindTok (by lay) fun _ _ _ _ => ?_
    rcases hp.patt with ⟨i, i', rfl, rfl, hi⟩ | ⟨c, c', rfl, rfl, hc⟩
    · refine bind (by lay) fun e e' he => bindTok (by lay) fun _ _ _ v => ?_
      dsimp only
      split
      · exact lay_moreForHead _ rfl (hi.fromSimpleInit he) lay_fhVar hr
      · exact lay_moreForHead _ rfl (hi.fromSimpleInit he) lay_fhVar hr
      · lay
      · lay
    · exact bind (by lay) fun e e' he =>
        lay_moreForHead _ rfl (hc.fromCompoundInit he) lay_fhVar hr
  · exact hn
  · exact hn
  · lay
  · lay
  · lay

macro_rules | `(tactic| layleaf) => `(tactic| with_reducible exact lay_forVar ‹RecJ _ _›)

theorem lay_forExpr {r r' : Rec}  (hr : RecJ r r') :
    J (P.forExpr r) (P.forExpr r') (P.forExpr r') := by
  unfold P.forExpr; lay

macro_rules | `(tactic| layleaf) => `(tactic| with_reducible exact lay_forExpr ‹RecJ _ _›)

theorem lay_forLet {r r' : Rec} (hr : RecJ r r') :
    J (P.forLet r) (P.forLet r') (P.forLet r') := by
  unfold P.forLet
  refine bindRead rereadT fun l l' _ _ => bindPeek (Nat.le_refl _) fun _ _ _ _ =>
    ite (by laycond) (by lay) ?_
  refine bind (by lay) fun p p' hp => bindTok (by lay) fun _ _ _ v => ?_
  have hn : J (match Dtor.fromInitNone p with
        | some dtor => P.moreForHead r (some l) dtor .fhLet
        | none => P.unexpected) (match Dtor.fromInitNone p with
        | some dtor => P.moreForHead r' (some l) dtor .fhLet
        | none => P.unexpected) (match Dtor.fromInitNone p' with
        | some dtor => P.moreForHead r' (some l') dtor .fhLet
        | none => P.unexpected) := by
    rcases hp.fromInitNone.opt_cases with ⟨h1, h2⟩ | ⟨y, y', h1, h2, h⟩ <;> rw [h1, h2]
    · lay
    · exact lay_moreForHead _ rfl h lay_fhLet hr
  dsimp only
  split
  · exact bindTok (by lay) fun _ _ _ _ => bind (by lay) fun e e' he =>
      lay_moreForHead _ rfl (hp.fromInit he) lay_fhLet hr
  · exact hn
  · exact hn
  · lay
  · lay
  · lay

macro_rules | `(tactic| layleaf) => `(tactic| with_reducible exact lay_forLet ‹RecJ _ _›)

theorem lay_forConst {r r' : Rec} (hr : RecJ r r') :
    J (P.forConst r) (P.forConst r') (P.forConst r') := by
  unfold P.forConst
  refine bindRead rereadT fun l l' _ _ => bindPeek (Nat.le_refl _) fun _ _ _ _ =>
    ite (by laycond) (by lay) ?_
  refine bind (by lay) fun p p' hp => bindTok (by lay) fun _ _ _ v => ?_
  dsimp only
  split
  · refine bindTok (by lay) fun _ _ _ _ => bind (allowIn (bind (by lay) fun e e' he =>
      lay_moreComma (hp.constFromInit he) (by lay))) fun ds ds' hd => ?_
    lay
  · lay
  · lay
  · lay

macro_rules | `(tactic| layleaf) => `(tactic| with_reducible exact lay_forConst ‹RecJ _ _›)

theorem lay_forStatement {r r' : Rec}  (hr : RecJ r r') :
    J (P.forStatement r) (P.forStatement r') (P.forStatement r') := by
  unfold P.forStatement; lay

macro_rules | `(tactic| layleaf) => `(tactic| with_reducible exact lay_forStatement ‹RecJ _ _›)

theorem lay_caseClause {r r' : Rec}  (hr : RecJ r r') :
    J (P.caseClause r) (P.caseClause r') (P.caseClause r') := by
  unfold P.caseClause; lay

macro_rules | `(tactic| layleaf) => `(tactic| with_reducible exact lay_caseClause ‹RecJ _ _›)

theorem lay_defaultClause {r r' : Rec}  (hr : RecJ r r') :
    J (P.defaultClause r) (P.defaultClause r') (P.defaultClause r') := by
  unfold P.defaultClause; lay

macro_rules | `(tactic| layleaf) => `(tactic| with_reducible exact lay_defaultClause ‹RecJ _ _›)

theorem lay_switchStep {r r' : Rec} {st st' : List (Ast .case) × Bool} (hst : Rel st st')
    (hr : RecJ r r') :
    J (P.switchStep r st) (P.switchStep r' st) (P.switchStep r' st') := by
  obtain ⟨cs, b⟩ := st
  obtain ⟨cs', b'⟩ := st'
  have hb : b = b' := hst.snd
  subst hb
  have hc : Rel cs cs' := hst.fst
  unfold P.switchStep
  dsimp only
  refine bindTok (by lay) fun _ _ _ v => ?_
  dsimp only
  split
  · exact bind (by lay) fun _ _ h => pure (Rel.pair (hc.snoc h) rfl).inl
  · refine ite Iff.rfl (by lay) ?_
    exact bind (by lay) fun _ _ h => pure (Rel.pair (hc.snoc h) rfl).inl
  · exact pure hc.inr

macro_rules | `(tactic| layleaf) => `(tactic| ((with_reducible refine lay_switchStep ?_ ‹RecJ _ _›) <;> rel))

theorem lay_switchCases {r r' : Rec}  (hr : RecJ r r') :
    J (P.switchCases r) (P.switchCases r') (P.switchCases r') := by
  unfold P.switchCases; lay

macro_rules | `(tactic| layleaf) => `(tactic| with_reducible exact lay_switchCases ‹RecJ _ _›)

theorem lay_switchStatement {r r' : Rec}  (hr : RecJ r r') :
    J (P.switchStatement r) (P.switchStatement r') (P.switchStatement r') := by
  unfold P.switchStatement; lay

macro_rules | `(tactic| layleaf) => `(tactic| with_reducible exact lay_switchStatement ‹RecJ _ _›)

theorem lay_breakArg {t t' : Token} (ht : Rel t t') :
    JP [t] Nil (P.breakArg t) (P.breakArg t) (P.breakArg t') := by
  unfold P.breakArg
  refine bindHasArg (Nat.le_refl _) fun b => ite Iff.rfl
    (bindP (weaken (lay_idP false)) idPost_ex fun i i' hi g hg => get fun s s' hs => ?_) (by lay)
  simp only [← hs.ctx, ← hi.name]
  split
  · exact throw (congrArg PError.invalidLabel hi) hg
  · exact pure (Rel.some_iff.2 hi)

macro_rules | `(tactic| layleaf) => `(tactic| ((with_reducible refine lay_breakArg ?_) <;> rel))

theorem lay_breakStatement  :
    J P.breakStatement P.breakStatement P.breakStatement := by
  unfold P.breakStatement; lay

macro_rules | `(tactic| layleaf) => `(tactic| with_reducible exact lay_breakStatement )

theorem lay_continueArg {t t' : Token} (ht : Rel t t') :
    JP [t] Nil (P.continueArg t) (P.continueArg t) (P.continueArg t') := by
  unfold P.continueArg
  refine bindHasArg (Nat.le_refl _) fun b => ite Iff.rfl
    (bindP (weaken (lay_idP false)) idPost_ex fun i i' hi g hg => get fun s s' hs => ?_) (by lay)
  simp only [← hs.ctx, ← hi.name]
  split
  · exact throw (congrArg PError.invalidLabel hi) hg
  · exact throw (congrArg PError.invalidLabelType hi) hg
  · exact pure (Rel.some_iff.2 hi)

macro_rules | `(tactic| layleaf) => `(tactic| ((with_reducible refine lay_continueArg ?_) <;> rel))

theorem lay_continueStatement  :
    J P.continueStatement P.continueStatement P.continueStatement := by
  unfold P.continueStatement; lay

macro_rules | `(tactic| layleaf) => `(tactic| with_reducible exact lay_continueStatement )

theorem lay_returnArg {r r' : Rec}  (hr : RecJ r r') :
    J (P.returnArg r) (P.returnArg r') (P.returnArg r') := by
  unfold P.returnArg; lay

macro_rules | `(tactic| layleaf) => `(tactic| with_reducible exact lay_returnArg ‹RecJ _ _›)

theorem lay_returnStatement {r r' : Rec} (hr : RecJ r r') :
    J (P.returnStatement r) (P.returnStatement r') (P.returnStatement r') := by
  unfold P.returnStatement
  refine bind posn fun _ _ _ => bindTok (by lay) fun _ _ _ _ => bind (by lay) fun _ _ _ =>
    bind (by lay) fun x x' hx => get fun s s' hs => ?_
  simp only [← hs.ctx]
  refine ite Iff.rfl ?_ (pure hx)
  have h := hx.loc
  cases h1 : x.loc <;> cases h2 : x'.loc <;> rw [h1, h2] at h <;> first | (cases h; done) | lay

macro_rules | `(tactic| layleaf) => `(tactic| with_reducible exact lay_returnStatement ‹RecJ _ _›)

theorem lay_withStatement {r r' : Rec}  (hr : RecJ r r') :
    J (P.withStatement r) (P.withStatement r') (P.withStatement r') := by
  unfold P.withStatement
  refine span (bindRead rereadT fun l l' nl v => bindKeep (strictCheckP rfl fun k hk => ?_)
    fun _ _ _ => by lay)
  cases hk
  exact List.mem_singleton.2 rfl

macro_rules | `(tactic| layleaf) => `(tactic| with_reducible exact lay_withStatement ‹RecJ _ _›)

theorem lay_throwStatement {r r' : Rec}  (hr : RecJ r r') :
    J (P.throwStatement r) (P.throwStatement r') (P.throwStatement r') := by
  unfold P.throwStatement; lay

macro_rules | `(tactic| layleaf) => `(tactic| with_reducible exact lay_throwStatement ‹RecJ _ _›)

theorem lay_catchOpt {r r' : Rec}  (hr : RecJ r r') :
    J (P.catchOpt r) (P.catchOpt r') (P.catchOpt r') := by
  unfold P.catchOpt; lay

macro_rules | `(tactic| layleaf) => `(tactic| with_reducible exact lay_catchOpt ‹RecJ _ _›)

theorem lay_finallyOpt {r r' : Rec}  (hr : RecJ r r') :
    J (P.finallyOpt r) (P.finallyOpt r') (P.finallyOpt r') := by
  unfold P.finallyOpt; lay

macro_rules | `(tactic| layleaf) => `(tactic| with_reducible exact lay_finallyOpt ‹RecJ _ _›)

theorem lay_tryTail {r r' : Rec} {body body' : Ast .block} (hbody : Rel body body') (hr : RecJ r r') :
    J (P.tryTail r body) (P.tryTail r' body) (P.tryTail r' body') := by
  unfold P.tryTail; lay

macro_rules | `(tactic| layleaf) => `(tactic| ((with_reducible refine lay_tryTail ?_ ‹RecJ _ _›) <;> rel))

theorem lay_tryStatement {r r' : Rec}  (hr : RecJ r r') :
    J (P.tryStatement r) (P.tryStatement r') (P.tryStatement r') := by
  unfold P.tryStatement; lay

macro_rules | `(tactic| layleaf) => `(tactic| with_reducible exact lay_tryStatement ‹RecJ _ _›)

theorem lay_debuggerStatement  :
    J P.debuggerStatement P.debuggerStatement P.debuggerStatement := by
  unfold P.debuggerStatement; lay

macro_rules | `(tactic| layleaf) => `(tactic| with_reducible exact lay_debuggerStatement )

theorem lay_identifierItem {r r' : Rec} (allowDecl : Bool) (hr : RecJ r r') :
    J (P.identifierItem r allowDecl) (P.identifierItem r' allowDecl) (P.identifierItem r' allowDecl) := by
  unfold P.identifierItem; lay

macro_rules | `(tactic| layleaf) => `(tactic| with_reducible exact lay_identifierItem _ ‹RecJ _ _›)

theorem lay_asItem {p1 p2 p3 : P Stmt} (h : J p1 p2 p3) :
    J (P.asItem p1) (P.asItem p2) (P.asItem p3) := by
  unfold P.asItem
  exact bind h fun _ _ ha => pure (congrArg Ast.siStmt ha)

macro_rules | `(tactic| laycomb) => `(tactic| with_reducible refine lay_asItem ?_)

theorem lay_stmtListItem {r r' : Rec} (allowDecl : Bool) (hr : RecJ r r') :
    J (P.stmtListItem r allowDecl) (P.stmtListItem r' allowDecl) (P.stmtListItem r' allowDecl) := by
  unfold P.stmtListItem; lay

macro_rules | `(tactic| layleaf) => `(tactic| with_reducible exact lay_stmtListItem _ ‹RecJ _ _›)



end Esprit
