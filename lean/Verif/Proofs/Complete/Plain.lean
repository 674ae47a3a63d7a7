import Verif.Spec.Exact
import Verif.Proofs.Parser.Locations
import Verif.Proofs.Cover

/-! What the grammar derives is derived by its plain part, if its labels are
distinct. -/

set_option linter.unusedSectionVars false
set_option linter.unusedVariables false

namespace Esprit

open Lex ReaderSpec Grammar

variable [Env] {S : Str} {c : Cat} {env : Scope} {nt : NT c} {inp rest i : List Token}
  {x : Ast c} {t : Token} {w : Place}

theorem Grammar.Ident.plain {b : Bool} {j : Id} (h : Ident env b t j) :
    Ident { env with plain := true } b t j := by
  cases h with
  | mk h1 h2 => exact .mk h1 h2

/-! ### Patterns without rest elements -/

theorem assignable_arr {l : Loc} {es : Ast (.list (.opt .item))} (h : Patt.Assignable (.eArr l es)) :
    (∀ e, Ast.some (.iExpr e) ∈ es.toList → Patt.Assignable e) ∧
    ∀ l e, Ast.some (.iSpread l e) ∈ es.toList → l = none := by
  generalize hx : (Ast.eArr l es : Expr) = y at h
  cases h with
  | id | dot | brack | obj => cases hx
  | arr h =>
    cases hx
    rw [Ast.toList_ofList]
    refine ⟨fun e he => ?_, fun l e he => ?_⟩ <;>
      (obtain ⟨o, h1, h2⟩ := List.mem_map.1 he; cases o <;> cases h2)
    exact h _ h1
  | arrRest h hr =>
    cases hx
    rw [Ast.toList_ofList]
    refine ⟨fun e he => ?_, fun l e he => ?_⟩ <;>
      rcases List.mem_append.1 he with he | he
    · obtain ⟨o, h1, h2⟩ := List.mem_map.1 he
      cases o <;> cases h2
      exact h _ h1
    · cases List.mem_singleton.1 he
    · obtain ⟨o, h1, h2⟩ := List.mem_map.1 he
      cases o <;> cases h2
    · cases List.mem_singleton.1 he; rfl

theorem assignable_obj {l : Loc} {ps : Ast (.list .prop)} (h : Patt.Assignable (.eObj l ps)) :
    ∀ l k e, Ast.prRegular l k (.vInit e) ∈ ps.toList → Patt.Assignable e := by
  generalize hx : (Ast.eObj l ps : Expr) = y at h
  cases h with
  | id | dot | brack | arr | arrRest => cases hx
  | obj h =>
    cases hx
    rw [Ast.toList_ofList]
    intro l k e he
    obtain ⟨o, h1, h2⟩ := List.mem_map.1 he
    rcases o with i | ⟨l', k', e'⟩ <;> cases h2
    exact h _ _ _ h1

/-- The expression is an assignment pattern with locations. -/
def Pattern (S : Str) (e : Expr) : Prop :=
  Patt.Assignable e ∧ ∀ w, All w ⟨.expr, e⟩ (LocOk S)

theorem Pattern.arr {l : Loc} {xs : List (Ast (.opt .item))} (h : Pattern S (.eArr l (.ofList xs))) :
    (∀ e, Ast.some (.iExpr e) ∈ xs → Pattern S e) ∧ ∀ l e, Ast.some (.iSpread l e) ∉ xs := by
  obtain ⟨h1, h2⟩ := assignable_arr h.1
  rw [Ast.toList_ofList] at h1 h2
  have h3 : ∀ w, ∀ y ∈ xs, All w ⟨_, y⟩ (LocOk S) := fun w => ((h.2 w).kid1 rfl).ofList
  refine ⟨fun e he => ⟨h1 e he, fun w => ?_⟩, fun l e he => ?_⟩
  · exact ((h3 w _ he).kid1 rfl).kid1 rfl
  · cases h2 l e he
    have := ((h3 .top _ he).kid1 rfl).root none (List.mem_cons_self ..)
    obtain ⟨_, _, h, _⟩ := this
    cases h

theorem Pattern.obj {l : Loc} {xs : List (Ast .prop)} (h : Pattern S (.eObj l (.ofList xs))) :
    ∀ l k e, Ast.prRegular l k (.vInit e) ∈ xs → Pattern S e := by
  have h1 := assignable_obj h.1
  rw [Ast.toList_ofList] at h1
  have h3 : ∀ w, ∀ y ∈ xs, All w ⟨_, y⟩ (LocOk S) := fun w => ((h.2 w).kid1 rfl).ofList
  exact fun l k e he => ⟨h1 l k e he, fun w => ((h3 w _ he).kid1 rfl).kid1 rfl⟩

mutual

theorem patt_free : (x : PattTarget) → Pattern S (Patt.sourceExpr x) → Patt.restFree x
  | .pSimple t, h => trivial
  | .pCompound p, h => comp_free p h
termination_by x => sizeOf x

theorem comp_free : (x : Ast (.comp .target)) → Pattern S (Patt.source x) → Patt.restFree x
  | .cArr l es .none, h => elems_free es fun e he =>
      h.arr.1 e (List.mem_append_left _ (List.mem_map.2 ⟨some e, he, rfl⟩))
  | .cArr l es (.some (.restPatt l' p)), h =>
      (h.arr.2 l' (Patt.sourceExpr p) (List.mem_append_right _ (List.mem_cons_self ..))).elim
  | .cObj l ps, h => props_free ps h.obj
termination_by x => sizeOf x

theorem elems_free : (x : Ast (.list (.opt (.patt .target)))) →
    (∀ e : Expr, some e ∈ srcElems x → Pattern S e) → Patt.restFree x
  | .nil, h => trivial
  | .cons .none xs, h => ⟨trivial, elems_free xs fun e he => h e (List.mem_cons_of_mem _ he)⟩
  | .cons (.some p) xs, h =>
    ⟨patt_free p (h _ (List.mem_cons_self ..)),
      elems_free xs fun e he => h e (List.mem_cons_of_mem _ he)⟩
termination_by x => sizeOf x

theorem props_free : (x : Ast (.list (.propPatt .target))) →
    (∀ l k (e : Expr), Ast.prRegular l k (.vInit e) ∈ srcProps x → Pattern S e) → Patt.restFree x
  | .nil, h => trivial
  | .cons (.ppRegular l k p) xs, h =>
    ⟨patt_free p (h l k _ (List.mem_cons_self ..)),
      props_free xs fun l k e he => h l k e (List.mem_cons_of_mem _ he)⟩
  | .cons (.ppShorthand i) xs, h =>
    ⟨trivial, props_free xs fun l k e he => h l k e (List.mem_cons_of_mem _ he)⟩
termination_by x => sizeOf x

end

theorem restFree_of {p : PattTarget} (h : Patt.Assignable (Patt.sourceExpr p))
    (hl : ∀ w, All w ⟨.expr, Patt.sourceExpr p⟩ (LocOk S)) : Patt.restFree p := patt_free p ⟨h, hl⟩

/-! ### Labels in patterns -/

theorem target_src {x : AssignTarget} (h : All w ⟨.target, x⟩ LabelOk) :
    All w ⟨.expr, Patt.sourceTarget x⟩ LabelOk := by
  have := h.kids
  cases x <;> exact All.mk trivial this

theorem All.mkList {d : Cat} {xs : List (Ast d)} (h : ∀ y ∈ xs, All w ⟨d, y⟩ LabelOk) :
    All w ⟨_, Ast.ofList xs⟩ LabelOk := by
  induction xs with
  | nil => exact All.mk trivial (by intro k hk; cases hk)
  | cons z zs ih =>
    refine All.mk trivial (kids2 (h z (List.mem_cons_self ..)) (ih fun y hy => h y (List.mem_cons_of_mem _ hy)))

mutual

theorem patt_src : (x : PattTarget) → All w ⟨_, x⟩ LabelOk →
    All w ⟨.expr, Patt.sourceExpr x⟩ LabelOk
  | .pSimple t, h => target_src (h.kid1 rfl)
  | .pCompound p, h => comp_src p (h.kid1 rfl)
termination_by x => sizeOf x

theorem comp_src : (x : Ast (.comp .target)) → All w ⟨_, x⟩ LabelOk →
    All w ⟨.expr, Patt.source x⟩ LabelOk
  | .cArr l es r, h => by
    refine All.mk trivial (kids1 (All.mkList fun y hy => ?_))
    rcases List.mem_append.1 hy with hy | hy
    · obtain ⟨o, h1, rfl⟩ := List.mem_map.1 hy
      cases o with
      | none => exact All.mk trivial (by intro k hk; cases hk)
      | some e =>
        exact All.mk trivial (kids1 (All.mk trivial (kids1
          (elems_src es (h.kids _ (.head _)) e h1))))
    · obtain ⟨o, h1, rfl⟩ := List.mem_map.1 hy
      exact All.mk trivial (kids1 (rest_src r (h.kids _ (.tail _ (.head _))) o (Option.mem_toList.1 h1)))
  | .cObj l ps, h => by
    exact All.mk trivial (kids1 (All.mkList (props_src ps (h.kid1 rfl))))
termination_by x => sizeOf x

theorem elems_src : (x : Ast (.list (.opt (.patt .target)))) → All w ⟨_, x⟩ LabelOk →
    ∀ e : Expr, some e ∈ srcElems x → All w ⟨.expr, e⟩ LabelOk
  | .nil, h => by intro e he; cases he
  | .cons .none xs, h => by
    intro e he
    rcases List.mem_cons.1 he with he | he
    · cases he
    · exact elems_src xs (h.kids _ (.tail _ (.head _))) e he
  | .cons (.some p) xs, h => by
    intro e he
    rcases List.mem_cons.1 he with he | he
    · cases he; exact patt_src p ((h.kids _ (.head _)).kid1 rfl)
    · exact elems_src xs (h.kids _ (.tail _ (.head _))) e he
termination_by x => sizeOf x

theorem rest_src : (x : Ast (.opt (.rest .target))) → All w ⟨_, x⟩ LabelOk →
    ∀ e : Ast .item, (Patt.source x : Option (Ast .item)) = some e → All w ⟨.item, e⟩ LabelOk
  | .none, h => by intro e he; cases he
  | .some (.restPatt l p), h => by
    intro e he
    cases he
    exact All.mk trivial (kids1 (patt_src p ((h.kid1 rfl).kid1 rfl)))
termination_by x => sizeOf x

theorem props_src : (x : Ast (.list (.propPatt .target))) → All w ⟨_, x⟩ LabelOk →
    ∀ e : Ast .prop, e ∈ srcProps x → All w ⟨.prop, e⟩ LabelOk
  | .nil, h => by intro e he; cases he
  | .cons (.ppRegular l k p) xs, h => by
    intro e he
    rcases List.mem_cons.1 he with he | he
    · subst he
      exact All.mk trivial (kids1 (All.mk trivial (kids1 (patt_src p ((h.kids _ (.head _)).kid1 rfl)))))
    · exact props_src xs (h.kids _ (.tail _ (.head _))) e he
  | .cons (.ppShorthand i) xs, h => by
    intro e he
    rcases List.mem_cons.1 he with he | he
    · subst he
      exact All.mk trivial (by intro k hk; cases hk)
    · exact props_src xs (h.kids _ (.tail _ (.head _))) e he
termination_by x => sizeOf x

end

/-! ### Derivations -/

/-- The labels of a part. -/
macro "pk1" : tactic => `(tactic| first
  | exact All.kids ‹All _ _ LabelOk› (_, ⟨_, _⟩) (.head _)
  | exact All.kids ‹All _ _ LabelOk› (_, ⟨_, _⟩) (.tail _ (.head _))
  | exact All.kids ‹All _ _ LabelOk› (_, ⟨_, _⟩) (.tail _ (.tail _ (.head _)))
  | exact All.kids ‹All _ _ LabelOk› (_, ⟨_, _⟩) (.tail _ (.tail _ (.tail _ (.head _)))))

macro "pk2" : tactic => `(tactic| first
  | exact All.kids (All.kids ‹All _ _ LabelOk› (_, ⟨_, _⟩) (.head _)) (_, ⟨_, _⟩) (.head _)
  | exact All.kids (All.kids ‹All _ _ LabelOk› (_, ⟨_, _⟩) (.head _)) (_, ⟨_, _⟩) (.tail _ (.head _))
  | exact All.kids (All.kids ‹All _ _ LabelOk› (_, ⟨_, _⟩) (.head _)) (_, ⟨_, _⟩) (.tail _ (.tail _ (.head _)))
  | exact All.kids (All.kids ‹All _ _ LabelOk› (_, ⟨_, _⟩) (.tail _ (.head _))) (_, ⟨_, _⟩) (.head _)
  | exact All.kids (All.kids ‹All _ _ LabelOk› (_, ⟨_, _⟩) (.tail _ (.tail _ (.head _)))) (_, ⟨_, _⟩) (.head _)
  | exact All.kids (All.kids (All.kids ‹All _ _ LabelOk› (_, ⟨_, _⟩) (.tail _ (.head _))) (_, ⟨_, _⟩) (.head _)) (_, ⟨_, _⟩) (.head _))

theorem labels_func {l l' : Loc} {n : Ast .id} {ps : Ast .params} {b : Ast (.body .sitem)} {g : Bool}
    (h : All w ⟨_, .dFun (.func l n ps b g)⟩ LabelOk) : All w ⟨_, .func l' n ps b g⟩ LabelOk :=
  All.mk trivial (h.kid1 rfl).kids

theorem labels_body {a : Cat} {l l' : Loc} {ds ds' : List Dir} {xs : Ast (.list a)}
    (h : All w ⟨_, .body l ds xs⟩ LabelOk) : All w ⟨_, .body l' ds' xs⟩ LabelOk :=
  All.mk trivial h.kids

theorem labels_params {l l' : Loc} {p : Ast (.patt .id)} {ps : Ast (.list (.patt .id))}
    {r : Ast (.opt (.rest .id))} (h : All w ⟨_, .params l (.cons p ps) r⟩ LabelOk) :
    All w ⟨_, .params l' ps r⟩ LabelOk :=
  All.mk trivial (kids2 ((h.kids _ (.head _)).kids _ (.tail _ (.head _))) (h.kids _ (.tail _ (.head _))))

theorem labels_params' {l l' : Loc} {ps : Ast (.list (.patt .id))}
    {r : Ast (.opt (.rest .id))} (h : All w ⟨_, .params l ps r⟩ LabelOk) :
    All w ⟨_, .params l' ps r⟩ LabelOk := All.mk trivial h.kids

macro "pk" : tactic => `(tactic| first
  | assumption
  | exact labels_func ‹_›
  | exact labels_body ‹_›
  | exact labels_params ‹_›
  | exact labels_params' ‹_›
  | pk1
  | pk2)

macro "psrc" : tactic => `(tactic| first
  | (refine patt_src _ ?_; pk1)
  | (refine target_src ?_; pk1))

/-- The claim about derivations. -/
def PlainOk (S : Str) (env : Scope) (nt : NT c) (inp rest : List Token) (x : Ast c) : Prop :=
  Ordered S inp → All env.place ⟨c, x⟩ LabelOk →
    Derives (Located S) { env with plain := true } nt inp rest x

theorem Grammar.Derives.plain (h : Derives (Located S) env nt inp rest x) : PlainOk S env nt inp rest x := by
  induction h
  case identifier h1 =>
    intro ho hl
    exact .identifier h1.plain
  case kNull h1 =>
    intro ho hl
    exact .kNull h1
  case kThis h1 =>
    intro ho hl
    exact .kThis h1
  case kTrue h1 =>
    intro ho hl
    exact .kTrue h1
  case kFalse h1 =>
    intro ho hl
    exact .kFalse h1
  case number h1 =>
    intro ho hl
    exact .number h1
  case string h1 =>
    intro ho hl
    exact .string h1
  case regExp h1 =>
    intro ho hl
    exact .regExp h1
  case array h1 h2 h3 ih1 =>
    intro ho hl
    exact .array h1 (ih1 (by ord) (by pk)) h3
  case object h1 h2 h3 ih1 =>
    intro ho hl
    exact .object h1 (ih1 (by ord) (by pk)) h3
  case function h1 ih1 =>
    intro ho hl
    exact .function (ih1 (by ord) (by pk))
  case paren h1 h2 h3 ih1 =>
    intro ho hl
    exact .paren h1 (ih1 (by ord) (by pk)) h3
  case elemsNil  =>
    intro ho hl
    exact .elemsNil
  case elemsLast h1 ih1 =>
    intro ho hl
    exact .elemsLast (ih1 (by ord) (by pk))
  case elemsCons h1 h2 h3 ih1 ih2 =>
    intro ho hl
    exact .elemsCons (ih1 (by ord) (by pk)) h2 (ih2 (by ord) (by pk))
  case elemsHole h1 h2 ih1 =>
    intro ho hl
    exact .elemsHole h1 (ih1 (by ord) (by pk))
  case argExpr h1 ih1 =>
    intro ho hl
    exact .argExpr (ih1 (by ord) (by pk))
  case argSpread h1 h2 h3 ih1 =>
    intro ho hl
    exact .argSpread h1 (ih1 (by ord) (by pk)) h3
  case propsNil  =>
    intro ho hl
    exact .propsNil
  case propsLast h1 ih1 =>
    intro ho hl
    exact .propsLast (ih1 (by ord) (by pk))
  case propsCons h1 h2 h3 ih1 ih2 =>
    intro ho hl
    exact .propsCons (ih1 (by ord) (by pk)) h2 (ih2 (by ord) (by pk))
  case propInit h1 h2 h3 ih1 =>
    intro ho hl
    exact .propInit h1 h2 (ih1 (by ord) (by pk))
  case propShorthand h1 h2 h3 =>
    intro ho hl
    exact .propShorthand h1 h2 h3
  case propMethod h1 h2 h3 ih1 ih2 =>
    intro ho hl
    exact .propMethod h1 (ih1 (by ord) (by pk)) (ih2 (by ord) (by pk))
  case propGenerator h1 h2 h3 h4 ih1 ih2 =>
    intro ho hl
    exact .propGenerator h1 h2 (ih1 (by ord) (by pk)) (ih2 (by ord) (by pk))
  case propGet h1 h2 h3 h4 h5 ih1 =>
    intro ho hl
    exact .propGet h1 h2 h3 h4 (ih1 (by ord) (by pk))
  case propSet h1 h2 h3 h4 h5 h6 ih1 ih2 =>
    intro ho hl
    exact .propSet h1 h2 h3 (ih1 (by ord) (by pk)) h5 (ih2 (by ord) (by pk))
  case name h1 =>
    intro ho hl
    exact .name h1.plain
  case nameNone  =>
    intro ho hl
    exact .nameNone
  case nameSome h1 ih1 =>
    intro ho hl
    exact .nameSome (ih1 (by ord) (by pk))
  case func h1 h2 h3 h4 h5 h6 ih1 ih2 ih3 =>
    intro ho hl
    exact .func h1 (ih1 (by ord) (by pk)) (ih2 (by ord) (by pk)) (ih3 (by ord) (by pk)) h5 h6
  case funcGenerator h1 h2 h3 h4 h5 h6 h7 ih1 ih2 ih3 =>
    intro ho hl
    exact .funcGenerator h1 h2 (ih1 (by ord) (by pk)) (ih2 (by ord) (by pk)) (ih3 (by ord) (by pk)) h6 h7
  case pattern h1 =>
    intro ho hl
    exact .pattern h1.plain
  case paramsNil  =>
    intro ho hl
    exact .paramsNil
  case paramsRest h1 h2 h3 ih1 =>
    intro ho hl
    exact .paramsRest h1 (ih1 (by ord) (by pk)) h3
  case paramsLast h1 ih1 =>
    intro ho hl
    exact .paramsLast (ih1 (by ord) (by pk))
  case paramsCons h1 h2 h3 ih1 ih2 =>
    intro ho hl
    exact .paramsCons (ih1 (by ord) (by pk)) h2 (ih2 (by ord) (by pk))
  case params h1 h2 h3 h4 ih1 =>
    intro ho hl
    exact .params h1 (ih1 (by ord) (by pk)) h3 h4
  case functionBody h1 h2 h3 h4 ih1 =>
    intro ho hl
    exact .functionBody h1 (ih1 (by ord) (by pk)) h3 h4
  case lhsPrimary h1 ih1 =>
    intro ho hl
    exact .lhsPrimary (ih1 (by ord) (by pk))
  case newTarget h1 h2 h3 =>
    intro ho hl
    exact .newTarget h1 h2 h3
  case dot h1 h2 h3 ih1 =>
    intro ho hl
    exact .dot (ih1 (by ord) (by pk)) h2 h3
  case brack h1 h2 h3 h4 ih1 ih2 =>
    intro ho hl
    exact .brack (ih1 (by ord) (by pk)) h2 (ih2 (by ord) (by pk)) h4
  case call h1 h2 h3 h4 ih1 ih2 =>
    intro ho hl
    exact .call (ih1 (by ord) (by pk)) h2 (ih2 (by ord) (by pk)) h4
  case lhsNew h1 ih1 =>
    intro ho hl
    exact .lhsNew (ih1 (by ord) (by pk))
  case newBaseMember h1 h2 ih1 =>
    intro ho hl
    exact .newBaseMember h1 (ih1 (by ord) (by pk))
  case newBaseArgs h1 ih1 =>
    intro ho hl
    exact .newBaseArgs (ih1 (by ord) (by pk))
  case newBaseNoArgs h1 ih1 =>
    intro ho hl
    exact .newBaseNoArgs (ih1 (by ord) (by pk))
  case newArgs h1 h2 h3 h4 h5 ih1 ih2 =>
    intro ho hl
    exact .newArgs h1 (ih1 (by ord) (by pk)) h3 (ih2 (by ord) (by pk)) h5
  case newNoArgs h1 h2 h3 ih1 =>
    intro ho hl
    exact .newNoArgs h1 (ih1 (by ord) (by pk)) h3
  case argListNil  =>
    intro ho hl
    exact .argListNil
  case argList h1 ih1 =>
    intro ho hl
    exact .argList (ih1 (by ord) (by pk))
  case argsLast h1 ih1 =>
    intro ho hl
    exact .argsLast (ih1 (by ord) (by pk))
  case argsCons h1 h2 h3 ih1 ih2 =>
    intro ho hl
    exact .argsCons (ih1 (by ord) (by pk)) h2 (ih2 (by ord) (by pk))
  case postfixNone h1 h2 h3 ih1 =>
    intro ho hl
    exact .postfixNone h1 h2 (ih1 (by ord) (by pk))
  case postInc h1 h2 h3 ih1 =>
    intro ho hl
    exact .postInc (ih1 (by ord) (by psrc)) h2 h3
  case postDec h1 h2 h3 ih1 =>
    intro ho hl
    exact .postDec (ih1 (by ord) (by psrc)) h2 h3
  case unaryPostfix h1 ih1 =>
    intro ho hl
    exact .unaryPostfix (ih1 (by ord) (by pk))
  case unop h1 h2 ih1 =>
    intro ho hl
    exact .unop h1 (ih1 (by ord) (by pk))
  case preInc h1 h2 ih1 =>
    intro ho hl
    exact .preInc h1 (ih1 (by ord) (by psrc))
  case preDec h1 h2 ih1 =>
    intro ho hl
    exact .preDec h1 (ih1 (by ord) (by psrc))
  case binaryUnary h1 ih1 =>
    intro ho hl
    exact .binaryUnary (ih1 (by ord) (by pk))
  case binaryUp h1 h2 ih1 =>
    intro ho hl
    exact .binaryUp h1 (ih1 (by ord) (by pk))
  case binop h1 h2 h3 ih1 ih2 =>
    intro ho hl
    exact .binop (ih1 (by ord) (by pk)) h2 (ih2 (by ord) (by pk))
  case logop h1 h2 h3 ih1 ih2 =>
    intro ho hl
    exact .logop (ih1 (by ord) (by pk)) h2 (ih2 (by ord) (by pk))
  case condNone h1 h2 h3 h4 ih1 =>
    intro ho hl
    exact .condNone h1 h2 h3 (ih1 (by ord) (by pk))
  case cond h1 h2 h3 h4 h5 ih1 ih2 ih3 =>
    intro ho hl
    exact .cond (ih1 (by ord) (by pk)) h2 (ih2 (by ord) (by pk)) h4 (ih3 (by ord) (by pk))
  case assignNone h1 h2 ih1 =>
    intro ho hl
    exact .assignNone h1 (ih1 (by ord) (by pk))
  case assign h1 h2 h3 h4 h5 ih1 ih2 =>
    intro ho hl
    exact .assign (fun _ => restFree_of h2 (h3.lclaim (by ord) |>.final rfl)) h2 (ih1 (by ord) (by psrc)) h4 (ih2 (by ord) (by pk))
  case binAssign h1 h2 h3 ih1 ih2 =>
    intro ho hl
    exact .binAssign (ih1 (by ord) (by psrc)) h2 (ih2 (by ord) (by pk))
  case exprsLast h1 h2 ih1 =>
    intro ho hl
    exact .exprsLast h1 (ih1 (by ord) (by pk))
  case exprsCons h1 h2 h3 ih1 ih2 =>
    intro ho hl
    exact .exprsCons (ih1 (by ord) (by pk)) h2 (ih2 (by ord) (by pk))
  case exprOne h1 h2 ih1 =>
    intro ho hl
    exact .exprOne h1 (ih1 (by ord) (by pk))
  case exprSeq h1 h2 ih1 =>
    intro ho hl
    exact .exprSeq (ih1 (by ord) (by pk)) h2
  case directive h1 h2 h3 h4 h5 ih1 =>
    intro ho hl
    exact .directive h1 h2 h3 h4 (ih1 (by ord) (by pk))
  case prologueEnd h1 h2 h3 ih1 =>
    intro ho hl
    exact .prologueEnd h1 h2 (ih1 (by ord) (by pk))
  case body h1 h2 ih1 =>
    intro ho hl
    exact .body (ih1 (by ord) (by pk)) h2
  case itemsNil h1 =>
    intro ho hl
    exact .itemsNil h1
  case itemsCons h1 h2 ih1 ih2 =>
    intro ho hl
    exact .itemsCons (ih1 (by ord) (by pk)) (ih2 (by ord) (by pk))
  case modItemsNil h1 =>
    intro ho hl
    exact .modItemsNil h1
  case modItemsCons h1 h2 ih1 ih2 =>
    intro ho hl
    exact .modItemsCons (ih1 (by ord) (by pk)) (ih2 (by ord) (by pk))
  case itemStmt h1 ih1 =>
    intro ho hl
    exact .itemStmt (ih1 (by ord) (by pk))
  case itemDecl h1 ih1 =>
    intro ho hl
    exact .itemDecl (ih1 (by ord) (by pk))
  case declFun h1 h2 ih1 =>
    intro ho hl
    exact .declFun (ih1 (by ord) (by pk)) h2
  case declLet h1 h2 h3 h4 ih1 =>
    intro ho hl
    exact .declLet h1 (ih1 (by ord) (by pk)) h3 h4
  case declConst h1 h2 h3 h4 ih1 =>
    intro ho hl
    exact .declConst h1 (ih1 (by ord) (by pk)) h3 h4
  case dtorNone h1 h2 h3 =>
    intro ho hl
    exact .dtorNone h1 h2.plain h3
  case dtorInit h1 h2 h3 h4 ih1 =>
    intro ho hl
    exact .dtorInit h1.plain h2 (ih1 (by ord) (by pk)) h4
  case dtorsLast h1 h2 ih1 =>
    intro ho hl
    exact .dtorsLast h1 (ih1 (by ord) (by pk))
  case dtorsCons h1 h2 h3 ih1 ih2 =>
    intro ho hl
    exact .dtorsCons (ih1 (by ord) (by pk)) h2 (ih2 (by ord) (by pk))
  case constDtor h1 h2 h3 ih1 ih2 =>
    intro ho hl
    exact .constDtor (ih1 (by ord) (by pk)) h2 (ih2 (by ord) (by pk))
  case constDtorsLast h1 h2 ih1 =>
    intro ho hl
    exact .constDtorsLast h1 (ih1 (by ord) (by pk))
  case constDtorsCons h1 h2 h3 ih1 ih2 =>
    intro ho hl
    exact .constDtorsCons (ih1 (by ord) (by pk)) h2 (ih2 (by ord) (by pk))
  case block h1 h2 h3 h4 ih1 =>
    intro ho hl
    exact .block h1 (ih1 (by ord) (by pk)) h3 h4
  case blockStmt h1 ih1 =>
    intro ho hl
    exact .blockStmt (ih1 (by ord) (by pk))
  case varStmt h1 h2 h3 h4 ih1 =>
    intro ho hl
    exact .varStmt h1 (ih1 (by ord) (by pk)) h3 h4
  case emptyStmt h1 h2 =>
    intro ho hl
    exact .emptyStmt h1 h2
  case exprStmt h1 h2 h3 h4 ih1 =>
    intro ho hl
    exact .exprStmt h1 (ih1 (by ord) (by pk)) h3 h4
  case ifStmt h1 h2 h3 h4 h5 h6 h7 ih1 ih2 =>
    intro ho hl
    exact .ifStmt h1 h2 (ih1 (by ord) (by pk)) h4 (ih2 (by ord) (by pk)) h6 h7
  case ifElseStmt h1 h2 h3 h4 h5 h6 h7 h8 ih1 ih2 ih3 =>
    intro ho hl
    exact .ifElseStmt h1 h2 (ih1 (by ord) (by pk)) h4 (ih2 (by ord) (by pk)) h6 (ih3 (by ord) (by pk)) h8
  case doStmt h1 h2 h3 h4 h5 h6 h7 h8 ih1 ih2 =>
    intro ho hl
    exact .doStmt h1 (ih1 (by ord) (by pk)) h3 h4 (ih2 (by ord) (by pk)) h6 h7 h8
  case whileStmt h1 h2 h3 h4 h5 h6 ih1 ih2 =>
    intro ho hl
    exact .whileStmt h1 h2 (ih1 (by ord) (by pk)) h4 (ih2 (by ord) (by pk)) h6
  case forStmt h1 h2 h3 h4 h5 h6 h7 h8 h9 ih1 ih2 ih3 ih4 =>
    intro ho hl
    exact .forStmt h1 h2 (ih1 (by ord) (by pk)) (ih2 (by ord) (by pk)) h5 (ih3 (by ord) (by pk)) h7 (ih4 (by ord) (by pk)) h9
  case forInStmt h1 h2 h3 h4 h5 h6 h7 h8 ih1 ih2 ih3 =>
    intro ho hl
    exact .forInStmt h1 h2 (ih1 (by ord) (by pk)) h4 (ih2 (by ord) (by pk)) h6 (ih3 (by ord) (by pk)) h8
  case forOfStmt h1 h2 h3 h4 h5 h6 h7 h8 ih1 ih2 ih3 =>
    intro ho hl
    exact .forOfStmt h1 h2 (ih1 (by ord) (by pk)) h4 (ih2 (by ord) (by pk)) h6 (ih3 (by ord) (by pk)) h8
  case exprOptNone  =>
    intro ho hl
    exact .exprOptNone
  case exprOptSome h1 ih1 =>
    intro ho hl
    exact .exprOptSome (ih1 (by ord) (by pk))
  case headDtorNone h1 =>
    intro ho hl
    exact .headDtorNone h1.plain
  case headDtorInit h1 h2 h3 ih1 =>
    intro ho hl
    exact .headDtorInit h1.plain h2 (ih1 (by ord) (by pk))
  case headDtorsLast h1 ih1 =>
    intro ho hl
    exact .headDtorsLast (ih1 (by ord) (by pk))
  case headDtorsCons h1 h2 h3 ih1 ih2 =>
    intro ho hl
    exact .headDtorsCons (ih1 (by ord) (by pk)) h2 (ih2 (by ord) (by pk))
  case forHeadNone h1 =>
    intro ho hl
    exact .forHeadNone h1
  case forHeadVar h1 h2 h3 ih1 =>
    intro ho hl
    exact .forHeadVar h1 (ih1 (by ord) (by pk)) h3
  case forHeadLet h1 h2 h3 ih1 =>
    intro ho hl
    exact .forHeadLet h1 (ih1 (by ord) (by pk)) h3
  case forHeadConst h1 h2 h3 ih1 =>
    intro ho hl
    exact .forHeadConst h1 (ih1 (by ord) (by pk)) h3
  case forHeadExpr h1 h2 h3 h4 ih1 =>
    intro ho hl
    exact .forHeadExpr h1 h2 (ih1 (by ord) (by pk)) h4
  case forInVarInit h1 h2 h3 h4 ih1 =>
    intro ho hl
    exact .forInVarInit h1 h2.plain h3 (ih1 (by ord) (by pk))
  case forInVar h1 h2 ih1 =>
    intro ho hl
    exact .forInVar h1 (ih1 (by ord) (by pk))
  case forInLet h1 h2 ih1 =>
    intro ho hl
    exact .forInLet h1 (ih1 (by ord) (by pk))
  case forInConst h1 h2 ih1 =>
    intro ho hl
    exact .forInConst h1 (ih1 (by ord) (by pk))
  case forInPatt h1 h2 h3 h4 h5 ih1 =>
    intro ho hl
    exact .forInPatt h1 (fun _ => restFree_of h3 (h5.lclaim (by ord) |>.final rfl)) h3 h4 (ih1 (by ord) (by psrc))
  case forOfVar h1 h2 ih1 =>
    intro ho hl
    exact .forOfVar h1 (ih1 (by ord) (by pk))
  case forOfLet h1 h2 ih1 =>
    intro ho hl
    exact .forOfLet h1 (ih1 (by ord) (by pk))
  case forOfConst h1 h2 ih1 =>
    intro ho hl
    exact .forOfConst h1 (ih1 (by ord) (by pk))
  case forOfPatt h1 h2 h3 h4 h5 ih1 =>
    intro ho hl
    exact .forOfPatt h1 (fun _ => restFree_of h3 (h5.lclaim (by ord) |>.final rfl)) h3 h4 (ih1 (by ord) (by psrc))
  case breakNone h1 h2 h3 h4 h5 =>
    intro ho hl
    exact .breakNone h1 h2 h3 h4 h5
  case breakLabel h1 h2 h3 h4 h5 h6 =>
    intro ho hl
    exact .breakLabel h1 h2 h3.plain h4 h5 h6
  case continueNone h1 h2 h3 h4 h5 =>
    intro ho hl
    exact .continueNone h1 h2 h3 h4 h5
  case continueLabel h1 h2 h3 h4 h5 h6 =>
    intro ho hl
    exact .continueLabel h1 h2 h3.plain h4 h5 h6
  case returnNone h1 h2 h3 h4 h5 =>
    intro ho hl
    exact .returnNone h1 h2 h3 h4 h5
  case returnExpr h1 h2 h3 h4 h5 h6 ih1 =>
    intro ho hl
    exact .returnExpr h1 h2 h3 (ih1 (by ord) (by pk)) h5 h6
  case throwStmt h1 h2 h3 h4 h5 ih1 =>
    intro ho hl
    exact .throwStmt h1 h2 (ih1 (by ord) (by pk)) h4 h5
  case withStmt h1 h2 h3 h4 h5 h6 h7 ih1 ih2 =>
    intro ho hl
    exact .withStmt h1 h2 h3 (ih1 (by ord) (by pk)) h5 (ih2 (by ord) (by pk)) h7
  case switchStmt h1 h2 h3 h4 h5 h6 h7 h8 h9 ih1 ih2 =>
    intro ho hl
    exact .switchStmt h1 h2 (ih1 (by ord) (by pk)) h4 h5 (ih2 (by ord) (by pk)) h7 h8 h9
  case casesNil  =>
    intro ho hl
    exact .casesNil
  case casesCons h1 h2 ih1 ih2 =>
    intro ho hl
    exact .casesCons (ih1 (by ord) (by pk)) (ih2 (by ord) (by pk))
  case case h1 h2 h3 h4 h5 ih1 ih2 =>
    intro ho hl
    exact .case h1 (ih1 (by ord) (by pk)) h3 (ih2 (by ord) (by pk)) h5
  case default h1 h2 h3 h4 ih1 =>
    intro ho hl
    exact .default h1 h2 (ih1 (by ord) (by pk)) h4
  case labelStmt h1 h2 h3 h4 ih1 =>
    intro ho hl
    exact .labelStmt (fun _ => hl.root) h2.plain h3 (ih1 (by ord) (by pk))
  case tryStmt h1 h2 h3 h4 h5 h6 ih1 ih2 ih3 =>
    intro ho hl
    exact .tryStmt h1 (ih1 (by ord) (by pk)) (ih2 (by ord) (by pk)) (ih3 (by ord) (by pk)) h5 h6
  case catchNone  =>
    intro ho hl
    exact .catchNone
  case catchSome h1 h2 h3 h4 h5 h6 ih1 ih2 =>
    intro ho hl
    exact .catchSome h1 h2 (ih1 (by ord) (by pk)) h4 (ih2 (by ord) (by pk)) h6
  case finallyNone h1 =>
    intro ho hl
    exact .finallyNone h1
  case finallySome h1 h2 ih1 =>
    intro ho hl
    exact .finallySome h1 (ih1 (by ord) (by pk))
  case debuggerStmt h1 h2 h3 =>
    intro ho hl
    exact .debuggerStmt h1 h2 h3

end Esprit
