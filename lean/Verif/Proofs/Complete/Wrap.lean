import Verif.Spec.Wrap
import Verif.Proofs.Complete.JoinText

/-!
Putting a program into braces: what is derived from its tokens up to the end of the source is
derived from them up to `}`, and what is derived outside a function is derived inside it.
-/

set_option linter.unusedSectionVars false
set_option linter.unusedVariables false

namespace Esprit

open Lex ReaderSpec Grammar

/-- The same surroundings, but in a function. -/
def Scope.inFunction (env : Scope) : Scope := { env with function := true }

namespace Wrap

theorem ident {env : Scope} {b : Bool} {t : Token} {i : Id} (h : Ident env b t i) :
    Ident env.inFunction b t i := by
  cases h with
  | mk h1 h2 => exact .mk h1 h2

/-- What is derived outside a function is also derived inside it. -/
theorem inFunction {L : LocSpec} {c : Cat} {env : Scope} {nt : NT c}
    {inp rest : List Token} {x : Ast c} (h : Derives L env nt inp rest x) :
    Derives L env.inFunction nt inp rest x := by
  induction h
  case identifier h1 => exact .identifier (ident h1)
  case kNull h1 => exact .kNull h1
  case kThis h1 => exact .kThis h1
  case kTrue h1 => exact .kTrue h1
  case kFalse h1 => exact .kFalse h1
  case number h1 => exact .number h1
  case string h1 => exact .string h1
  case regExp h1 => exact .regExp h1
  case array h1 h2 h3 ih1 => exact .array h1 ih1 h3
  case object h1 h2 h3 ih1 => exact .object h1 ih1 h3
  case function h1 ih1 => exact .function ih1
  case paren h1 h2 h3 ih1 => exact .paren h1 ih1 h3
  case elemsNil => exact .elemsNil
  case elemsLast h1 ih1 => exact .elemsLast ih1
  case elemsCons h1 h2 h3 ih1 ih2 => exact .elemsCons ih1 h2 ih2
  case elemsHole h1 h2 ih1 => exact .elemsHole h1 ih1
  case argExpr h1 ih1 => exact .argExpr ih1
  case argSpread h1 h2 h3 ih1 => exact .argSpread h1 ih1 h3
  case propsNil => exact .propsNil
  case propsLast h1 ih1 => exact .propsLast ih1
  case propsCons h1 h2 h3 ih1 ih2 => exact .propsCons ih1 h2 ih2
  case propInit h1 h2 h3 ih1 => exact .propInit h1 h2 ih1
  case propShorthand h1 h2 h3 => exact .propShorthand h1 h2 h3
  case propMethod h1 h2 h3 ih1 ih2 => exact .propMethod h1 ih1 ih2
  case propGenerator h1 h2 h3 h4 ih1 ih2 => exact .propGenerator h1 h2 ih1 ih2
  case propGet h1 h2 h3 h4 h5 ih1 => exact .propGet h1 h2 h3 h4 ih1
  case propSet h1 h2 h3 h4 h5 h6 ih1 ih2 => exact .propSet h1 h2 h3 ih1 h5 ih2
  case name h1 => exact .name (ident h1)
  case nameNone => exact .nameNone
  case nameSome h1 ih1 => exact .nameSome ih1
  case func h1 h2 h3 h4 h5 h6 ih1 ih2 ih3 => exact .func h1 ih1 ih2 ih3 h5 h6
  case funcGenerator h1 h2 h3 h4 h5 h6 h7 ih1 ih2 ih3 => exact .funcGenerator h1 h2 ih1 ih2 ih3 h6 h7
  case pattern h1 => exact .pattern (ident h1)
  case paramsNil => exact .paramsNil
  case paramsRest h1 h2 h3 ih1 => exact .paramsRest h1 ih1 h3
  case paramsLast h1 ih1 => exact .paramsLast ih1
  case paramsCons h1 h2 h3 ih1 ih2 => exact .paramsCons ih1 h2 ih2
  case params h1 h2 h3 h4 ih1 => exact .params h1 ih1 h3 h4
  case functionBody h1 h2 h3 h4 ih1 => exact .functionBody h1 ih1 h3 h4
  case lhsPrimary h1 ih1 => exact .lhsPrimary ih1
  case newTarget h1 h2 h3 => exact .newTarget h1 h2 h3
  case dot h1 h2 h3 ih1 => exact .dot ih1 h2 h3
  case brack h1 h2 h3 h4 ih1 ih2 => exact .brack ih1 h2 ih2 h4
  case call h1 h2 h3 h4 ih1 ih2 => exact .call ih1 h2 ih2 h4
  case lhsNew h1 ih1 => exact .lhsNew ih1
  case newBaseMember h1 h2 ih1 => exact .newBaseMember h1 ih1
  case newBaseArgs h1 ih1 => exact .newBaseArgs ih1
  case newBaseNoArgs h1 ih1 => exact .newBaseNoArgs ih1
  case newArgs h1 h2 h3 h4 h5 ih1 ih2 => exact .newArgs h1 ih1 h3 ih2 h5
  case newNoArgs h1 h2 h3 ih1 => exact .newNoArgs h1 ih1 h3
  case argListNil => exact .argListNil
  case argList h1 ih1 => exact .argList ih1
  case argsLast h1 ih1 => exact .argsLast ih1
  case argsCons h1 h2 h3 ih1 ih2 => exact .argsCons ih1 h2 ih2
  case postfixNone h1 h2 h3 ih1 => exact .postfixNone h1 h2 ih1
  case postInc h1 h2 h3 ih1 => exact .postInc ih1 h2 h3
  case postDec h1 h2 h3 ih1 => exact .postDec ih1 h2 h3
  case unaryPostfix h1 ih1 => exact .unaryPostfix ih1
  case unop h1 h2 ih1 => exact .unop h1 ih1
  case preInc h1 h2 ih1 => exact .preInc h1 ih1
  case preDec h1 h2 ih1 => exact .preDec h1 ih1
  case binaryUnary h1 ih1 => exact .binaryUnary ih1
  case binaryUp h1 h2 ih1 => exact .binaryUp h1 ih1
  case binop h1 h2 h3 ih1 ih2 => exact .binop ih1 h2 ih2
  case logop h1 h2 h3 ih1 ih2 => exact .logop ih1 h2 ih2
  case condNone h1 h2 h3 h4 ih1 => exact .condNone h1 h2 h3 ih1
  case cond h1 h2 h3 h4 h5 ih1 ih2 ih3 => exact .cond ih1 h2 ih2 h4 ih3
  case assignNone h1 h2 ih1 => exact .assignNone h1 ih1
  case assign h1 h2 h3 h4 h5 ih1 ih2 => exact .assign h1 h2 ih1 h4 ih2
  case binAssign h1 h2 h3 ih1 ih2 => exact .binAssign ih1 h2 ih2
  case exprsLast h1 h2 ih1 => exact .exprsLast h1 ih1
  case exprsCons h1 h2 h3 ih1 ih2 => exact .exprsCons ih1 h2 ih2
  case exprOne h1 h2 ih1 => exact .exprOne h1 ih1
  case exprSeq h1 h2 ih1 => exact .exprSeq ih1 h2
  case directive h1 h2 h3 h4 h5 ih1 => exact .directive h1 h2 h3 h4 ih1
  case prologueEnd h1 h2 h3 ih1 => exact .prologueEnd h1 h2 ih1
  case body h1 h2 ih1 => exact .body ih1 h2
  case itemsNil h1 => exact .itemsNil h1
  case itemsCons h1 h2 ih1 ih2 => exact .itemsCons ih1 ih2
  case modItemsNil h1 => exact .modItemsNil h1
  case modItemsCons h1 h2 ih1 ih2 => exact .modItemsCons ih1 ih2
  case itemStmt h1 ih1 => exact .itemStmt ih1
  case itemDecl h1 ih1 => exact .itemDecl ih1
  case declFun h1 h2 ih1 => exact .declFun ih1 h2
  case declLet h1 h2 h3 h4 ih1 => exact .declLet h1 ih1 h3 h4
  case declConst h1 h2 h3 h4 ih1 => exact .declConst h1 ih1 h3 h4
  case dtorNone h1 h2 h3 => exact .dtorNone h1 (ident h2) h3
  case dtorInit h1 h2 h3 h4 ih1 => exact .dtorInit (ident h1) h2 ih1 h4
  case dtorsLast h1 h2 ih1 => exact .dtorsLast h1 ih1
  case dtorsCons h1 h2 h3 ih1 ih2 => exact .dtorsCons ih1 h2 ih2
  case constDtor h1 h2 h3 ih1 ih2 => exact .constDtor ih1 h2 ih2
  case constDtorsLast h1 h2 ih1 => exact .constDtorsLast h1 ih1
  case constDtorsCons h1 h2 h3 ih1 ih2 => exact .constDtorsCons ih1 h2 ih2
  case block h1 h2 h3 h4 ih1 => exact .block h1 ih1 h3 h4
  case blockStmt h1 ih1 => exact .blockStmt ih1
  case varStmt h1 h2 h3 h4 ih1 => exact .varStmt h1 ih1 h3 h4
  case emptyStmt h1 h2 => exact .emptyStmt h1 h2
  case exprStmt h1 h2 h3 h4 ih1 => exact .exprStmt h1 ih1 h3 h4
  case ifStmt h1 h2 h3 h4 h5 h6 h7 ih1 ih2 => exact .ifStmt h1 h2 ih1 h4 ih2 h6 h7
  case ifElseStmt h1 h2 h3 h4 h5 h6 h7 h8 ih1 ih2 ih3 => exact .ifElseStmt h1 h2 ih1 h4 ih2 h6 ih3 h8
  case doStmt h1 h2 h3 h4 h5 h6 h7 h8 ih1 ih2 => exact .doStmt h1 ih1 h3 h4 ih2 h6 h7 h8
  case whileStmt h1 h2 h3 h4 h5 h6 ih1 ih2 => exact .whileStmt h1 h2 ih1 h4 ih2 h6
  case forStmt h1 h2 h3 h4 h5 h6 h7 h8 h9 ih1 ih2 ih3 ih4 => exact .forStmt h1 h2 ih1 ih2 h5 ih3 h7 ih4 h9
  case forInStmt h1 h2 h3 h4 h5 h6 h7 h8 ih1 ih2 ih3 => exact .forInStmt h1 h2 ih1 h4 ih2 h6 ih3 h8
  case forOfStmt h1 h2 h3 h4 h5 h6 h7 h8 ih1 ih2 ih3 => exact .forOfStmt h1 h2 ih1 h4 ih2 h6 ih3 h8
  case exprOptNone => exact .exprOptNone
  case exprOptSome h1 ih1 => exact .exprOptSome ih1
  case headDtorNone h1 => exact .headDtorNone (ident h1)
  case headDtorInit h1 h2 h3 ih1 => exact .headDtorInit (ident h1) h2 ih1
  case headDtorsLast h1 ih1 => exact .headDtorsLast ih1
  case headDtorsCons h1 h2 h3 ih1 ih2 => exact .headDtorsCons ih1 h2 ih2
  case forHeadNone h1 => exact .forHeadNone h1
  case forHeadVar h1 h2 h3 ih1 => exact .forHeadVar h1 ih1 h3
  case forHeadLet h1 h2 h3 ih1 => exact .forHeadLet h1 ih1 h3
  case forHeadConst h1 h2 h3 ih1 => exact .forHeadConst h1 ih1 h3
  case forHeadExpr h1 h2 h3 h4 ih1 => exact .forHeadExpr h1 h2 ih1 h4
  case forInVarInit h1 h2 h3 h4 ih1 => exact .forInVarInit h1 (ident h2) h3 ih1
  case forInVar h1 h2 ih1 => exact .forInVar h1 ih1
  case forInLet h1 h2 ih1 => exact .forInLet h1 ih1
  case forInConst h1 h2 ih1 => exact .forInConst h1 ih1
  case forInPatt h1 h2 h3 h4 h5 ih1 => exact .forInPatt h1 h2 h3 h4 ih1
  case forOfVar h1 h2 ih1 => exact .forOfVar h1 ih1
  case forOfLet h1 h2 ih1 => exact .forOfLet h1 ih1
  case forOfConst h1 h2 ih1 => exact .forOfConst h1 ih1
  case forOfPatt h1 h2 h3 h4 h5 ih1 => exact .forOfPatt h1 h2 h3 h4 ih1
  case breakNone h1 h2 h3 h4 h5 => exact .breakNone h1 h2 h3 h4 h5
  case breakLabel h1 h2 h3 h4 h5 h6 => exact .breakLabel h1 h2 (ident h3) h4 h5 h6
  case continueNone h1 h2 h3 h4 h5 => exact .continueNone h1 h2 h3 h4 h5
  case continueLabel h1 h2 h3 h4 h5 h6 => exact .continueLabel h1 h2 (ident h3) h4 h5 h6
  case returnNone h1 h2 h3 h4 h5 => exact .returnNone h1 h2 rfl h4 h5
  case returnExpr h1 h2 h3 h4 h5 h6 ih1 => exact .returnExpr h1 h2 rfl ih1 h5 h6
  case throwStmt h1 h2 h3 h4 h5 ih1 => exact .throwStmt h1 h2 ih1 h4 h5
  case withStmt h1 h2 h3 h4 h5 h6 h7 ih1 ih2 => exact .withStmt h1 h2 h3 ih1 h5 ih2 h7
  case switchStmt h1 h2 h3 h4 h5 h6 h7 h8 h9 ih1 ih2 => exact .switchStmt h1 h2 ih1 h4 h5 ih2 h7 h8 h9
  case casesNil => exact .casesNil
  case casesCons h1 h2 ih1 ih2 => exact .casesCons ih1 ih2
  case case h1 h2 h3 h4 h5 ih1 ih2 => exact .case h1 ih1 h3 ih2 h5
  case default h1 h2 h3 h4 ih1 => exact .default h1 h2 ih1 h4
  case labelStmt h1 h2 h3 h4 ih1 => exact .labelStmt h1 (ident h2) h3 ih1
  case tryStmt h1 h2 h3 h4 h5 h6 ih1 ih2 ih3 => exact .tryStmt h1 ih1 ih2 ih3 h5 h6
  case catchNone => exact .catchNone
  case catchSome h1 h2 h3 h4 h5 h6 ih1 ih2 => exact .catchSome h1 h2 ih1 h4 ih2 h6
  case finallyNone h1 => exact .finallyNone h1
  case finallySome h1 h2 ih1 => exact .finallySome h1 ih1
  case debuggerStmt h1 h2 h3 => exact .debuggerStmt h1 h2 h3

section Called

variable {env : Scope} {t : Token} {r inp rest : List Token} {e : Ast .expr}

/-- An expression that ends before `)`, or at the end of the source. -/
theorem up (hv : t.value = .rParen ∨ t.value = .eof)
    (h : Derives Join.anyLoc env (.lhs true) inp (t :: r) e) :
    Derives Join.anyLoc env .expr inp (t :: r) e := by
  have hne : ∀ v, v ≠ .rParen → v ≠ .eof → t.value ≠ v := by
    rintro v h1 h2 rfl
    rcases hv with h | h
    · exact h1 h
    · exact h2 h
  have hnot : ∀ v, v ≠ .rParen → v ≠ .eof → NextIsNot (t :: r) v := fun v h1 h2 =>
    ⟨t, r, rfl, hne v h1 h2⟩
  have hsym : ∀ s, IsSymbol s t.value → s = c!")" := by
    intro s hs
    have key : ∀ p ∈ punctuators ++ reservedWords.map fun p => (p.1, .reserved p.2),
        p.2 = .rParen ∨ p.2 = .eof → p.1 = c!")" := by decide +kernel
    exact key _ hs hv
  have hb : ∀ tag : BinopTag, tag.display ≠ c!")" := by intro tag; cases tag <;> decide
  have hl : ∀ tag : LogopTag, tag.display ≠ c!")" := by intro tag; cases tag <;> decide
  have ha : ∀ tag : AssopTag, tag.display ≠ c!")" := by intro tag; cases tag <;> decide
  have h1 : Derives Join.anyLoc env .unary inp (t :: r) e :=
    .unaryPostfix (.postfixNone ⟨t, r, rfl, by
        rcases hv with h | h <;> rw [h] <;> decide⟩
      ⟨t, r, rfl, fun h => by rcases hv with h1 | h1 <;> rw [h1] at h <;> rcases h with h | h <;> cases h⟩ h)
  have h2 : Derives Join.anyLoc env (.binary 10) inp (t :: r) e := .binaryUnary h1
  have h3 : ∀ k, k ≤ 10 → Derives Join.anyLoc env (.binary (10 - k)) inp (t :: r) e := by
    intro k
    induction k with
    | zero => exact fun _ => h2
    | succ k ih =>
      intro hk
      refine .binaryUp (by omega) ?_
      rw [show 10 - (k + 1) + 1 = 10 - k by omega]
      exact ih (by omega)
  refine .exprOne (hnot _ nofun nofun) (.assignNone ⟨t, r, rfl, hne _ nofun nofun, fun op ho => ?_⟩
    (.condNone ?_ ⟨t, r, rfl, fun op ho => ?_, fun op ho => ?_⟩ (hnot _ nofun nofun) (h3 10 (by omega))))
  · exact ha _ (hsym _ ho.2)
  · intro u r' hu x
    cases hu
    exact hne _ nofun nofun
  · exact hb _ (hsym _ ho.2.1)
  · exact hl _ (hsym _ ho.2)

/-- The parameters. -/
theorem params (hs : env.strict = false) (hm : env.module = false) : ∀ (names : List Name)
    {ts : List Token}, ts.map Token.value = commaNames names → ∃ ps,
      Derives Join.anyLoc env .paramItems (ts ++ rest) rest (.params none ps .none) ∧
      Ast.Similar ps (Ast.ofList (names.map fun n => .pSimple (.ident ⟨none, n⟩)))
  | [], ts, h => by
    cases ts with
    | nil => exact ⟨_, .paramsNil, .nil⟩
    | cons => cases h
  | [n], ts, h => by
    obtain ⟨t, ts1, rfl, h1, h2⟩ := List.map_eq_cons_iff.1 h
    cases List.map_eq_nil_iff.1 h2
    exact ⟨_, .paramsLast (.pattern (.mk h1 ⟨by rw [hs]; nofun, by rw [hm]; nofun⟩)),
      .cons (.pSimple (.ident rfl)) .nil⟩
  | n :: m :: ns, ts, h => by
    obtain ⟨t, ts1, rfl, h1, h2⟩ := List.map_eq_cons_iff.1 h
    obtain ⟨u, ts2, rfl, h3, h4⟩ := List.map_eq_cons_iff.1 h2
    obtain ⟨ps, h5, h6⟩ := params hs hm (m :: ns) h4
    exact ⟨_, .paramsCons (.pattern (.mk h1 ⟨by rw [hs]; nofun, by rw [hm]; nofun⟩)) h3 h5,
      .cons (.pSimple (.ident rfl)) h6⟩

/-- The program that consists of a call of the function with the given body. -/
theorem called (hs : env.strict = false) (hm : env.module = false) (hin : env.allowIn = true)
    (hit : env.iteration = false) (hsw : env.switch = false) (hla : env.labels = [])
    {names : List Name} {as bs j : List Token} {ds : List Dir} {xs : Ast (.list .sitem)}
    (ha : as.map Token.value = opensFunction names) (hb : bs.map Token.value = closesFunction ++ [.eof])
    {l : Loc} (h : Derives Join.anyLoc env (.body .items) j bs (.body l ds xs)) :
    ∃ y rest, Derives Join.anyLoc env (.body .items) (as ++ j) rest y ∧ NextIs rest .eof ∧
      Ast.Similar y (.body none []
        (Ast.ofList [.siStmt (calledFunction names (.body none ds xs))])) := by
  obtain ⟨b1, bs, rfl, hb1, hb⟩ := List.map_eq_cons_iff.1 hb
  obtain ⟨b2, bs, rfl, hb2, hb⟩ := List.map_eq_cons_iff.1 hb
  obtain ⟨b3, bs, rfl, hb3, hb⟩ := List.map_eq_cons_iff.1 hb
  obtain ⟨b4, bs, rfl, hb4, hb⟩ := List.map_eq_cons_iff.1 hb
  obtain ⟨b5, bs, rfl, hb5, hb⟩ := List.map_eq_cons_iff.1 hb
  cases List.map_eq_nil_iff.1 hb
  obtain ⟨a1, as, rfl, ha1, ha⟩ := List.map_eq_cons_iff.1 ha
  obtain ⟨a2, as, rfl, ha2, ha⟩ := List.map_eq_cons_iff.1 ha
  obtain ⟨a3, as, rfl, ha3, ha⟩ := List.map_eq_cons_iff.1 ha
  obtain ⟨ns, es, rfl, hns, ha⟩ := List.map_eq_append_iff.1 ha
  obtain ⟨a4, es, rfl, ha4, ha⟩ := List.map_eq_cons_iff.1 ha
  obtain ⟨a5, es, rfl, ha5, ha⟩ := List.map_eq_cons_iff.1 ha
  cases List.map_eq_nil_iff.1 ha
  have hw : env.withIn true = env := by cases env; cases hin; rfl
  have hf : env.functionBody = env.inFunction := by
    cases env; cases hin; cases hit; cases hsw; cases hla; rfl
  obtain ⟨ps, hps, hsim⟩ := params (rest := a4 :: a5 :: (j : List Token)) hs hm names hns
  have hbody : Derives Join.anyLoc env.functionBody .functionBody (a5 :: j)
      (b2 :: b3 :: b4 :: b5 :: []) (.body none ds xs) := by
    rw [hf]
    cases h with
    | body h1 _ => exact .functionBody ha5 (.body (inFunction h1) trivial) hb1 nofun
  have hparams : Derives Join.anyLoc env .params (a3 :: (ns ++ a4 :: a5 :: j)) (a5 :: j)
      (.params none ps .none) := .params ha3 hps ha4 trivial
  have hfun : Derives Join.anyLoc env (.func .nameOpt) (a2 :: a3 :: (ns ++ a4 :: a5 :: j))
      (b2 :: b3 :: b4 :: b5 :: []) (.func none .none (.params none ps .none) (.body none ds xs) false) :=
    .func ha2 .nameNone hparams hbody trivial nofun
  have hparen : Derives Join.anyLoc env .primary (a1 :: a2 :: a3 :: (ns ++ a4 :: a5 :: j))
      (b3 :: b4 :: b5 :: []) (.eFun (.func none .none (.params none ps .none) (.body none ds xs) false)) :=
    .paren ha1 (by rw [hw]; exact up (.inl hb2) (.lhsPrimary (.function hfun))) hb2
  have hcall := Derives.call (.lhsPrimary hparen) hb3 .argListNil hb4
  have hstart : ExprStmtStart (a1 :: a2 :: a3 :: (ns ++ a4 :: a5 :: j)) := by
    refine ⟨_, _, rfl, by rw [ha1]; decide, ?_⟩
    rintro ⟨n, hn⟩
    rw [ha1] at hn
    cases hn
  have hstmt := Derives.exprStmt (L := Join.anyLoc) (env := env) (l := none) hstart
    (by rw [hw]; exact up (.inr hb5) hcall) (.inserted (by rw [hb5]; nofun) (.inr (.inl hb5))) trivial
  have hitems : Derives Join.anyLoc env .items _ (b5 :: []) _ :=
    .itemsCons (.itemStmt hstmt) (.itemsNil (by rw [hb5]; decide))
  have hd : ¬ StartsDirective (a1 :: a2 :: a3 :: (ns ++ a4 :: a5 :: j)) := by
    rintro ⟨t, t2, r, s, h1, h2, _⟩
    cases h1
    rw [ha1] at h2
    cases h2
  have hd2 : ∀ t r s, a1 :: a2 :: a3 :: (ns ++ a4 :: a5 :: j) = t :: r → t.value = .string s →
      NoDivision r := by
    intro t r s h1 h2
    cases h1
    rw [ha1] at h2
    cases h2
  have hall := Derives.body (l := none) (.prologueEnd hd hd2 hitems) trivial
  refine ⟨_, [b5], by simpa using hall, ⟨b5, [], rfl, hb5⟩, ?_⟩
  exact .body rfl (.cons (.siStmt (.sExpr (.eCall (.eFun (.func .none (.params hsim .none)
    ((Ast.untrack_eq_iff _ _).1 rfl))) .nil))) .nil)

/-- The program that consists of the block of the given statements. -/
theorem blocked {a : Token} {bs j : List Token} {xs : Ast (.list .sitem)}
    (ha : a.value = .lBrace) (hb : bs.map Token.value = [.rBrace, .eof])
    {l : Loc} (h : Derives Join.anyLoc env (.body .items) j bs (.body l [] xs)) :
    ∃ y rest, Derives Join.anyLoc env (.body .items) (a :: j) rest y ∧ NextIs rest .eof ∧
      Ast.Similar y (.body none [] (Ast.ofList [.siStmt (.sBlock (.block none xs))])) := by
  obtain ⟨b1, bs, rfl, hb1, hb⟩ := List.map_eq_cons_iff.1 hb
  obtain ⟨b2, bs, rfl, hb2, hb⟩ := List.map_eq_cons_iff.1 hb
  cases List.map_eq_nil_iff.1 hb
  have hx : Derives Join.anyLoc env .items j (b1 :: b2 :: []) xs := by
    cases h with
    | body h1 _ => cases h1 with | prologueEnd _ _ h => exact h
  have hstmt := Derives.blockStmt (Derives.block (l := none) ha hx hb1 trivial)
  have hitems : Derives Join.anyLoc env .items _ (b2 :: []) _ :=
    .itemsCons (.itemStmt hstmt) (.itemsNil (by rw [hb2]; decide))
  have hd : ¬ StartsDirective (a :: j) := by
    rintro ⟨t, t2, r, s, h1, h2, _⟩
    cases h1
    rw [ha] at h2
    cases h2
  have hd2 : ∀ t r s, a :: j = t :: r → t.value = .string s → NoDivision r := by
    intro t r s h1 h2
    cases h1
    rw [ha] at h2
    cases h2
  have hall := Derives.body (l := none) (.prologueEnd hd hd2 hitems) trivial
  exact ⟨_, [b2], hall, ⟨b2, [], rfl, hb2⟩, (Ast.untrack_eq_iff _ _).1 rfl⟩

end Called

section Text

variable [Env] {s1 s2 : Str}

/-- The tokens of a text with blanks before it. -/
theorem tokens_blank (s1 : Str) {op : Bool} {ops : List Bool} {ts : List Token} {k : Nat}
    (h : Tokens ('\n' :: s2) 0 true (op :: ops) ts k) :
    ∃ ts' k', Tokens (s1.map Join.blank ++ '\n' :: s2) 0 true (op :: ops) ts' k' ∧
      ts'.map flags = ts.map flags := by
  have hl := h.lexes
  rw [List.drop_zero] at hl
  generalize hf : ts.map flags = fs at hl
  generalize hz : List.drop k _ = z at hl
  generalize hr : '\n' :: s2 = r at hl
  cases hl with
  | @cons _ e' _ _ w x y _ v vs h1 h2 h3 h4 =>
    have hb : ∀ d ∈ s1.map Join.blank, d ∈ whiteSpace ∨ d ∈ lineTerminators := by
      intro d hd
      obtain ⟨c, _, rfl⟩ := List.mem_map.1 hd
      exact Join.blank_space c
    obtain ⟨w', rfl, hw'⟩ := Join.blank_split (b := []) (by simp) (by decide) hr h2
    have h5 : Lexes true (op :: ops) (s1.map Join.blank ++ '\n' :: w' ++ (x ++ y))
        ((hasNewline (s1.map Join.blank ++ '\n' :: w'), v) :: vs) z :=
      .cons (Join.blank_trivia (Join.trivia_blank (b := []) (by simp) h1) hb) h2 h3 h4
    obtain ⟨ts', k', a1, a2, _⟩ := h5.tokens (s := s1.map Join.blank ++ '\n' :: s2) (k := 0)
      (Nat.zero_le _) (by rw [List.drop_zero, hw', List.append_assoc]; rfl)
    refine ⟨ts', k', by rw [← hr]; exact a1, ?_⟩
    rw [a2, Join.hasNewline_append, Join.hasNewline_append []]

end Text

end Wrap

end Esprit
