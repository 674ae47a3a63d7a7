import Verif.Spec.Prologue
import Verif.Proofs.Parser.First
import Verif.Props.Tree

/-! C58: directive prologues of parsed bodies. -/

set_option linter.unusedSectionVars false

namespace Esprit

open Lex ReaderSpec Grammar

section Theorems

variable [Env] [LawfulEnv] {s S : Str} {st mo : Bool} {tree : Node} {v : Place}

/-- What cannot follow an expression statement. -/
def NoMore (env : Scope) : {c : Cat} → NT c → List Token → Prop
  | _, .expr, r => NextIsNot r .comma ∧ NoAssign r ∧ NoInfix env r ∧ NextIsNot r .question ∧
      NextNotIn r [.dot, .lBrack, .lParen] ∧ NoPostfix r
  | _, .assign, r => NoAssign r ∧ NoInfix env r ∧ NextIsNot r .question ∧
      NextNotIn r [.dot, .lBrack, .lParen] ∧ NoPostfix r
  | _, .cond, r => NoInfix env r ∧ NextIsNot r .question ∧
      NextNotIn r [.dot, .lBrack, .lParen] ∧ NoPostfix r
  | _, .binary _, r | _, .unary, r | _, .postfix, r =>
      NextNotIn r [.dot, .lBrack, .lParen] ∧ NoPostfix r
  | _, _, _ => True

/-- A string literal is written as a token or in parentheses. -/
def StringWritten (env : Scope) {c : Cat} (nt : NT c) (i r : List Token) : Ast c → Prop
  | .eString l x => (∃ t, i = t :: r ∧ t.value = .string x ∧ l = some t.location ∧
        NoMore env nt r) ∨
      ∃ m t t2 r', i = m ++ t :: t2 :: r' ∧ t.value = .lParen ∧ t2.value = .string x ∧
        l = some t2.location
  | _ => True

theorem StringWritten.map {env : Scope} {i r : List Token} {nt nt' : NT .expr} {e : Expr}
    (h : StringWritten env nt i r e) (hn : NoMore env nt r → NoMore env nt' r) :
    StringWritten env nt' i r e := by
  cases e with
  | eString l x =>
    rcases h with ⟨u, rfl, hu, hl, h⟩ | h
    · exact .inl ⟨u, rfl, hu, hl, hn h⟩
    · exact .inr h
  | _ => trivial

theorem StringWritten.paren {env env' : Scope} {i r r' : List Token} {nt nt' : NT .expr} {e : Expr}
    {t : Token} (h : StringWritten env nt i r e) (ht : t.value = .lParen) :
    StringWritten env' nt' (t :: i) r' e := by
  cases e with
  | eString l x =>
    rcases h with ⟨u, rfl, hu, hl, -⟩ | ⟨m, t, t2, r', rfl, h⟩
    · exact .inr ⟨[], _, u, _, rfl, ht, hu, hl⟩
    · exact .inr ⟨_ :: m, t, t2, r', rfl, h⟩
  | _ => trivial

theorem StringWritten.other {env : Scope} {i r : List Token} {c : Cat} {nt : NT c} (x : Ast c)
    (hc : c ≠ .expr) : StringWritten env nt i r x := by
  cases x <;> first | exact trivial | exact (hc rfl).elim

theorem Grammar.Derives.stringWritten {env : Scope} {i r : List Token} {c : Cat}
    {nt : NT c} {x : Ast c} (h : Derives (Located S) env nt i r x) : StringWritten env nt i r x := by
  induction h
  case string h => exact .inl ⟨_, rfl, h, rfl, trivial⟩
  case paren h1 h2 h3 ih => exact ih.paren h1
  case postfixNone h1 h2 h3 ih => exact ih.map fun _ => ⟨h1, h2⟩
  case condNone h0 h1 h2 h3 ih => exact ih.map fun h => ⟨h1, h2, h⟩
  case assignNone h1 h3 ih => exact ih.map fun h => ⟨h1, h⟩
  case exprOne h1 h3 ih => exact ih.map fun h => ⟨h1, h⟩
  case lhsPrimary ih => exact ih.map fun _ => trivial
  case lhsNew ih => exact ih.map fun _ => trivial
  case newBaseMember ih => exact ih.map fun _ => trivial
  case newBaseArgs ih => exact ih.map fun _ => trivial
  case newBaseNoArgs ih => exact ih.map fun _ => trivial
  case unaryPostfix ih => exact ih.map id
  case binaryUnary ih => exact ih.map id
  case binaryUp ih => exact ih.map id
  case functionBody => exact StringWritten.other _ (by intro h; cases h)
  case argList => exact StringWritten.other _ (by intro h; cases h)
  all_goals exact trivial

private def allBinops : List BinopTag :=
      [.eq, .nEq, .strictEq, .strictNEq, .lt, .lEq, .gt, .gEq, .lShift, .rShift, .uRShift,
       .plus, .minus, .times, .div, .mod, .bitOr, .bitXor, .bitAnd, .«in», .instanceof]

private def allAssops : List AssopTag :=
      [.plusEq, .minusEq, .timesEq, .divEq, .modEq, .lShiftEq, .rShiftEq, .uRShiftEq,
       .bitOrEq, .bitXorEq, .bitAndEq]

instance (x : Str) (v : TokenData) : Decidable (IsSymbol x v) := by
  unfold IsSymbol; infer_instance

private theorem isBinop_of {env : Scope} {t : Token} (tag : BinopTag) (ha : env.allowIn = true)
    (h : IsSymbol tag.display t.value) : IsBinop env t ⟨some t.location, tag⟩ :=
  ⟨rfl, h, fun _ => ha⟩

theorem NoMore.continues {env : Scope} {t : Token} {r : List Token} (ha : env.allowIn = true)
    (h : NoMore env .expr (t :: r)) (hc : Continues t) : t.value = .ellipsis := by
  obtain ⟨⟨_, _, he1, h1⟩, ⟨_, _, he2, h2, h3⟩, ⟨_, _, he3, h4, h5⟩, ⟨_, _, he4, h6⟩, ⟨_, _, he5, h7⟩,
    ⟨_, _, he6, h8⟩⟩ := h
  cases he1; cases he2; cases he3; cases he4; cases he5; cases he6
  rcases hc with hc | ⟨hc, hn⟩
  · have hb : ∀ tag : BinopTag, ¬ IsSymbol tag.display t.value :=
      fun tag h => h4 _ (isBinop_of tag ha h)
    have hl : ∀ tag : LogopTag, ¬ IsSymbol tag.display t.value :=
      fun tag h => h5 ⟨some t.location, tag⟩ ⟨rfl, h⟩
    have hs : ∀ tag : AssopTag, ¬ IsSymbol tag.display t.value :=
      fun tag h => h3 ⟨some t.location, tag⟩ ⟨rfl, h⟩
    generalize t.value = w at *
    have key : ∀ w ∈ continuers, w = .ellipsis ∨ w = .comma ∨ w = .assign ∨ w = .question ∨
        w ∈ [TokenData.dot, .lBrack, .lParen] ∨
        (∃ tag : BinopTag, IsSymbol tag.display w) ∨ (∃ tag : LogopTag, IsSymbol tag.display w) ∨
        (∃ tag : AssopTag, IsSymbol tag.display w) := by
      have : ∀ w ∈ continuers, (decide (w = .ellipsis) || decide (w = .comma) ||
          decide (w = .assign) || decide (w = .question) ||
          decide (w ∈ [TokenData.dot, .lBrack, .lParen]) ||
          (allBinops.any fun tag => decide (IsSymbol tag.display w)) ||
          ([LogopTag.or, .and].any fun tag => decide (IsSymbol tag.display w)) ||
          (allAssops.any fun tag => decide (IsSymbol tag.display w))) = true := by
        decide +kernel
      intro w hw
      have := this w hw
      simp only [Bool.or_eq_true, decide_eq_true_eq, List.any_eq_true] at this
      rcases this with ((((((h | h) | h) | h) | h) | ⟨tag, -, h⟩) | ⟨tag, -, h⟩) | ⟨tag, -, h⟩
      · exact .inl h
      · exact .inr (.inl h)
      · exact .inr (.inr (.inl h))
      · exact .inr (.inr (.inr (.inl h)))
      · exact .inr (.inr (.inr (.inr (.inl h))))
      · exact .inr (.inr (.inr (.inr (.inr (.inl ⟨tag, h⟩)))))
      · exact .inr (.inr (.inr (.inr (.inr (.inr (.inl ⟨tag, h⟩))))))
      · exact .inr (.inr (.inr (.inr (.inr (.inr (.inr ⟨tag, h⟩))))))
    rcases key w hc with h | h | h | h | h | ⟨tag, h⟩ | ⟨tag, h⟩ | ⟨tag, h⟩
    · exact h
    · exact (h1 h).elim
    · exact (h2 h).elim
    · exact (h6 h).elim
    · exact (h7 h).elim
    · exact (hb _ h).elim
    · exact (hl _ h).elim
    · exact (hs _ h).elim
  · rw [h8 hc] at hn
    cases hn

theorem prologue_inv {env : Scope} {c : Cat} {nt : NT (.list c)} {ds : List Dir} :
    ∀ {i r : List Token} {items : Ast (.list c)},
    Derives (Located S) env (.prologue nt) i r (.body none ds items) →
    ∃ j, j <:+ i ∧ StringStatements i j ds ∧ ¬ StartsDirective j ∧ Derives (Located S) env nt j r items := by
  induction ds with
  | nil =>
    intro i r items h
    cases h with
    | prologueEnd h1 h2 h3 => exact ⟨i, List.suffix_refl _, .nil, h1, h3⟩
  | cons d ds ih =>
    intro i r items h
    cases h with
    | directive h1 h2 h3 h4 h5 =>
      obtain ⟨j, g1, g2, g3, g4⟩ := ih h5
      refine ⟨j, ?_, .cons h1 h3 g2, g3, g4⟩
      exact g1.trans (h3.suffix.trans (List.suffix_cons _ _))

/-- The first item is not a string literal, except in parentheses. -/
theorem firstItem {env : Scope} {i i1 : List Token} {x : StmtListItem} {sp : Span}
    {lit : StringLiteral} (h : Derives (Located S) env (.item true) i i1 x) (hs : IsStringStmt sp lit x)
    (hd : ¬ StartsDirective i) (hn : ∀ t r, i1 = t :: r → t.value ≠ .ellipsis) :
    ∃ t t2 r, t :: t2 :: r <:+ i ∧ t.value = .lParen ∧ t2.value = .string lit ∧
      t2.location = sp := by
  cases h with
  | itemDecl h => cases hs
  | itemStmt h =>
    cases h with
    | exprStmt h1 h2 h3 h4 =>
      rename_i e semi l
      cases e with
      | eString l' y =>
        obtain ⟨hl, rfl⟩ : l' = some sp ∧ y = lit := hs
        rcases h2.stringWritten with ⟨t, rfl, ht, -, hm⟩ | ⟨m, t, t2, r', rfl, g1, g2, g3⟩
        · exfalso
          cases h3 with
          | explicit h3 =>
            refine hd ⟨_, _, _, _, rfl, ht, fun hc => ?_⟩
            rw [hm.continues rfl hc] at h3
            cases h3
          | inserted h3 h5 =>
            refine hd ⟨_, _, _, _, rfl, ht, fun hc => hn _ _ rfl (hm.continues rfl hc)⟩
        · rw [hl] at g3
          exact ⟨t, t2, r', ⟨m, rfl⟩, g1, g2, (Option.some.inj g3).symm⟩
      | _ => cases hs
    | _ => cases hs

theorem Grammar.Derives.itemsNext {env : Scope} {i r : List Token} {xs : Ast (.list .sitem)}
    (h : Derives (Located S) env .items i r xs) : ∀ t r, i = t :: r → t.value ≠ .ellipsis := by
  obtain ⟨t, r, rfl, h1⟩ := h.first
  intro t' r' he hv
  cases he
  rw [hv] at h1
  cases h1

theorem Grammar.Derives.modItemsNext {env : Scope} {i r : List Token} {xs : Ast (.list .modItem)}
    (h : Derives (Located S) env .modItems i r xs) : ∀ t r, i = t :: r → t.value ≠ .ellipsis := by
  obtain ⟨t, r, rfl, h1⟩ := h.first
  intro t' r' he hv
  cases he
  rw [hv] at h1
  cases h1

/-- A body, as derived: its directives are statements that are string literals; its items
follow them, and do not start with another string literal, except in parentheses. -/
def BodyWritten (S : Str) (T : List Token) {c : Cat} (ds : List Dir) (items : Ast (.list c)) : Prop :=
  ∃ env nt i j r, i <:+ T ∧ StringStatements i j ds ∧ Derives (Located S) env nt j r items ∧
    ∀ x, items.toList.head? = some x → ∀ sp lit, IsStringStmt sp lit x →
      ∃ t t2 r, t :: t2 :: r <:+ j ∧ t.value = .lParen ∧ t2.value = .string lit ∧ t2.location = sp

theorem bodyWritten_script {T : List Token} {env : Scope} {nt : NT (.list .sitem)} {i r : List Token}
    {ds : List Dir} {items : Ast (.list .sitem)} (hi : i <:+ T)
    (h : Derives (Located S) env (.prologue nt) i r (.body none ds items)) : BodyWritten S T ds items := by
  obtain ⟨j, h1, h2, h3, h4⟩ := prologue_inv h
  refine ⟨env, nt, i, j, r, hi, h2, h4, fun x hx sp lit hs => ?_⟩
  cases h4 with
  | itemsNil => cases hx
  | itemsCons g1 g2 =>
    cases hx
    exact firstItem g1 hs h3 g2.itemsNext

theorem bodyWritten_module {T : List Token} {env : Scope} {nt : NT (.list .modItem)}
    {i r : List Token} {ds : List Dir} {items : Ast (.list .modItem)} (hi : i <:+ T)
    (h : Derives (Located S) env (.prologue nt) i r (.body none ds items)) : BodyWritten S T ds items := by
  obtain ⟨j, h1, h2, h3, h4⟩ := prologue_inv h
  refine ⟨env, nt, i, j, r, hi, h2, h4, fun x hx sp lit hs => ?_⟩
  cases h4 with
  | modItemsNil => cases hx
  | modItemsCons g1 g2 =>
    cases hx
    refine firstItem g1 ?_ h3 g2.modItemsNext
    rename_i y ys
    cases y with
    | siStmt st =>
      cases st with
      | sExpr l e semi => cases e <;> first | exact hs | cases hs
      | _ => cases hs
    | siDecl => cases hs

/-- C58.  In every script, function body, method, getter and setter that occurs in a
returned tree, the directives are the leading statements that consist of a string literal
token, as many as there are, in order, and the items are the rest. -/
theorem C58_prologue {l : Loc} {ds : List Dir} {items : Ast (.list .sitem)}
    (h : Returned s st mo tree) (ho : Occurs .top tree v ⟨.body .sitem, .body l ds items⟩) :
    ∃ ops ts k, Tokens s 0 true ops ts k ∧ BodyWritten s ts ds items := by
  obtain ⟨ops, ts, k, ht, env, nt, i, r, hi, -, -, -, hd⟩ := returned_derived h ho (by decide)
  refine ⟨ops, ts, k, ht, ?_⟩
  cases hd with
  | functionBody h1 h2 =>
    cases h2 with
    | body h2 => exact bodyWritten_script ((List.suffix_cons _ _).trans hi) h2
  | body h1 h2 => exact bodyWritten_script hi h1
  | directive h1 h2 h3 h4 h5 => exact bodyWritten_script hi (.directive h1 h2 h3 h4 h5)
  | prologueEnd h1 h2 h3 => exact bodyWritten_script hi (.prologueEnd h1 h2 h3)

/-- C58 for modules. -/
theorem C58_module {l : Loc} {ds : List Dir} {items : Ast (.list .modItem)}
    (h : Returned s st mo tree) (ho : Occurs .top tree v ⟨.body .modItem, .body l ds items⟩) :
    ∃ ops ts k, Tokens s 0 true ops ts k ∧ BodyWritten s ts ds items := by
  obtain ⟨ops, ts, k, ht, env, nt, i, r, hi, -, -, -, hd⟩ := returned_derived h ho (by decide)
  refine ⟨ops, ts, k, ht, ?_⟩
  cases hd with
  | body h1 h2 => exact bodyWritten_module hi h1
  | directive h1 h2 h3 h4 h5 => exact bodyWritten_module hi (.directive h1 h2 h3 h4 h5)
  | prologueEnd h1 h2 h3 => exact bodyWritten_module hi (.prologueEnd h1 h2 h3)

end Theorems

section Examples

local instance prologueEnv : Env := asciiEnv true

/-- The hypotheses are met: two directives, and a first item that is a string literal in
parentheses; a function with a directive. -/
example : ∃ tree v y, Returned c!"'a'; \"b\"\n (c); ('d'); function f() { 'e' }" true false tree ∧
    Occurs .top tree v y ∧
    (match y with
      | ⟨.body .sitem, .body _ [_] (.cons (.siStmt (.sExpr _ (.eCall _ (.eString _ _) _) _)) _)⟩ => true
      | _ => false) = true :=
  occursIn_spec (by decide +kernel)
example : ∃ tree v y, Returned c!"'a'; \"b\"; ('d'); function f() { 'e' }" true false tree ∧
    Occurs .top tree v y ∧
    (match y with
      | ⟨.body .sitem, .body _ [_, _] (.cons (.siStmt (.sExpr _ (.eString _ _) _)) _)⟩ => true
      | _ => false) = true :=
  occursIn_spec (by decide +kernel)
example : ∃ tree v y, Returned c!"'a'; \"b\"; ('d'); function f() { 'e' }" true false tree ∧
    Occurs .top tree v y ∧
    (match y with
      | ⟨.body .sitem, .body _ [_] .nil⟩ => true
      | _ => false) = true :=
  occursIn_spec (by decide +kernel)

example : (match parseModule c!"'a'; b" with
    | .ok (.body _ [_] (.cons _ .nil)) => true | _ => false) = true := by
  decide +kernel

end Examples

end Esprit
