import Verif.Spec.Semis
import Verif.Proofs.Complete.Missing
import Verif.Proofs.Complete.Rename
import Verif.Proofs.Complete.Lone
import Verif.Props.Prologue

/-! Derivations from tokens in which the inserted semicolons are written out. -/

set_option linter.unusedSectionVars false
set_option linter.unusedVariables false

namespace Esprit

open Lex ReaderSpec Grammar

namespace Semis

open Rename (NoLoc)

/-- The tokens `j` are the tokens `i` with more semicolons. -/
inductive Ins : List Token → List Token → Prop where
  | nil : Ins [] []
  | cons {t : Token} {i j : List Token} : Ins i j → Ins (t :: i) (t :: j)
  | semi {t : Token} {i j : List Token} : t.value = .semi → t.newline = false → Ins i j → Ins i (t :: j)

/-- No semicolon is added at the beginning. -/
def Same (i j : List Token) : Prop := ∃ t i' j', i = t :: i' ∧ j = t :: j' ∧ Ins i' j'

/-- A semicolon is added at the beginning. -/
def Before (i j : List Token) : Prop :=
  ∃ t j', j = t :: j' ∧ t.value = .semi ∧ t.newline = false ∧ Same i j'

/-- At most one semicolon is added at the beginning. -/
def Foll (i j : List Token) : Prop := Same i j ∨ Before i j

/-- The nonterminals that can end a statement before its semicolon. -/
def last : {c : Cat} → NT c → Bool
  | _, .primary | _, .lhs _ | _, .newBase _ | _, .new _ | _, .postfix | _, .unary | _, .binary _
  | _, .cond | _, .assign | _, .expr | _, .exprs | _, .func _ | _, .functionBody
  | _, .dtor | _, .dtors | _, .constDtor | _, .constDtors => true
  | _, _ => false

/-- What can follow a nonterminal. -/
def F {c : Cat} (nt : NT c) (i j : List Token) : Prop := Same i j ∨ last nt = true ∧ Before i j

/-- The nonterminals of lists of statements. -/
def isItems : {c : Cat} → NT c → Bool
  | _, .items | _, .modItems => true
  | _, _ => false

/-- Bodies consist of statements. -/
def ok : {c : Cat} → NT c → Bool
  | _, .prologue nt | _, .body nt => isItems nt
  | _, .func nt => ok nt
  | _, _ => true

theorem isItems_ok {c : Cat} (nt : NT c) (h : isItems nt = true) : ok nt = true := by
  cases nt <;> first | rfl | cases h

variable {t t' : Token} {i j rest : List Token} {v : TokenData} {env : Scope}

theorem Ins.refl : (i : List Token) → Ins i i
  | [] => .nil
  | _ :: i => .cons (Ins.refl i)

theorem Same.ins (h : Same i j) : Ins i j := by
  obtain ⟨_, _, _, rfl, rfl, h⟩ := h
  exact .cons h

theorem Before.ins (h : Before i j) : Ins i j := by
  obtain ⟨_, _, rfl, h1, h2, h3⟩ := h
  exact .semi h1 h2 h3.ins

theorem Foll.ins (h : Foll i j) : Ins i j := h.elim Same.ins Before.ins

theorem Same.mk (h : Ins i j) : Same (t :: i) (t :: j) := ⟨t, i, j, rfl, rfl, h⟩

theorem F.foll {c : Cat} {nt : NT c} (h : F nt i j) : Foll i j := h.imp_right And.right

theorem F.ins {c : Cat} {nt : NT c} (h : F nt i j) : Ins i j := h.foll.ins

theorem F.same {c : Cat} {nt : NT c} (h : F nt i j) (hn : last nt = false) : Same i j :=
  h.elim id fun h => by rw [hn] at h; cases h.1

theorem F.mono {c c' : Cat} {nt : NT c} {nt' : NT c'} (h : F nt i j)
    (hl : last nt = true → last nt' = true) : F nt' i j := h.imp_right (And.imp_left hl)

theorem F.of {c : Cat} {nt : NT c} (h : Foll i j) (hl : last nt = true) : F nt i j :=
  h.imp_right fun h => ⟨hl, h⟩

theorem Ins.inv {t : Token} {r : List Token} (h : Ins (t :: r) j) :
    (∃ j', j = t :: j' ∧ Ins r j') ∨ ∃ s j', j = s :: j' ∧ s.value = .semi ∧ s.newline = false := by
  cases h with
  | cons h => exact .inl ⟨_, rfl, h⟩
  | semi h1 h2 h3 => exact .inr ⟨_, _, rfl, h1, h2⟩

theorem Ins.inv' {t : Token} {r : List Token} (h : Ins i (t :: r)) :
    (∃ i', i = t :: i' ∧ Ins i' r) ∨ t.value = .semi ∧ t.newline = false := by
  cases h with
  | cons h => exact .inl ⟨_, rfl, h⟩
  | semi h1 h2 h3 => exact .inr ⟨h1, h2⟩

theorem Foll.inv {r : List Token} (h : Foll (t :: r) j) :
    (∃ j', j = t :: j') ∨ ∃ s j', j = s :: j' ∧ s.value = .semi ∧ s.newline = false := by
  rcases h with ⟨_, _, _, h, rfl, _⟩ | ⟨s, j', rfl, h1, h2, _⟩
  · cases h; exact .inl ⟨_, rfl⟩
  · exact .inr ⟨s, j', rfl, h1, h2⟩

theorem nextIs (h : Same i j) (hn : NextIs i v) : NextIs j v := by
  obtain ⟨_, _, _, rfl, rfl, _⟩ := h
  obtain ⟨_, _, he, h⟩ := hn
  cases he
  exact ⟨_, _, rfl, h⟩

theorem nextIsNot (h : Foll i j) (hn : NextIsNot i v) (hv : v ≠ .semi) : NextIsNot j v := by
  obtain ⟨t, r, rfl, h1⟩ := hn
  rcases h.inv with ⟨j', rfl⟩ | ⟨s, j', rfl, h2, _⟩
  · exact ⟨_, _, rfl, h1⟩
  · exact ⟨_, _, rfl, by rw [h2]; exact hv.symm⟩

theorem nextNotIn {vs : List TokenData} (h : Foll i j) (hn : NextNotIn i vs) (hv : .semi ∉ vs) :
    NextNotIn j vs := by
  obtain ⟨t, r, rfl, h1⟩ := hn
  rcases h.inv with ⟨j', rfl⟩ | ⟨s, j', rfl, h2, _⟩
  · exact ⟨_, _, rfl, h1⟩
  · exact ⟨_, _, rfl, by rw [h2]; exact hv⟩

theorem noRegExp (h : Foll i j) (hn : NoRegExp i) : NoRegExp j := by
  rintro t r rfl x hx
  rcases h with ⟨_, _, _, rfl, h, _⟩ | ⟨s, j', h, h1, h2, _⟩
  · cases h; exact hn _ _ rfl x hx
  · cases h; rw [h1] at hx; cases hx

theorem noDivision (h : Ins i j) (hn : NoDivision i) : NoDivision j := by
  rintro t r rfl
  rcases h.inv' with ⟨_, rfl, _⟩ | ⟨h, _⟩
  · exact hn _ _ rfl
  · rw [h]; exact ⟨nofun, nofun⟩

theorem letNoDivision (h : Same i j) (hn : LetNoDivision i) : LetNoDivision j := by
  obtain ⟨t, _, _, rfl, rfl, h⟩ := h
  rintro _ r he hv
  cases he
  exact noDivision h (hn _ _ rfl hv)

theorem stringNoDivision (h : Same i j)
    (hn : ∀ t r s, i = t :: r → t.value = .string s → NoDivision r) :
    ∀ t r s, j = t :: r → t.value = .string s → NoDivision r := by
  obtain ⟨t, _, _, rfl, rfl, h⟩ := h
  rintro _ r s he hv
  cases he
  exact noDivision h (hn _ _ _ rfl hv)

theorem noPostfix (h : Foll i j) (hn : NoPostfix i) : NoPostfix j := by
  obtain ⟨t, r, rfl, h1⟩ := hn
  rcases h.inv with ⟨j', rfl⟩ | ⟨s, j', rfl, h2, _⟩
  · exact ⟨_, _, rfl, h1⟩
  · exact ⟨_, _, rfl, by rw [h2]; rintro (h | h) <;> cases h⟩

theorem semi_symbol : (∀ tag : BinopTag, ¬ IsSymbol tag.display .semi) ∧
    (∀ tag : LogopTag, ¬ IsSymbol tag.display .semi) ∧ ∀ tag : AssopTag, ¬ IsSymbol tag.display .semi :=
  have h : .semi ∉ continuers := by decide
  ⟨fun tag ht => h (Lone.symbol_continues.1 tag ht), fun tag ht => h (Lone.symbol_continues.2.1 tag ht),
    fun tag ht => h (Lone.symbol_continues.2.2 tag ht)⟩

theorem noInfix (h : Foll i j) (hn : NoInfix env i) : NoInfix env j := by
  obtain ⟨t, r, rfl, h1⟩ := hn
  rcases h.inv with ⟨j', rfl⟩ | ⟨s, j', rfl, h2, _⟩
  · exact ⟨_, _, rfl, h1⟩
  · refine ⟨_, _, rfl, fun op ho => ?_, fun op ho => ?_⟩
    · rw [IsBinop, h2] at ho; exact semi_symbol.1 _ ho.2.1
    · rw [IsLogop, h2] at ho; exact semi_symbol.2.1 _ ho.2

theorem noAssign (h : Foll i j) (hn : NoAssign i) : NoAssign j := by
  obtain ⟨t, r, rfl, h1⟩ := hn
  rcases h.inv with ⟨j', rfl⟩ | ⟨s, j', rfl, h2, _⟩
  · exact ⟨_, _, rfl, h1⟩
  · refine ⟨_, _, rfl, by rw [h2]; nofun, fun op ho => ?_⟩
    rw [IsAssop, h2] at ho; exact semi_symbol.2.2 _ ho.2

theorem noArgSameLine (h : Foll i j) (hn : NoArgSameLine i) : NoArgSameLine j := by
  obtain ⟨t, r, rfl, h1⟩ := hn
  rcases h.inv with ⟨j', rfl⟩ | ⟨s, j', rfl, h2, _⟩
  · exact ⟨_, _, rfl, h1⟩
  · exact ⟨_, _, rfl, .inr (.inl h2)⟩

theorem argSameLine (h : Same i j) (hn : ArgSameLine i) : ArgSameLine j := by
  obtain ⟨t, _, _, rfl, rfl, h⟩ := h
  obtain ⟨_, _, he, h1⟩ := hn
  cases he
  exact ⟨_, _, rfl, h1⟩

theorem semi_binding (h : t.value = .semi) : ¬ StartsBinding t := by
  rintro (h1 | h1 | ⟨n, h1⟩) <;> rw [h] at h1 <;> cases h1

theorem exprStmtStart (h : Same i j) (hn : ExprStmtStart i) : ExprStmtStart j := by
  obtain ⟨t, i', j', rfl, rfl, h⟩ := h
  obtain ⟨_, _, he, h1, h2⟩ := hn
  cases he
  refine ⟨_, _, rfl, h1, fun hi => ?_⟩
  obtain ⟨t2, r2, rfl, h3, h4⟩ := h2 hi
  rcases h.inv with ⟨j', rfl, _⟩ | ⟨s, j', rfl, h5, _⟩
  · exact ⟨_, _, rfl, h3, h4⟩
  · exact ⟨_, _, rfl, by rw [h5]; nofun, fun _ => semi_binding h5⟩

theorem forExprStart (h : Same i j) (hn : ForExprStart i) : ForExprStart j := by
  obtain ⟨t, i', j', rfl, rfl, h⟩ := h
  obtain ⟨_, _, he, h1, h2, h3⟩ := hn
  cases he
  refine ⟨_, _, rfl, h1, h2, fun hi => ?_⟩
  obtain ⟨t2, r2, rfl, h4⟩ := h3 hi
  rcases h.inv with ⟨j', rfl, _⟩ | ⟨s, j', rfl, h5, _⟩
  · exact ⟨_, _, rfl, h4⟩
  · exact ⟨_, _, rfl, semi_binding h5⟩

theorem semi_continues (h : t.value = .semi) : ¬ Continues t := by
  rintro (h1 | ⟨h1 | h1, _⟩) <;> rw [h] at h1
  · simp [continuers] at h1
  · cases h1
  · cases h1

theorem notContinues (h : Foll i j) (hn : ∃ t r, i = t :: r ∧ ¬ Continues t) :
    ∃ t r, j = t :: r ∧ ¬ Continues t := by
  obtain ⟨t, r, rfl, h1⟩ := hn
  rcases h.inv with ⟨j', rfl⟩ | ⟨s, j', rfl, h2, _⟩
  · exact ⟨_, _, rfl, h1⟩
  · exact ⟨_, _, rfl, semi_continues h2⟩

/-- A semicolon token. -/
def semiToken : Token := { location := ⟨⟨0, 0, 0⟩, ⟨0, 0, 0⟩⟩, newline := false, value := .semi }

theorem term {o : Bool} {semi : Semi} {rest' : List Token} (h : Term o i rest semi) (hS : Same rest rest') :
    ∃ i' semi', Foll i i' ∧ Term o i' rest' semi' ∧
      i'.length + rest.length = i.length + rest'.length + semi.missing := by
  cases h with
  | explicit h =>
    refine ⟨_ :: rest', _, .inl (.mk hS.ins), .explicit h, ?_⟩
    simp only [List.length_cons, Semi.missing]; omega
  | inserted h1 h2 =>
    refine ⟨semiToken :: rest', _, .inr ⟨_, _, rfl, rfl, rfl, hS⟩, .explicit rfl, ?_⟩
    simp only [List.length_cons, Semi.missing]; omega

theorem target {e : Expr} {x : AssignTarget} (h : Ast.Similar e (Patt.sourceTarget x)) :
    ∃ x', e = Patt.sourceTarget x' ∧ Ast.Similar x' x := by
  cases x with
  | tId i => cases h with | eId h => exact ⟨.tId _, rfl, .tId h⟩
  | tDot l e k => cases h with | @eDot l' _ e' _ k' _ h h' => exact ⟨.tDot l' e' k', rfl, .tDot h h'⟩
  | tBrack l e p => cases h with | @eBrack l' _ e' _ p' _ h h' => exact ⟨.tBrack l' e' p', rfl, .tBrack h h'⟩

theorem pattern {e : Expr} {p : PattTarget} (hf : Patt.restFree p)
    (ha : Patt.Assignable (Patt.sourceExpr p)) (h : Ast.Similar e (Patt.sourceExpr p)) :
    ∃ p', e = Patt.sourceExpr p' ∧ Patt.restFree p' ∧ Patt.Assignable (Patt.sourceExpr p') ∧
      Ast.Similar p' p := by
  rw [← C21_identical_iff] at h
  obtain ⟨p', h1, h2⟩ := intoAssignPatt_covers hf h
  have h3 := C19_pattern_roundtrip _ _ h1
  refine ⟨p', h3.symm, ?_, ?_, (C21_identical_iff _ _).1 h2⟩
  · rw [← Rename.restFree_untrack, h2, Rename.restFree_untrack]; exact hf
  · rw [h3]; exact (C19_pattern_exact _).1 ⟨_, h1⟩

theorem isLoop_similar {s s' : Stmt} (h : Ast.Similar s' s) : isLoop s = isLoop s' := by
  rw [← isLoop_untrack s, ← isLoop_untrack s', (C21_identical_iff _ _).2 h]

theorem isDefault_similar {x x' : Ast .case} (h : Ast.Similar x' x) : isDefault x' = isDefault x := by
  cases h with
  | caseClause h1 _ => cases h1 <;> rfl

theorem defaults : (cs : Ast (.list .case)) → ∀ {cs' cs0 : Ast (.list .case)}, Ast.Similar cs' cs0 → cs0 = cs →
    (cs'.toList.filter isDefault).length = (cs.toList.filter isDefault).length
  | .nil, _, _, h, he => by subst he; cases h; rfl
  | .cons x xs, _, _, h, he => by
    cases h with
    | nil => cases he
    | cons h1 h2 =>
      injection he with _ e1 e2
      have ih := defaults xs h2 e2
      rw [e1] at h1
      simp only [Ast.toList_cons, List.filter_cons, isDefault_similar h1]
      split
      · simp only [List.length_cons, ih]
      · exact ih

theorem notNone {c : Cat} {x x' : Ast (.opt c)} (h : Ast.Similar x' x) (hx : x ≠ .none) : x' ≠ .none := by
  rintro rfl
  cases h
  exact hx rfl

/-- The tree is a string literal. -/
def IsString : {c : Cat} → Ast c → Prop
  | _, .eString .. => True
  | _, _ => False

/-- What an expression that is a string literal looks like. -/
def Written (env : Scope) {c : Cat} (nt : NT c) (i r : List Token) (x : Ast c) : Prop :=
  IsString x → (∃ t, i = t :: r ∧ NoMore env nt r) ∨ ∃ t r', i = t :: r' ∧ t.value = .lParen

theorem Written.map {i r : List Token} {c : Cat} {nt nt' : NT c} {x : Ast c}
    (h : Written env nt i r x) (hn : NoMore env nt r → NoMore env nt' r) : Written env nt' i r x :=
  fun hx => (h hx).imp_left fun ⟨t, h1, h2⟩ => ⟨t, h1, hn h2⟩

theorem Written.other {i r : List Token} {c : Cat} {nt : NT c} (x : Ast c) (hc : c ≠ .expr) :
    Written env nt i r x := by
  cases x <;> first | exact False.elim | exact (hc rfl).elim

theorem written {L : LocSpec} {i r : List Token} {c : Cat} {nt : NT c} {x : Ast c}
    (h : Derives L env nt i r x) : Written env nt i r x := by
  induction h
  case string h => exact fun _ => .inl ⟨_, rfl, trivial⟩
  case paren h1 h2 h3 ih => exact fun _ => .inr ⟨_, _, rfl, h1⟩
  case postfixNone h1 h2 h3 ih => exact ih.map fun _ => ⟨h1, h2⟩
  case condNone h0 h1 h2 h3 ih => exact ih.map fun h => ⟨h1, h2, h⟩
  case assignNone h1 h3 ih => exact ih.map fun h => ⟨h1, h⟩
  case exprOne h1 h3 ih => exact ih.map fun h => ⟨h1, h⟩
  case lhsPrimary ih => exact ih.map fun _ => trivial
  case lhsNew ih => exact ih.map fun _ => trivial
  case newBaseMember ih => exact ih.map fun _ => trivial
  case newBaseArgs ih => exact ih.map fun _ => trivial
  case newBaseNoArgs ih => exact ih.map fun _ => trivial
  case unaryPostfix ih => exact ih.map id
  case binaryUnary ih => exact ih.map id
  case binaryUp ih => exact ih.map id
  case functionBody => exact Written.other _ (by intro h; cases h)
  case argList => exact Written.other _ (by intro h; cases h)
  all_goals exact False.elim

/-- The first statement is a string literal only if it is one without the semicolon. -/
theorem item_directive [Env] [LawfulEnv] {L L' : LocSpec} {i1 i1' : List Token} {x x' : StmtListItem}
    (h : Derives L env (.item true) i i1 x) (h' : Derives L' env (.item true) j i1' x')
    (hx : Ast.Similar x' x) (hS : Same i j) (hn : ∀ t r, i1 = t :: r → t.value ≠ .ellipsis)
    (hd : StartsDirective j) : StartsDirective i := by
  obtain ⟨t, t2, r, s, rfl, ht, hc⟩ := hd
  cases h' with
  | itemDecl h1 =>
    cases h1
    case declFun _ h3 => cases h3 <;> simp only [ht, reduceCtorEq] at *
    all_goals simp only [ht, reduceCtorEq] at *
  | itemStmt h1 =>
    cases h1
    case exprStmt a1 a2 a3 a4 =>
      obtain ⟨rfl, h3⟩ := Lone.lone a2 ht hc rfl rfl
      obtain ⟨l', rfl⟩ := Lone.isLone_expr h3
      obtain ⟨_, i', _, rfl, h4, h5⟩ := hS
      cases h4
      cases hx with
      | siStmt hx =>
        cases hx with
        | sExpr hx =>
          cases hx
          cases h with
          | itemStmt h =>
            cases h with
            | exprStmt b1 b2 b3 b4 =>
              rcases written b2 trivial with ⟨_, h6, h7⟩ | ⟨_, _, h6, h7⟩
              · cases h6
                cases b3 with
                | explicit h8 => exact ⟨_, _, _, _, rfl, ht, semi_continues h8⟩
                | inserted h8 h9 =>
                  exact ⟨_, _, _, _, rfl, ht, fun hc => hn _ _ rfl (h7.continues rfl hc)⟩
              · cases h6
                rw [ht] at h7
                cases h7
    case blockStmt h3 => cases h3; simp only [ht, reduceCtorEq] at *
    case labelStmt h3 _ _ =>
      obtain ⟨n, h3, _⟩ := h3.value
      rw [ht] at h3
      cases h3
    all_goals simp only [ht, reduceCtorEq] at *

theorem notDirective [Env] [LawfulEnv] {L L' : LocSpec} {r r' : List Token} {c : Cat} {nt : NT c} {x x' : Ast c}
    (hi : isItems nt = true) (h : Derives L env nt i r x) (h' : Derives L' env nt j r' x')
    (hx : Ast.Similar x' x) (hS : Same i j) (hd : ¬ StartsDirective i) : ¬ StartsDirective j := by
  intro hj
  cases nt <;> first | cases hi; done | skip
  case items =>
    cases h' with
    | itemsNil h1 =>
      obtain ⟨_, _, _, _, he, ht, _⟩ := hj
      cases he
      rw [ht] at h1
      simp [followsItems] at h1
    | itemsCons h1 h2 =>
      cases h with
      | itemsNil => cases hx
      | itemsCons h3 h4 =>
        cases hx with
        | cons hx1 hx2 =>
          refine hd (item_directive h3 h1 hx1 hS ?_ hj)
          obtain ⟨t, r, rfl, h5⟩ := h4.first
          intro t' r' he hv
          cases he
          rw [hv] at h5
          cases h5
  case modItems =>
    cases h' with
    | modItemsNil h1 =>
      obtain ⟨_, _, _, _, he, ht, _⟩ := hj
      cases he
      rw [ht] at h1
      cases h1
    | modItemsCons h1 h2 =>
      cases h with
      | modItemsNil => cases hx
      | modItemsCons h3 h4 =>
        cases hx with
        | cons hx1 hx2 =>
          cases hx1 with
          | miItem hx1 =>
            refine hd (item_directive h3 h1 hx1 hS ?_ hj)
            obtain ⟨t, r, rfl, h5⟩ := h4.first
            intro t' r' he hv
            cases he
            rw [hv] at h5
            cases h5

theorem paramItems_shape {x : Ast .params} (h : Derives NoLoc env .paramItems i rest x) :
    ∃ ps r, x = .params none ps r := Rename.paramItems_shape h

theorem key_refl : (k : PropKey) → k.Similar k
  | .id .. => .id
  | .string .. => .string
  | .number .. => .number

/-- Closes goals that two trees are similar. -/
local macro "sim" : tactic => `(tactic| repeat' (first | assumption | rfl | exact key_refl _ | constructor))

/-- Closes goals that count semicolons. -/
local macro "count" : tactic =>
  `(tactic| ((try simp only [List.length_cons, List.map_cons, List.map_nil, List.sum_cons, List.sum_nil,
      Ast.missing, missing_target, missing_pattern] at *); omega))

/-- A derivation from tokens gives one from the tokens with the inserted semicolons written out. -/
theorem derives [Env] [LawfulEnv] {L : LocSpec} {c : Cat} {nt : NT c} {inp : List Token} {x : Ast c}
    (h : Derives L env nt inp rest x) : ok nt = true → env.plain = true → ∀ {rest'}, F nt rest rest' →
      ∃ inp' x', Same inp inp' ∧ Derives NoLoc env nt inp' rest' x' ∧ Ast.Similar x' x ∧
        inp'.length + rest.length = inp.length + rest'.length + x.missing := by
  induction h
  case identifier a1 =>
    intro hk hp rest' hF
    exact ⟨_, _, (.mk hF.ins), .identifier a1, by sim, by count⟩
  case kNull a1 =>
    intro hk hp rest' hF
    exact ⟨_, _, (.mk hF.ins), .kNull a1, by sim, by count⟩
  case kThis a1 =>
    intro hk hp rest' hF
    exact ⟨_, _, (.mk hF.ins), .kThis a1, by sim, by count⟩
  case kTrue a1 =>
    intro hk hp rest' hF
    exact ⟨_, _, (.mk hF.ins), .kTrue a1, by sim, by count⟩
  case kFalse a1 =>
    intro hk hp rest' hF
    exact ⟨_, _, (.mk hF.ins), .kFalse a1, by sim, by count⟩
  case number a1 =>
    intro hk hp rest' hF
    exact ⟨_, _, (.mk hF.ins), .number a1, by sim, by count⟩
  case string a1 =>
    intro hk hp rest' hF
    exact ⟨_, _, (.mk hF.ins), .string a1, by sim, by count⟩
  case regExp a1 =>
    intro hk hp rest' hF
    exact ⟨_, _, (.mk hF.ins), .regExp a1, by sim, by count⟩
  case array a1 a2 a3 ih2 =>
    intro hk hp rest' hF
    obtain ⟨_, _, hS1, hd1, hs1, hl1⟩ := ih2 rfl hp (.inl (.mk hF.ins))
    exact ⟨_, _, (.mk hS1.ins), .array a1 hd1 a3, by sim, by count⟩
  case object a1 a2 a3 ih2 =>
    intro hk hp rest' hF
    obtain ⟨_, _, hS1, hd1, hs1, hl1⟩ := ih2 rfl hp (.inl (.mk hF.ins))
    exact ⟨_, _, (.mk hS1.ins), .object a1 hd1 a3, by sim, by count⟩
  case function a1 ih1 =>
    intro hk hp rest' hF
    obtain ⟨_, _, hS0, hd0, hs0, hl0⟩ := ih1 rfl hp (hF.mono (by first | exact fun _ => rfl | exact fun h => Bool.noConfusion (show false = true from h)))
    have hS := hS0
    exact ⟨_, _, hS, .function hd0, by sim, by count⟩
  case paren a1 a2 a3 ih2 =>
    intro hk hp rest' hF
    obtain ⟨_, _, hS1, hd1, hs1, hl1⟩ := ih2 rfl hp (.inl (.mk hF.ins))
    exact ⟨_, _, (.mk hS1.ins), .paren a1 hd1 a3, by sim, by count⟩
  case elemsNil  =>
    intro hk hp rest' hF
    have hS := (hF.same rfl)
    exact ⟨_, _, hS, .elemsNil , by sim, by count⟩
  case elemsLast a1 ih1 =>
    intro hk hp rest' hF
    obtain ⟨_, _, hS0, hd0, hs0, hl0⟩ := ih1 rfl hp (hF.mono (by first | exact fun _ => rfl | exact fun h => Bool.noConfusion (show false = true from h)))
    have hS := hS0
    exact ⟨_, _, hS, .elemsLast hd0, by sim, by count⟩
  case elemsCons a1 a2 a3 ih1 ih3 =>
    intro hk hp rest' hF
    obtain ⟨_, _, hS2, hd2, hs2, hl2⟩ := ih3 rfl hp (hF.mono (by first | exact fun _ => rfl | exact fun h => Bool.noConfusion (show false = true from h)))
    obtain ⟨_, _, hS0, hd0, hs0, hl0⟩ := ih1 rfl hp (.inl (.mk hS2.ins))
    have hS := hS0
    exact ⟨_, _, hS, .elemsCons hd0 a2 hd2, by sim, by count⟩
  case elemsHole a1 a2 ih2 =>
    intro hk hp rest' hF
    obtain ⟨_, _, hS1, hd1, hs1, hl1⟩ := ih2 rfl hp (hF.mono (by first | exact fun _ => rfl | exact fun h => Bool.noConfusion (show false = true from h)))
    exact ⟨_, _, (.mk hS1.ins), .elemsHole a1 hd1, by sim, by count⟩
  case argExpr a1 ih1 =>
    intro hk hp rest' hF
    obtain ⟨_, _, hS0, hd0, hs0, hl0⟩ := ih1 rfl hp (hF.mono (by first | exact fun _ => rfl | exact fun h => Bool.noConfusion (show false = true from h)))
    have hS := hS0
    exact ⟨_, _, hS, .argExpr hd0, by sim, by count⟩
  case argSpread a1 a2 a3 ih2 =>
    intro hk hp rest' hF
    obtain ⟨_, _, hS1, hd1, hs1, hl1⟩ := ih2 rfl hp (hF.mono (by first | exact fun _ => rfl | exact fun h => Bool.noConfusion (show false = true from h)))
    exact ⟨_, _, (.mk hS1.ins), .argSpread a1 hd1 rfl, by sim, by count⟩
  case propsNil  =>
    intro hk hp rest' hF
    have hS := (hF.same rfl)
    exact ⟨_, _, hS, .propsNil , by sim, by count⟩
  case propsLast a1 ih1 =>
    intro hk hp rest' hF
    obtain ⟨_, _, hS0, hd0, hs0, hl0⟩ := ih1 rfl hp (hF.mono (by first | exact fun _ => rfl | exact fun h => Bool.noConfusion (show false = true from h)))
    have hS := hS0
    exact ⟨_, _, hS, .propsLast hd0, by sim, by count⟩
  case propsCons a1 a2 a3 ih1 ih3 =>
    intro hk hp rest' hF
    obtain ⟨_, _, hS2, hd2, hs2, hl2⟩ := ih3 rfl hp (hF.mono (by first | exact fun _ => rfl | exact fun h => Bool.noConfusion (show false = true from h)))
    obtain ⟨_, _, hS0, hd0, hs0, hl0⟩ := ih1 rfl hp (.inl (.mk hS2.ins))
    have hS := hS0
    exact ⟨_, _, hS, .propsCons hd0 a2 hd2, by sim, by count⟩
  case propInit a1 a2 a3 ih3 =>
    intro hk hp rest' hF
    obtain ⟨_, _, hS2, hd2, hs2, hl2⟩ := ih3 rfl hp (hF.mono (by first | exact fun _ => rfl | exact fun h => Bool.noConfusion (show false = true from h)))
    exact ⟨_, _, (.mk (.cons hS2.ins)), .propInit a1 a2 hd2, by sim, by count⟩
  case propShorthand a1 a2 a3 =>
    intro hk hp rest' hF
    exact ⟨_, _, (.mk hF.ins), .propShorthand a1 a2 (a3.imp (nextIs (hF.same rfl)) (nextIs (hF.same rfl))), by sim, by count⟩
  case propMethod a1 a2 a3 ih2 ih3 =>
    intro hk hp rest' hF
    obtain ⟨_, _, hS2, hd2, hs2, hl2⟩ := ih3 rfl hp (hF.mono (by first | exact fun _ => rfl | exact fun h => Bool.noConfusion (show false = true from h)))
    obtain ⟨_, _, hS1, hd1, hs1, hl1⟩ := ih2 rfl hp (.inl hS2)
    exact ⟨_, _, (.mk hS1.ins), .propMethod a1 hd1 hd2, by sim, by count⟩
  case propGenerator a1 a2 a3 a4 ih3 ih4 =>
    intro hk hp rest' hF
    obtain ⟨_, _, hS3, hd3, hs3, hl3⟩ := ih4 rfl hp (hF.mono (by first | exact fun _ => rfl | exact fun h => Bool.noConfusion (show false = true from h)))
    obtain ⟨_, _, hS2, hd2, hs2, hl2⟩ := ih3 rfl hp (.inl hS3)
    exact ⟨_, _, (.mk (.cons hS2.ins)), .propGenerator a1 a2 hd2 hd3, by sim, by count⟩
  case propGet a1 a2 a3 a4 a5 ih5 =>
    intro hk hp rest' hF
    obtain ⟨_, _, hS4, hd4, hs4, hl4⟩ := ih5 rfl hp (hF.mono (by first | exact fun _ => rfl | exact fun h => Bool.noConfusion (show false = true from h)))
    exact ⟨_, _, (.mk (.cons (.cons (.cons hS4.ins)))), .propGet a1 a2 a3 a4 hd4, by sim, by count⟩
  case propSet a1 a2 a3 a4 a5 a6 ih4 ih6 =>
    intro hk hp rest' hF
    obtain ⟨_, _, hS5, hd5, hs5, hl5⟩ := ih6 rfl hp (hF.mono (by first | exact fun _ => rfl | exact fun h => Bool.noConfusion (show false = true from h)))
    obtain ⟨_, _, hS3, hd3, hs3, hl3⟩ := ih4 rfl hp (.inl (.mk hS5.ins))
    exact ⟨_, _, (.mk (.cons (.cons hS3.ins))), .propSet a1 a2 a3 hd3 a5 hd5, by sim, by count⟩
  case name a1 =>
    intro hk hp rest' hF
    exact ⟨_, _, (.mk hF.ins), .name a1, by sim, by count⟩
  case nameNone  =>
    intro hk hp rest' hF
    have hS := (hF.same rfl)
    exact ⟨_, _, hS, .nameNone , by sim, by count⟩
  case nameSome a1 ih1 =>
    intro hk hp rest' hF
    obtain ⟨_, _, hS0, hd0, hs0, hl0⟩ := ih1 rfl hp (hF.mono (by first | exact fun _ => rfl | exact fun h => Bool.noConfusion (show false = true from h)))
    have hS := hS0
    exact ⟨_, _, hS, .nameSome hd0, by sim, by count⟩
  case func a1 a2 a3 a4 a5 a6 ih2 ih3 ih4 =>
    intro hk hp rest' hF
    obtain ⟨_, _, hS3, hd3, hs3, hl3⟩ := ih4 rfl hp (hF.mono (by first | exact fun _ => rfl | exact fun h => Bool.noConfusion (show false = true from h)))
    obtain ⟨_, _, hS2, hd2, hs2, hl2⟩ := ih3 rfl hp (.inl hS3)
    obtain ⟨_, _, hS1, hd1, hs1, hl1⟩ := ih2 hk hp (.inl hS2)
    exact ⟨_, _, (.mk hS1.ins), .func a1 hd1 hd2 hd3 rfl nofun, by sim, by count⟩
  case funcGenerator a1 a2 a3 a4 a5 a6 a7 ih3 ih4 ih5 =>
    intro hk hp rest' hF
    obtain ⟨_, _, hS4, hd4, hs4, hl4⟩ := ih5 rfl hp (hF.mono (by first | exact fun _ => rfl | exact fun h => Bool.noConfusion (show false = true from h)))
    obtain ⟨_, _, hS3, hd3, hs3, hl3⟩ := ih4 rfl hp (.inl hS4)
    obtain ⟨_, _, hS2, hd2, hs2, hl2⟩ := ih3 hk hp (.inl hS3)
    exact ⟨_, _, (.mk (.cons hS2.ins)), .funcGenerator a1 a2 hd2 hd3 hd4 rfl nofun, by sim, by count⟩
  case pattern a1 =>
    intro hk hp rest' hF
    exact ⟨_, _, (.mk hF.ins), .pattern a1, by sim, by count⟩
  case paramsNil  =>
    intro hk hp rest' hF
    have hS := (hF.same rfl)
    exact ⟨_, _, hS, .paramsNil , by sim, by count⟩
  case paramsRest a1 a2 a3 ih2 =>
    intro hk hp rest' hF
    obtain ⟨_, _, hS1, hd1, hs1, hl1⟩ := ih2 rfl hp (hF.mono (by first | exact fun _ => rfl | exact fun h => Bool.noConfusion (show false = true from h)))
    exact ⟨_, _, (.mk hS1.ins), .paramsRest a1 hd1 rfl, by sim, by count⟩
  case paramsLast a1 ih1 =>
    intro hk hp rest' hF
    obtain ⟨_, _, hS0, hd0, hs0, hl0⟩ := ih1 rfl hp (hF.mono (by first | exact fun _ => rfl | exact fun h => Bool.noConfusion (show false = true from h)))
    have hS := hS0
    exact ⟨_, _, hS, .paramsLast hd0, by sim, by count⟩
  case paramsCons a1 a2 a3 ih1 ih3 =>
    intro hk hp rest' hF
    obtain ⟨_, _, hS2, hd2, hs2, hl2⟩ := ih3 rfl hp (.inl (hF.same rfl))
    obtain ⟨_, _, hS, hd, hs, hl⟩ := ih1 rfl hp (.inl (.mk hS2.ins))
    obtain ⟨_, _, rfl⟩ := paramItems_shape hd2
    cases hs2 with
    | params h1 h2 => exact ⟨_, _, hS, .paramsCons hd a2 hd2, .params (.cons hs h1) h2, by count⟩
  case params a1 a2 a3 a4 ih2 =>
    intro hk hp rest' hF
    obtain ⟨_, _, hS2, hd2, hs2, hl2⟩ := ih2 rfl hp (.inl (.mk hF.ins))
    obtain ⟨_, _, rfl⟩ := paramItems_shape hd2
    cases hs2 with
    | params h1 h2 => exact ⟨_, _, .mk hS2.ins, .params a1 hd2 a3 rfl, .params h1 h2, by count⟩
  case functionBody a1 a2 a3 a4 ih2 =>
    intro hk hp rest' hF
    obtain ⟨_, _, hS2, hd2, hs2, hl2⟩ := ih2 rfl hp (.inl (.mk hF.ins))
    refine ⟨_, _, .mk hS2.ins, .functionBody a1 hd2 a3 ?_, hs2, by count⟩
    intro sp h
    rw [Rename.body_loc hd2] at h
    cases h
  case lhsPrimary a1 ih1 =>
    intro hk hp rest' hF
    obtain ⟨_, _, hS0, hd0, hs0, hl0⟩ := ih1 rfl hp (hF.mono (by first | exact fun _ => rfl | exact fun h => Bool.noConfusion (show false = true from h)))
    have hS := hS0
    exact ⟨_, _, hS, .lhsPrimary hd0, by sim, by count⟩
  case newTarget a1 a2 a3 =>
    intro hk hp rest' hF
    exact ⟨_, _, (.mk (.cons (.cons hF.ins))), .newTarget a1 a2 a3, by sim, by count⟩
  case dot a1 a2 a3 ih1 =>
    intro hk hp rest' hF
    obtain ⟨_, _, hS0, hd0, hs0, hl0⟩ := ih1 rfl hp (.inl (.mk (.cons hF.ins)))
    have hS := hS0
    exact ⟨_, _, hS, .dot hd0 a2 a3, by sim, by count⟩
  case brack a1 a2 a3 a4 ih1 ih3 =>
    intro hk hp rest' hF
    obtain ⟨_, _, hS2, hd2, hs2, hl2⟩ := ih3 rfl hp (.inl (.mk hF.ins))
    obtain ⟨_, _, hS0, hd0, hs0, hl0⟩ := ih1 rfl hp (.inl (.mk hS2.ins))
    have hS := hS0
    exact ⟨_, _, hS, .brack hd0 a2 hd2 a4, by sim, by count⟩
  case call a1 a2 a3 a4 ih1 ih3 =>
    intro hk hp rest' hF
    obtain ⟨_, _, hS2, hd2, hs2, hl2⟩ := ih3 rfl hp (.inl (.mk hF.ins))
    obtain ⟨_, _, hS0, hd0, hs0, hl0⟩ := ih1 rfl hp (.inl (.mk hS2.ins))
    have hS := hS0
    exact ⟨_, _, hS, .call hd0 a2 hd2 a4, by sim, by count⟩
  case lhsNew a1 ih1 =>
    intro hk hp rest' hF
    obtain ⟨_, _, hS0, hd0, hs0, hl0⟩ := ih1 rfl hp (hF.mono (by first | exact fun _ => rfl | exact fun h => Bool.noConfusion (show false = true from h)))
    have hS := hS0
    exact ⟨_, _, hS, .lhsNew hd0, by sim, by count⟩
  case newBaseMember a1 a2 ih2 =>
    intro hk hp rest' hF
    obtain ⟨_, _, hS1, hd1, hs1, hl1⟩ := ih2 rfl hp (hF.mono (by first | exact fun _ => rfl | exact fun h => Bool.noConfusion (show false = true from h)))
    have hS := hS1
    exact ⟨_, _, hS, .newBaseMember (nextNotIn hF.foll a1 (by decide)) hd1, by sim, by count⟩
  case newBaseArgs a1 ih1 =>
    intro hk hp rest' hF
    obtain ⟨_, _, hS0, hd0, hs0, hl0⟩ := ih1 rfl hp (hF.mono (by first | exact fun _ => rfl | exact fun h => Bool.noConfusion (show false = true from h)))
    have hS := hS0
    exact ⟨_, _, hS, .newBaseArgs hd0, by sim, by count⟩
  case newBaseNoArgs a1 ih1 =>
    intro hk hp rest' hF
    obtain ⟨_, _, hS0, hd0, hs0, hl0⟩ := ih1 rfl hp (hF.mono (by first | exact fun _ => rfl | exact fun h => Bool.noConfusion (show false = true from h)))
    have hS := hS0
    exact ⟨_, _, hS, .newBaseNoArgs hd0, by sim, by count⟩
  case newArgs a1 a2 a3 a4 a5 ih2 ih4 =>
    intro hk hp rest' hF
    obtain ⟨_, _, hS3, hd3, hs3, hl3⟩ := ih4 rfl hp (.inl (.mk hF.ins))
    obtain ⟨_, _, hS1, hd1, hs1, hl1⟩ := ih2 rfl hp (.inl (.mk hS3.ins))
    exact ⟨_, _, (.mk hS1.ins), .newArgs a1 hd1 a3 hd3 a5, by sim, by count⟩
  case newNoArgs a1 a2 a3 ih2 =>
    intro hk hp rest' hF
    obtain ⟨_, _, hS1, hd1, hs1, hl1⟩ := ih2 rfl hp (hF.mono (by first | exact fun _ => rfl | exact fun h => Bool.noConfusion (show false = true from h)))
    exact ⟨_, _, (.mk hS1.ins), .newNoArgs a1 hd1 (nextIsNot hF.foll a3 nofun), by sim, by count⟩
  case argListNil  =>
    intro hk hp rest' hF
    have hS := (hF.same rfl)
    exact ⟨_, _, hS, .argListNil , by sim, by count⟩
  case argList a1 ih1 =>
    intro hk hp rest' hF
    obtain ⟨_, _, hS0, hd0, hs0, hl0⟩ := ih1 rfl hp (hF.mono (by first | exact fun _ => rfl | exact fun h => Bool.noConfusion (show false = true from h)))
    have hS := hS0
    exact ⟨_, _, hS, .argList hd0, by sim, by count⟩
  case argsLast a1 ih1 =>
    intro hk hp rest' hF
    obtain ⟨_, _, hS0, hd0, hs0, hl0⟩ := ih1 rfl hp (hF.mono (by first | exact fun _ => rfl | exact fun h => Bool.noConfusion (show false = true from h)))
    have hS := hS0
    exact ⟨_, _, hS, .argsLast hd0, by sim, by count⟩
  case argsCons a1 a2 a3 ih1 ih3 =>
    intro hk hp rest' hF
    obtain ⟨_, _, hS2, hd2, hs2, hl2⟩ := ih3 rfl hp (hF.mono (by first | exact fun _ => rfl | exact fun h => Bool.noConfusion (show false = true from h)))
    obtain ⟨_, _, hS0, hd0, hs0, hl0⟩ := ih1 rfl hp (.inl (.mk hS2.ins))
    have hS := hS0
    exact ⟨_, _, hS, .argsCons hd0 a2 hd2, by sim, by count⟩
  case postfixNone a1 a2 a3 ih3 =>
    intro hk hp rest' hF
    obtain ⟨_, _, hS2, hd2, hs2, hl2⟩ := ih3 rfl hp (hF.mono (by first | exact fun _ => rfl | exact fun h => Bool.noConfusion (show false = true from h)))
    have hS := hS2
    exact ⟨_, _, hS, .postfixNone (nextNotIn hF.foll a1 (by decide)) (noPostfix hF.foll a2) hd2, by sim, by count⟩
  case postInc a1 a2 a3 ih1 =>
    intro hk hp rest' hF
    obtain ⟨_, _, hS, hd, hs, hl⟩ := ih1 rfl hp (.inl (.mk hF.ins))
    obtain ⟨x', rfl, hx⟩ := target hs
    exact ⟨_, _, hS, .postInc hd a2 a3, .ePostInc hx, by count⟩
  case postDec a1 a2 a3 ih1 =>
    intro hk hp rest' hF
    obtain ⟨_, _, hS, hd, hs, hl⟩ := ih1 rfl hp (.inl (.mk hF.ins))
    obtain ⟨x', rfl, hx⟩ := target hs
    exact ⟨_, _, hS, .postDec hd a2 a3, .ePostDec hx, by count⟩
  case unaryPostfix a1 ih1 =>
    intro hk hp rest' hF
    obtain ⟨_, _, hS0, hd0, hs0, hl0⟩ := ih1 rfl hp (hF.mono (by first | exact fun _ => rfl | exact fun h => Bool.noConfusion (show false = true from h)))
    have hS := hS0
    exact ⟨_, _, hS, .unaryPostfix hd0, by sim, by count⟩
  case unop a1 a2 ih2 =>
    intro hk hp rest' hF
    obtain ⟨_, _, hS1, hd1, hs1, hl1⟩ := ih2 rfl hp (hF.mono (by first | exact fun _ => rfl | exact fun h => Bool.noConfusion (show false = true from h)))
    exact ⟨_, _, (.mk hS1.ins), .unop a1 hd1, by sim, by count⟩
  case preInc a1 a2 ih2 =>
    intro hk hp rest' hF
    obtain ⟨_, _, hS, hd, hs, hl⟩ := ih2 rfl hp (hF.mono fun _ => rfl)
    obtain ⟨x', rfl, hx⟩ := target hs
    exact ⟨_, _, .mk hS.ins, .preInc a1 hd, .ePreInc hx, by count⟩
  case preDec a1 a2 ih2 =>
    intro hk hp rest' hF
    obtain ⟨_, _, hS, hd, hs, hl⟩ := ih2 rfl hp (hF.mono fun _ => rfl)
    obtain ⟨x', rfl, hx⟩ := target hs
    exact ⟨_, _, .mk hS.ins, .preDec a1 hd, .ePreDec hx, by count⟩
  case binaryUnary a1 ih1 =>
    intro hk hp rest' hF
    obtain ⟨_, _, hS0, hd0, hs0, hl0⟩ := ih1 rfl hp (hF.mono (by first | exact fun _ => rfl | exact fun h => Bool.noConfusion (show false = true from h)))
    have hS := hS0
    exact ⟨_, _, hS, .binaryUnary hd0, by sim, by count⟩
  case binaryUp a1 a2 ih2 =>
    intro hk hp rest' hF
    obtain ⟨_, _, hS1, hd1, hs1, hl1⟩ := ih2 rfl hp (hF.mono (by first | exact fun _ => rfl | exact fun h => Bool.noConfusion (show false = true from h)))
    have hS := hS1
    exact ⟨_, _, hS, .binaryUp a1 hd1, by sim, by count⟩
  case binop a1 a2 a3 ih1 ih3 =>
    intro hk hp rest' hF
    obtain ⟨_, _, hS2, hd2, hs2, hl2⟩ := ih3 rfl hp (hF.mono (by first | exact fun _ => rfl | exact fun h => Bool.noConfusion (show false = true from h)))
    obtain ⟨_, _, hS0, hd0, hs0, hl0⟩ := ih1 rfl hp (.inl (.mk hS2.ins))
    have hS := hS0
    exact ⟨_, _, hS, .binop hd0 a2 hd2, by sim, by count⟩
  case logop a1 a2 a3 ih1 ih3 =>
    intro hk hp rest' hF
    obtain ⟨_, _, hS2, hd2, hs2, hl2⟩ := ih3 rfl hp (hF.mono (by first | exact fun _ => rfl | exact fun h => Bool.noConfusion (show false = true from h)))
    obtain ⟨_, _, hS0, hd0, hs0, hl0⟩ := ih1 rfl hp (.inl (.mk hS2.ins))
    have hS := hS0
    exact ⟨_, _, hS, .logop hd0 a2 hd2, by sim, by count⟩
  case condNone a1 a2 a3 a4 ih4 =>
    intro hk hp rest' hF
    obtain ⟨_, _, hS3, hd3, hs3, hl3⟩ := ih4 rfl hp (hF.mono (by first | exact fun _ => rfl | exact fun h => Bool.noConfusion (show false = true from h)))
    have hS := hS3
    exact ⟨_, _, hS, .condNone (noRegExp hF.foll a1) (noInfix hF.foll a2) (nextIsNot hF.foll a3 nofun) hd3, by sim, by count⟩
  case cond a1 a2 a3 a4 a5 ih1 ih3 ih5 =>
    intro hk hp rest' hF
    obtain ⟨_, _, hS4, hd4, hs4, hl4⟩ := ih5 rfl hp (hF.mono (by first | exact fun _ => rfl | exact fun h => Bool.noConfusion (show false = true from h)))
    obtain ⟨_, _, hS2, hd2, hs2, hl2⟩ := ih3 rfl hp (.inl (.mk hS4.ins))
    obtain ⟨_, _, hS0, hd0, hs0, hl0⟩ := ih1 rfl hp (.inl (.mk hS2.ins))
    have hS := hS0
    exact ⟨_, _, hS, .cond hd0 a2 hd2 a4 hd4, by sim, by count⟩
  case assignNone a1 a2 ih2 =>
    intro hk hp rest' hF
    obtain ⟨_, _, hS1, hd1, hs1, hl1⟩ := ih2 rfl hp (hF.mono (by first | exact fun _ => rfl | exact fun h => Bool.noConfusion (show false = true from h)))
    have hS := hS1
    exact ⟨_, _, hS, .assignNone (noAssign hF.foll a1) hd1, by sim, by count⟩
  case assign a1 a2 a3 a4 a5 ih3 ih5 =>
    intro hk hp rest' hF
    obtain ⟨_, _, hS2, hd2, hs2, hl2⟩ := ih5 rfl hp (hF.mono fun _ => rfl)
    obtain ⟨_, _, hS, hd, hs, hl⟩ := ih3 rfl hp (.inl (.mk hS2.ins))
    obtain ⟨p', rfl, hf, ha, hx⟩ := pattern (a1 hp) a2 hs
    exact ⟨_, _, hS, .assign (fun _ => hf) ha hd a4 hd2, .eAssign hx hs2, by count⟩
  case binAssign a1 a2 a3 ih1 ih3 =>
    intro hk hp rest' hF
    obtain ⟨_, _, hS2, hd2, hs2, hl2⟩ := ih3 rfl hp (hF.mono fun _ => rfl)
    obtain ⟨_, _, hS, hd, hs, hl⟩ := ih1 rfl hp (.inl (.mk hS2.ins))
    obtain ⟨x', rfl, hx⟩ := target hs
    exact ⟨_, _, hS, .binAssign hd a2 hd2, .eBinAssign rfl hx hs2, by count⟩
  case exprsLast a1 a2 ih2 =>
    intro hk hp rest' hF
    obtain ⟨_, _, hS1, hd1, hs1, hl1⟩ := ih2 rfl hp (hF.mono (by first | exact fun _ => rfl | exact fun h => Bool.noConfusion (show false = true from h)))
    have hS := hS1
    exact ⟨_, _, hS, .exprsLast (nextIsNot hF.foll a1 nofun) hd1, by sim, by count⟩
  case exprsCons a1 a2 a3 ih1 ih3 =>
    intro hk hp rest' hF
    obtain ⟨_, _, hS2, hd2, hs2, hl2⟩ := ih3 rfl hp (hF.mono (by first | exact fun _ => rfl | exact fun h => Bool.noConfusion (show false = true from h)))
    obtain ⟨_, _, hS0, hd0, hs0, hl0⟩ := ih1 rfl hp (.inl (.mk hS2.ins))
    have hS := hS0
    exact ⟨_, _, hS, .exprsCons hd0 a2 hd2, by sim, by count⟩
  case exprOne a1 a2 ih2 =>
    intro hk hp rest' hF
    obtain ⟨_, _, hS1, hd1, hs1, hl1⟩ := ih2 rfl hp (hF.mono (by first | exact fun _ => rfl | exact fun h => Bool.noConfusion (show false = true from h)))
    have hS := hS1
    exact ⟨_, _, hS, .exprOne (nextIsNot hF.foll a1 nofun) hd1, by sim, by count⟩
  case exprSeq a1 a2 ih1 =>
    intro hk hp rest' hF
    obtain ⟨_, _, hS, hd, hs, hl⟩ := ih1 rfl hp (hF.mono fun _ => rfl)
    cases hs with
    | cons h1 h2 =>
      cases h2 with
      | cons h2 h3 =>
        exact ⟨_, _, hS, .exprSeq hd (List.getLast?_eq_some_getLast (List.cons_ne_nil _ _)),
          .eSeq (.cons h1 (.cons h2 h3)), by count⟩
  case directive a1 a2 a3 a4 a5 ih5 =>
    intro hk hp rest' hF
    obtain ⟨_, _, hS2, hd2, hs2, hl2⟩ := ih5 hk hp (.inl (hF.same rfl))
    obtain ⟨_, _, hS1, hd1, hl1⟩ := term a3 hS2
    obtain ⟨_, _, rfl⟩ := Rename.prologue_shape hd2
    cases hs2 with
    | body h1 h2 =>
      refine ⟨_, _, .mk hS1.ins, .directive a1 (notContinues hS1 a2) hd1 rfl hd2,
        .body (by simp only [List.map_cons, h1]) h2, by count⟩
  case prologueEnd a1 a2 a3 ih3 =>
    intro hk hp rest' hF
    obtain ⟨_, _, hS2, hd2, hs2, hl2⟩ := ih3 (isItems_ok _ hk) hp (.inl (hF.same rfl))
    exact ⟨_, _, hS2, .prologueEnd (notDirective hk a3 hd2 hs2 hS2 a1) (stringNoDivision hS2 a2) hd2,
      .body rfl hs2, by count⟩
  case body a1 a2 ih1 =>
    intro hk hp rest' hF
    obtain ⟨_, _, hS2, hd2, hs2, hl2⟩ := ih1 hk hp (.inl (hF.same rfl))
    obtain ⟨_, _, rfl⟩ := Rename.prologue_shape hd2
    cases hs2 with
    | body h1 h2 => exact ⟨_, _, hS2, .body hd2 rfl, .body h1 h2, by count⟩
  case itemsNil a1 =>
    intro hk hp rest' hF
    obtain ⟨_, _, _, he, rfl, h⟩ := hF.same rfl
    cases he
    exact ⟨_, _, .mk h, .itemsNil a1, by sim, by count⟩
  case itemsCons a1 a2 ih1 ih2 =>
    intro hk hp rest' hF
    obtain ⟨_, _, hS1, hd1, hs1, hl1⟩ := ih2 rfl hp (hF.mono (by first | exact fun _ => rfl | exact fun h => Bool.noConfusion (show false = true from h)))
    obtain ⟨_, _, hS0, hd0, hs0, hl0⟩ := ih1 rfl hp (.inl hS1)
    have hS := hS0
    exact ⟨_, _, hS, .itemsCons hd0 hd1, by sim, by count⟩
  case modItemsNil a1 =>
    intro hk hp rest' hF
    obtain ⟨_, _, _, he, rfl, h⟩ := hF.same rfl
    cases he
    exact ⟨_, _, .mk h, .modItemsNil a1, by sim, by count⟩
  case modItemsCons a1 a2 ih1 ih2 =>
    intro hk hp rest' hF
    obtain ⟨_, _, hS1, hd1, hs1, hl1⟩ := ih2 rfl hp (hF.mono (by first | exact fun _ => rfl | exact fun h => Bool.noConfusion (show false = true from h)))
    obtain ⟨_, _, hS0, hd0, hs0, hl0⟩ := ih1 rfl hp (.inl hS1)
    have hS := hS0
    exact ⟨_, _, hS, .modItemsCons hd0 hd1, by sim, by count⟩
  case itemStmt a1 ih1 =>
    intro hk hp rest' hF
    obtain ⟨_, _, hS0, hd0, hs0, hl0⟩ := ih1 rfl hp (hF.mono (by first | exact fun _ => rfl | exact fun h => Bool.noConfusion (show false = true from h)))
    have hS := hS0
    exact ⟨_, _, hS, .itemStmt hd0, by sim, by count⟩
  case itemDecl a1 ih1 =>
    intro hk hp rest' hF
    obtain ⟨_, _, hS0, hd0, hs0, hl0⟩ := ih1 rfl hp (hF.mono (by first | exact fun _ => rfl | exact fun h => Bool.noConfusion (show false = true from h)))
    have hS := hS0
    exact ⟨_, _, hS, .itemDecl hd0, by sim, by count⟩
  case declFun a1 a2 ih1 =>
    intro hk hp rest' hF
    obtain ⟨_, _, hS2, hd2, hs2, hl2⟩ := ih1 rfl hp (.inl (hF.same rfl))
    cases hs2 with
    | func h1 h2 h3 => exact ⟨_, _, hS2, .declFun hd2 rfl, .dFun (.func h1 h2 h3), by count⟩
  case declLet a1 a2 a3 a4 ih2 =>
    intro hk hp rest' hF
    obtain ⟨_, _, hS2, hd2, hl2⟩ := term a3 (hF.same rfl)
    obtain ⟨_, _, hS1, hd1, hs1, hl1⟩ := ih2 rfl hp (.of hS2 rfl)
    exact ⟨_, _, (.mk hS1.ins), .declLet a1 hd1 hd2 rfl, by sim, by count⟩
  case declConst a1 a2 a3 a4 ih2 =>
    intro hk hp rest' hF
    obtain ⟨_, _, hS2, hd2, hl2⟩ := term a3 (hF.same rfl)
    obtain ⟨_, _, hS1, hd1, hs1, hl1⟩ := ih2 rfl hp (.of hS2 rfl)
    exact ⟨_, _, (.mk hS1.ins), .declConst a1 hd1 hd2 rfl, by sim, by count⟩
  case dtorNone a1 a2 a3 =>
    intro hk hp rest' hF
    exact ⟨_, _, (.mk hF.ins), .dtorNone (nextIsNot hF.foll a1 nofun) a2 rfl, by sim, by count⟩
  case dtorInit a1 a2 a3 a4 ih3 =>
    intro hk hp rest' hF
    obtain ⟨_, _, hS2, hd2, hs2, hl2⟩ := ih3 rfl hp (hF.mono (by first | exact fun _ => rfl | exact fun h => Bool.noConfusion (show false = true from h)))
    exact ⟨_, _, (.mk (.cons hS2.ins)), .dtorInit a1 a2 hd2 rfl, by sim, by count⟩
  case dtorsLast a1 a2 ih2 =>
    intro hk hp rest' hF
    obtain ⟨_, _, hS1, hd1, hs1, hl1⟩ := ih2 rfl hp (hF.mono (by first | exact fun _ => rfl | exact fun h => Bool.noConfusion (show false = true from h)))
    have hS := hS1
    exact ⟨_, _, hS, .dtorsLast (nextIsNot hF.foll a1 nofun) hd1, by sim, by count⟩
  case dtorsCons a1 a2 a3 ih1 ih3 =>
    intro hk hp rest' hF
    obtain ⟨_, _, hS2, hd2, hs2, hl2⟩ := ih3 rfl hp (hF.mono (by first | exact fun _ => rfl | exact fun h => Bool.noConfusion (show false = true from h)))
    obtain ⟨_, _, hS0, hd0, hs0, hl0⟩ := ih1 rfl hp (.inl (.mk hS2.ins))
    have hS := hS0
    exact ⟨_, _, hS, .dtorsCons hd0 a2 hd2, by sim, by count⟩
  case constDtor a1 a2 a3 ih1 ih3 =>
    intro hk hp rest' hF
    obtain ⟨_, _, hS2, hd2, hs2, hl2⟩ := ih3 rfl hp (hF.mono (by first | exact fun _ => rfl | exact fun h => Bool.noConfusion (show false = true from h)))
    obtain ⟨_, _, hS0, hd0, hs0, hl0⟩ := ih1 rfl hp (.inl (.mk hS2.ins))
    have hS := hS0
    exact ⟨_, _, hS, .constDtor hd0 a2 hd2, by sim, by count⟩
  case constDtorsLast a1 a2 ih2 =>
    intro hk hp rest' hF
    obtain ⟨_, _, hS1, hd1, hs1, hl1⟩ := ih2 rfl hp (hF.mono (by first | exact fun _ => rfl | exact fun h => Bool.noConfusion (show false = true from h)))
    have hS := hS1
    exact ⟨_, _, hS, .constDtorsLast (nextIsNot hF.foll a1 nofun) hd1, by sim, by count⟩
  case constDtorsCons a1 a2 a3 ih1 ih3 =>
    intro hk hp rest' hF
    obtain ⟨_, _, hS2, hd2, hs2, hl2⟩ := ih3 rfl hp (hF.mono (by first | exact fun _ => rfl | exact fun h => Bool.noConfusion (show false = true from h)))
    obtain ⟨_, _, hS0, hd0, hs0, hl0⟩ := ih1 rfl hp (.inl (.mk hS2.ins))
    have hS := hS0
    exact ⟨_, _, hS, .constDtorsCons hd0 a2 hd2, by sim, by count⟩
  case block a1 a2 a3 a4 ih2 =>
    intro hk hp rest' hF
    obtain ⟨_, _, hS1, hd1, hs1, hl1⟩ := ih2 rfl hp (.inl (.mk hF.ins))
    exact ⟨_, _, (.mk hS1.ins), .block a1 hd1 a3 rfl, by sim, by count⟩
  case blockStmt a1 ih1 =>
    intro hk hp rest' hF
    obtain ⟨_, _, hS0, hd0, hs0, hl0⟩ := ih1 rfl hp (hF.mono (by first | exact fun _ => rfl | exact fun h => Bool.noConfusion (show false = true from h)))
    have hS := hS0
    exact ⟨_, _, hS, .blockStmt hd0, by sim, by count⟩
  case varStmt a1 a2 a3 a4 ih2 =>
    intro hk hp rest' hF
    obtain ⟨_, _, hS2, hd2, hl2⟩ := term a3 (hF.same rfl)
    obtain ⟨_, _, hS1, hd1, hs1, hl1⟩ := ih2 rfl hp (.of hS2 rfl)
    exact ⟨_, _, (.mk hS1.ins), .varStmt a1 hd1 hd2 rfl, by sim, by count⟩
  case emptyStmt a1 a2 =>
    intro hk hp rest' hF
    exact ⟨_, _, (.mk hF.ins), .emptyStmt a1 rfl, by sim, by count⟩
  case exprStmt a1 a2 a3 a4 ih2 =>
    intro hk hp rest' hF
    obtain ⟨_, _, hS2, hd2, hl2⟩ := term a3 (hF.same rfl)
    obtain ⟨_, _, hS1, hd1, hs1, hl1⟩ := ih2 rfl hp (.of hS2 rfl)
    have hS := hS1
    exact ⟨_, _, hS, .exprStmt (exprStmtStart hS a1) hd1 hd2 rfl, by sim, by count⟩
  case ifStmt a1 a2 a3 a4 a5 a6 a7 ih3 ih5 =>
    intro hk hp rest' hF
    obtain ⟨_, _, hS4, hd4, hs4, hl4⟩ := ih5 rfl hp (hF.mono (by first | exact fun _ => rfl | exact fun h => Bool.noConfusion (show false = true from h)))
    obtain ⟨_, _, hS2, hd2, hs2, hl2⟩ := ih3 rfl hp (.inl (.mk hS4.ins))
    exact ⟨_, _, (.mk (.cons hS2.ins)), .ifStmt a1 a2 hd2 a4 hd4 (nextIsNot hF.foll a6 nofun) rfl, by sim, by count⟩
  case ifElseStmt a1 a2 a3 a4 a5 a6 a7 a8 ih3 ih5 ih7 =>
    intro hk hp rest' hF
    obtain ⟨_, _, hS6, hd6, hs6, hl6⟩ := ih7 rfl hp (hF.mono (by first | exact fun _ => rfl | exact fun h => Bool.noConfusion (show false = true from h)))
    obtain ⟨_, _, hS4, hd4, hs4, hl4⟩ := ih5 rfl hp (.inl (.mk hS6.ins))
    obtain ⟨_, _, hS2, hd2, hs2, hl2⟩ := ih3 rfl hp (.inl (.mk hS4.ins))
    exact ⟨_, _, (.mk (.cons hS2.ins)), .ifElseStmt a1 a2 hd2 a4 hd4 a6 hd6 rfl, by sim, by count⟩
  case doStmt a1 a2 a3 a4 a5 a6 a7 a8 ih2 ih5 =>
    intro hk hp rest' hF
    obtain ⟨_, _, hS6, hd6, hl6⟩ := term a7 (hF.same rfl)
    obtain ⟨_, _, hS4, hd4, hs4, hl4⟩ := ih5 rfl hp (.inl (.mk hS6.ins))
    obtain ⟨_, _, hS1, hd1, hs1, hl1⟩ := ih2 rfl hp (.inl (.mk (.cons hS4.ins)))
    exact ⟨_, _, (.mk hS1.ins), .doStmt a1 hd1 a3 a4 hd4 a6 hd6 rfl, by sim, by count⟩
  case whileStmt a1 a2 a3 a4 a5 a6 ih3 ih5 =>
    intro hk hp rest' hF
    obtain ⟨_, _, hS4, hd4, hs4, hl4⟩ := ih5 rfl hp (hF.mono (by first | exact fun _ => rfl | exact fun h => Bool.noConfusion (show false = true from h)))
    obtain ⟨_, _, hS2, hd2, hs2, hl2⟩ := ih3 rfl hp (.inl (.mk hS4.ins))
    exact ⟨_, _, (.mk (.cons hS2.ins)), .whileStmt a1 a2 hd2 a4 hd4 rfl, by sim, by count⟩
  case forStmt a1 a2 a3 a4 a5 a6 a7 a8 a9 ih3 ih4 ih6 ih8 =>
    intro hk hp rest' hF
    obtain ⟨_, _, hS7, hd7, hs7, hl7⟩ := ih8 rfl hp (hF.mono (by first | exact fun _ => rfl | exact fun h => Bool.noConfusion (show false = true from h)))
    obtain ⟨_, _, hS5, hd5, hs5, hl5⟩ := ih6 rfl hp (.inl (.mk hS7.ins))
    obtain ⟨_, _, hS3, hd3, hs3, hl3⟩ := ih4 rfl hp (.inl (.mk hS5.ins))
    obtain ⟨_, _, hS2, hd2, hs2, hl2⟩ := ih3 rfl hp (.inl hS3)
    exact ⟨_, _, (.mk (.cons hS2.ins)), .forStmt a1 a2 hd2 hd3 a5 hd5 a7 hd7 rfl, by sim, by count⟩
  case forInStmt a1 a2 a3 a4 a5 a6 a7 a8 ih3 ih5 ih7 =>
    intro hk hp rest' hF
    obtain ⟨_, _, hS6, hd6, hs6, hl6⟩ := ih7 rfl hp (hF.mono (by first | exact fun _ => rfl | exact fun h => Bool.noConfusion (show false = true from h)))
    obtain ⟨_, _, hS4, hd4, hs4, hl4⟩ := ih5 rfl hp (.inl (.mk hS6.ins))
    obtain ⟨_, _, hS2, hd2, hs2, hl2⟩ := ih3 rfl hp (.inl (.mk hS4.ins))
    exact ⟨_, _, (.mk (.cons hS2.ins)), .forInStmt a1 a2 hd2 a4 hd4 a6 hd6 rfl, by sim, by count⟩
  case forOfStmt a1 a2 a3 a4 a5 a6 a7 a8 ih3 ih5 ih7 =>
    intro hk hp rest' hF
    obtain ⟨_, _, hS6, hd6, hs6, hl6⟩ := ih7 rfl hp (hF.mono (by first | exact fun _ => rfl | exact fun h => Bool.noConfusion (show false = true from h)))
    obtain ⟨_, _, hS4, hd4, hs4, hl4⟩ := ih5 rfl hp (.inl (.mk hS6.ins))
    obtain ⟨_, _, hS2, hd2, hs2, hl2⟩ := ih3 rfl hp (.inl (.mk hS4.ins))
    exact ⟨_, _, (.mk (.cons hS2.ins)), .forOfStmt a1 a2 hd2 a4 hd4 a6 hd6 rfl, by sim, by count⟩
  case exprOptNone  =>
    intro hk hp rest' hF
    have hS := (hF.same rfl)
    exact ⟨_, _, hS, .exprOptNone , by sim, by count⟩
  case exprOptSome a1 ih1 =>
    intro hk hp rest' hF
    obtain ⟨_, _, hS0, hd0, hs0, hl0⟩ := ih1 rfl hp (hF.mono (by first | exact fun _ => rfl | exact fun h => Bool.noConfusion (show false = true from h)))
    have hS := hS0
    exact ⟨_, _, hS, .exprOptSome hd0, by sim, by count⟩
  case headDtorNone a1 =>
    intro hk hp rest' hF
    exact ⟨_, _, (.mk hF.ins), .headDtorNone a1, by sim, by count⟩
  case headDtorInit a1 a2 a3 ih3 =>
    intro hk hp rest' hF
    obtain ⟨_, _, hS2, hd2, hs2, hl2⟩ := ih3 rfl hp (hF.mono (by first | exact fun _ => rfl | exact fun h => Bool.noConfusion (show false = true from h)))
    exact ⟨_, _, (.mk (.cons hS2.ins)), .headDtorInit a1 a2 hd2, by sim, by count⟩
  case headDtorsLast a1 ih1 =>
    intro hk hp rest' hF
    obtain ⟨_, _, hS0, hd0, hs0, hl0⟩ := ih1 rfl hp (hF.mono (by first | exact fun _ => rfl | exact fun h => Bool.noConfusion (show false = true from h)))
    have hS := hS0
    exact ⟨_, _, hS, .headDtorsLast hd0, by sim, by count⟩
  case headDtorsCons a1 a2 a3 ih1 ih3 =>
    intro hk hp rest' hF
    obtain ⟨_, _, hS2, hd2, hs2, hl2⟩ := ih3 rfl hp (hF.mono (by first | exact fun _ => rfl | exact fun h => Bool.noConfusion (show false = true from h)))
    obtain ⟨_, _, hS0, hd0, hs0, hl0⟩ := ih1 rfl hp (.inl (.mk hS2.ins))
    have hS := hS0
    exact ⟨_, _, hS, .headDtorsCons hd0 a2 hd2, by sim, by count⟩
  case forHeadNone a1 =>
    intro hk hp rest' hF
    exact ⟨_, _, (.mk hF.ins), .forHeadNone a1, by sim, by count⟩
  case forHeadVar a1 a2 a3 ih2 =>
    intro hk hp rest' hF
    obtain ⟨_, _, hS1, hd1, hs1, hl1⟩ := ih2 rfl hp (.inl (.mk hF.ins))
    exact ⟨_, _, (.mk hS1.ins), .forHeadVar a1 hd1 a3, by sim, by count⟩
  case forHeadLet a1 a2 a3 ih2 =>
    intro hk hp rest' hF
    obtain ⟨_, _, hS1, hd1, hs1, hl1⟩ := ih2 rfl hp (.inl (.mk hF.ins))
    exact ⟨_, _, (.mk hS1.ins), .forHeadLet a1 hd1 a3, by sim, by count⟩
  case forHeadConst a1 a2 a3 ih2 =>
    intro hk hp rest' hF
    obtain ⟨_, _, hS1, hd1, hs1, hl1⟩ := ih2 rfl hp (.inl (.mk hF.ins))
    exact ⟨_, _, (.mk hS1.ins), .forHeadConst a1 hd1 a3, by sim, by count⟩
  case forHeadExpr a1 a2 a3 a4 ih3 =>
    intro hk hp rest' hF
    obtain ⟨_, _, hS2, hd2, hs2, hl2⟩ := ih3 rfl hp (.inl (.mk hF.ins))
    have hS := hS2
    exact ⟨_, _, hS, .forHeadExpr (letNoDivision hS a1) (forExprStart hS a2) hd2 a4, by sim, by count⟩
  case forInVarInit a1 a2 a3 a4 ih4 =>
    intro hk hp rest' hF
    obtain ⟨_, _, hS3, hd3, hs3, hl3⟩ := ih4 rfl hp (hF.mono (by first | exact fun _ => rfl | exact fun h => Bool.noConfusion (show false = true from h)))
    exact ⟨_, _, (.mk (.cons (.cons hS3.ins))), .forInVarInit a1 a2 a3 hd3, by sim, by count⟩
  case forInVar a1 a2 ih2 =>
    intro hk hp rest' hF
    obtain ⟨_, _, hS1, hd1, hs1, hl1⟩ := ih2 rfl hp (hF.mono (by first | exact fun _ => rfl | exact fun h => Bool.noConfusion (show false = true from h)))
    exact ⟨_, _, (.mk hS1.ins), .forInVar a1 hd1, by sim, by count⟩
  case forInLet a1 a2 ih2 =>
    intro hk hp rest' hF
    obtain ⟨_, _, hS1, hd1, hs1, hl1⟩ := ih2 rfl hp (hF.mono (by first | exact fun _ => rfl | exact fun h => Bool.noConfusion (show false = true from h)))
    exact ⟨_, _, (.mk hS1.ins), .forInLet a1 hd1, by sim, by count⟩
  case forInConst a1 a2 ih2 =>
    intro hk hp rest' hF
    obtain ⟨_, _, hS1, hd1, hs1, hl1⟩ := ih2 rfl hp (hF.mono (by first | exact fun _ => rfl | exact fun h => Bool.noConfusion (show false = true from h)))
    exact ⟨_, _, (.mk hS1.ins), .forInConst a1 hd1, by sim, by count⟩
  case forInPatt a1 a2 a3 a4 a5 ih5 =>
    intro hk hp rest' hF
    obtain ⟨_, _, hS, hd, hs, hl⟩ := ih5 rfl hp (hF.mono fun _ => rfl)
    obtain ⟨p', rfl, hf, ha, hx⟩ := pattern (a2 hp) a3 hs
    exact ⟨_, _, hS, .forInPatt (letNoDivision hS a1) (fun _ => hf) ha (forExprStart hS a4) hd, .fiPatt hx, by count⟩
  case forOfVar a1 a2 ih2 =>
    intro hk hp rest' hF
    obtain ⟨_, _, hS1, hd1, hs1, hl1⟩ := ih2 rfl hp (hF.mono (by first | exact fun _ => rfl | exact fun h => Bool.noConfusion (show false = true from h)))
    exact ⟨_, _, (.mk hS1.ins), .forOfVar a1 hd1, by sim, by count⟩
  case forOfLet a1 a2 ih2 =>
    intro hk hp rest' hF
    obtain ⟨_, _, hS1, hd1, hs1, hl1⟩ := ih2 rfl hp (hF.mono (by first | exact fun _ => rfl | exact fun h => Bool.noConfusion (show false = true from h)))
    exact ⟨_, _, (.mk hS1.ins), .forOfLet a1 hd1, by sim, by count⟩
  case forOfConst a1 a2 ih2 =>
    intro hk hp rest' hF
    obtain ⟨_, _, hS1, hd1, hs1, hl1⟩ := ih2 rfl hp (hF.mono (by first | exact fun _ => rfl | exact fun h => Bool.noConfusion (show false = true from h)))
    exact ⟨_, _, (.mk hS1.ins), .forOfConst a1 hd1, by sim, by count⟩
  case forOfPatt a1 a2 a3 a4 a5 ih5 =>
    intro hk hp rest' hF
    obtain ⟨_, _, hS, hd, hs, hl⟩ := ih5 rfl hp (hF.mono fun _ => rfl)
    obtain ⟨p', rfl, hf, ha, hx⟩ := pattern (a2 hp) a3 hs
    exact ⟨_, _, hS, .forOfPatt (letNoDivision hS a1) (fun _ => hf) ha (forExprStart hS a4) hd, .foPatt hx, by count⟩
  case breakNone a1 a2 a3 a4 a5 =>
    intro hk hp rest' hF
    obtain ⟨_, _, hS3, hd3, hl3⟩ := term a4 (hF.same rfl)
    exact ⟨_, _, (.mk hS3.ins), .breakNone a1 (noArgSameLine hS3 a2) a3 hd3 rfl, by sim, by count⟩
  case breakLabel a1 a2 a3 a4 a5 a6 =>
    intro hk hp rest' hF
    obtain ⟨_, _, hS4, hd4, hl4⟩ := term a5 (hF.same rfl)
    exact ⟨_, _, (.mk (.cons hS4.ins)), .breakLabel a1 (argSameLine (.mk hS4.ins) a2) a3 a4 hd4 rfl, by sim, by count⟩
  case continueNone a1 a2 a3 a4 a5 =>
    intro hk hp rest' hF
    obtain ⟨_, _, hS3, hd3, hl3⟩ := term a4 (hF.same rfl)
    exact ⟨_, _, (.mk hS3.ins), .continueNone a1 (noArgSameLine hS3 a2) a3 hd3 rfl, by sim, by count⟩
  case continueLabel a1 a2 a3 a4 a5 a6 =>
    intro hk hp rest' hF
    obtain ⟨_, _, hS4, hd4, hl4⟩ := term a5 (hF.same rfl)
    exact ⟨_, _, (.mk (.cons hS4.ins)), .continueLabel a1 (argSameLine (.mk hS4.ins) a2) a3 a4 hd4 rfl, by sim, by count⟩
  case returnNone a1 a2 a3 a4 a5 =>
    intro hk hp rest' hF
    obtain ⟨_, _, hS3, hd3, hl3⟩ := term a4 (hF.same rfl)
    exact ⟨_, _, (.mk hS3.ins), .returnNone a1 (noArgSameLine hS3 a2) a3 hd3 rfl, by sim, by count⟩
  case returnExpr a1 a2 a3 a4 a5 a6 ih4 =>
    intro hk hp rest' hF
    obtain ⟨_, _, hS4, hd4, hl4⟩ := term a5 (hF.same rfl)
    obtain ⟨_, _, hS3, hd3, hs3, hl3⟩ := ih4 rfl hp (.of hS4 rfl)
    exact ⟨_, _, (.mk hS3.ins), .returnExpr a1 (argSameLine hS3 a2) a3 hd3 hd4 rfl, by sim, by count⟩
  case throwStmt a1 a2 a3 a4 a5 ih3 =>
    intro hk hp rest' hF
    obtain ⟨_, _, hS3, hd3, hl3⟩ := term a4 (hF.same rfl)
    obtain ⟨_, _, hS2, hd2, hs2, hl2⟩ := ih3 rfl hp (.of hS3 rfl)
    exact ⟨_, _, (.mk hS2.ins), .throwStmt a1 (argSameLine hS2 a2) hd2 hd3 rfl, by sim, by count⟩
  case withStmt a1 a2 a3 a4 a5 a6 a7 ih4 ih6 =>
    intro hk hp rest' hF
    obtain ⟨_, _, hS5, hd5, hs5, hl5⟩ := ih6 rfl hp (hF.mono (by first | exact fun _ => rfl | exact fun h => Bool.noConfusion (show false = true from h)))
    obtain ⟨_, _, hS3, hd3, hs3, hl3⟩ := ih4 rfl hp (.inl (.mk hS5.ins))
    exact ⟨_, _, (.mk (.cons hS3.ins)), .withStmt a1 a2 a3 hd3 a5 hd5 rfl, by sim, by count⟩
  case switchStmt a1 a2 a3 a4 a5 a6 a7 a8 a9 ih3 ih6 =>
    intro hk hp rest' hF
    obtain ⟨_, _, hS5, hd5, hs5, hl5⟩ := ih6 rfl hp (.inl (.mk hF.ins))
    obtain ⟨_, _, hS2, hd2, hs2, hl2⟩ := ih3 rfl hp (.inl (.mk (.cons hS5.ins)))
    exact ⟨_, _, .mk (.cons hS2.ins), .switchStmt a1 a2 hd2 a4 a5 hd5 a7
      (by rw [defaults _ hs5 rfl]; exact a8) rfl, .sSwitch hs2 hs5, by count⟩
  case casesNil  =>
    intro hk hp rest' hF
    have hS := (hF.same rfl)
    exact ⟨_, _, hS, .casesNil , by sim, by count⟩
  case casesCons a1 a2 ih1 ih2 =>
    intro hk hp rest' hF
    obtain ⟨_, _, hS1, hd1, hs1, hl1⟩ := ih2 rfl hp (hF.mono (by first | exact fun _ => rfl | exact fun h => Bool.noConfusion (show false = true from h)))
    obtain ⟨_, _, hS0, hd0, hs0, hl0⟩ := ih1 rfl hp (.inl hS1)
    have hS := hS0
    exact ⟨_, _, hS, .casesCons hd0 hd1, by sim, by count⟩
  case case a1 a2 a3 a4 a5 ih2 ih4 =>
    intro hk hp rest' hF
    obtain ⟨_, _, hS3, hd3, hs3, hl3⟩ := ih4 rfl hp (hF.mono (by first | exact fun _ => rfl | exact fun h => Bool.noConfusion (show false = true from h)))
    obtain ⟨_, _, hS1, hd1, hs1, hl1⟩ := ih2 rfl hp (.inl (.mk hS3.ins))
    exact ⟨_, _, (.mk hS1.ins), .case a1 hd1 a3 hd3 rfl, by sim, by count⟩
  case default a1 a2 a3 a4 ih3 =>
    intro hk hp rest' hF
    obtain ⟨_, _, hS2, hd2, hs2, hl2⟩ := ih3 rfl hp (hF.mono (by first | exact fun _ => rfl | exact fun h => Bool.noConfusion (show false = true from h)))
    exact ⟨_, _, (.mk (.cons hS2.ins)), .default a1 a2 hd2 rfl, by sim, by count⟩
  case labelStmt a1 a2 a3 a4 ih4 =>
    intro hk hp rest' hF
    obtain ⟨_, _, hS4, hd4, hs4, hl4⟩ := ih4 rfl hp (.inl (hF.same rfl))
    exact ⟨_, _, .mk (.cons hS4.ins), .labelStmt a1 a2 a3 (isLoop_similar hs4 ▸ hd4), .sLabel rfl hs4, by count⟩
  case tryStmt a1 a2 a3 a4 a5 a6 ih2 ih3 ih4 =>
    intro hk hp rest' hF
    obtain ⟨_, _, hS4, hd4, hs4, hl4⟩ := ih4 rfl hp (.inl (hF.same rfl))
    obtain ⟨_, _, hS3, hd3, hs3, hl3⟩ := ih3 rfl hp (.inl hS4)
    obtain ⟨_, _, hS2, hd2, hs2, hl2⟩ := ih2 rfl hp (.inl hS3)
    exact ⟨_, _, .mk hS2.ins, .tryStmt a1 hd2 hd3 hd4 (a5.imp (notNone hs3) (notNone hs4)) rfl,
      .sTry hs2 hs3 hs4, by count⟩
  case catchNone  =>
    intro hk hp rest' hF
    have hS := (hF.same rfl)
    exact ⟨_, _, hS, .catchNone , by sim, by count⟩
  case catchSome a1 a2 a3 a4 a5 a6 ih3 ih5 =>
    intro hk hp rest' hF
    obtain ⟨_, _, hS4, hd4, hs4, hl4⟩ := ih5 rfl hp (hF.mono (by first | exact fun _ => rfl | exact fun h => Bool.noConfusion (show false = true from h)))
    obtain ⟨_, _, hS2, hd2, hs2, hl2⟩ := ih3 rfl hp (.inl (.mk hS4.ins))
    exact ⟨_, _, (.mk (.cons hS2.ins)), .catchSome a1 a2 hd2 a4 hd4 rfl, by sim, by count⟩
  case finallyNone a1 =>
    intro hk hp rest' hF
    have hS := (hF.same rfl)
    exact ⟨_, _, hS, .finallyNone (nextIsNot hF.foll a1 nofun), by sim, by count⟩
  case finallySome a1 a2 ih2 =>
    intro hk hp rest' hF
    obtain ⟨_, _, hS1, hd1, hs1, hl1⟩ := ih2 rfl hp (hF.mono (by first | exact fun _ => rfl | exact fun h => Bool.noConfusion (show false = true from h)))
    exact ⟨_, _, (.mk hS1.ins), .finallySome a1 hd1, by sim, by count⟩
  case debuggerStmt a1 a2 a3 =>
    intro hk hp rest' hF
    obtain ⟨_, _, hS1, hd1, hl1⟩ := term a2 (hF.same rfl)
    exact ⟨_, _, (.mk hS1.ins), .debuggerStmt a1 hd1 rfl, by sim, by count⟩

end Semis

end Esprit
