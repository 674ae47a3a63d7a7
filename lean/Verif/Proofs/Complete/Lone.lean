import Verif.Proofs.Complete.Join
import Verif.Spec.Join
import Verif.Proofs.Cover
import Verif.Props.Tree

/-! Statements that consist of a string literal, as directives and as statements. -/

set_option linter.unusedSectionVars false
set_option linter.unusedVariables false

namespace Esprit

open Lex ReaderSpec Grammar

namespace Lone

variable {L : LocSpec} {env : Scope} {t t2 : Token} {r inp rest : List Token} {s : StringLiteral}

/-- The nonterminals of expressions. -/
def exprNT : {c : Cat} → NT c → Bool
  | _, .primary | _, .lhs _ | _, .newBase _ | _, .new _ | _, .postfix | _, .unary | _, .binary _
  | _, .cond | _, .assign | _, .expr | _, .exprs | _, .func _ => true
  | _, _ => false

/-- The tree is the string literal. -/
def IsLone (s : StringLiteral) : {c : Cat} → Ast c → Prop
  | _, .eString _ y => y = s
  | _, .cons (.eString _ y) .nil => y = s
  | _, _ => False

theorem isLone_expr {e : Expr} (h : IsLone s e) : ∃ l, e = .eString l s := by
  cases e <;> first | exact h.elim | (cases h; exact ⟨_, rfl⟩)

theorem isLone_two {a b : Expr} {es : Ast (.list .expr)} (h : IsLone s (.cons a (.cons b es))) : False := by
  cases a <;> exact h

theorem symbol_continues {v : TokenData} :
    (∀ tag : BinopTag, IsSymbol tag.display v → v ∈ continuers) ∧
    (∀ tag : LogopTag, IsSymbol tag.display v → v ∈ continuers) ∧
    ∀ tag : AssopTag, IsSymbol tag.display v → v ∈ continuers := by
  have key : ∀ p ∈ punctuators ++ reservedWords.map fun p => (p.1, TokenData.reserved p.2),
      p.2 ∈ continuers ∨ ((∀ tag : BinopTag, tag.display ≠ p.1) ∧ (∀ tag : LogopTag, tag.display ≠ p.1) ∧
        ∀ tag : AssopTag, tag.display ≠ p.1) := by
    intro p hp
    by_cases h : p.2 ∈ continuers
    · exact .inl h
    · have k2 : ∀ p ∈ punctuators ++ reservedWords.map fun p => (p.1, TokenData.reserved p.2),
          p.2 ∉ continuers → p.1 ∉ ([.eq, .nEq, .strictEq, .strictNEq, .lt, .lEq, .gt, .gEq, .lShift, .rShift, .uRShift,
            .plus, .minus, .times, .div, .mod, .bitOr, .bitXor, .bitAnd, .«in», .instanceof] : List BinopTag).map BinopTag.display ∧
          p.1 ∉ ([.or, .and] : List LogopTag).map LogopTag.display ∧
          p.1 ∉ ([.plusEq, .minusEq, .timesEq, .divEq, .modEq, .lShiftEq, .rShiftEq, .uRShiftEq, .bitOrEq, .bitXorEq, .bitAndEq] : List AssopTag).map AssopTag.display := by
        decide +kernel
      obtain ⟨h1, h2, h3⟩ := k2 p hp h
      refine .inr ⟨fun tag he => h1 ?_, fun tag he => h2 ?_, fun tag he => h3 ?_⟩
      · rw [← he]; cases tag <;> decide
      · rw [← he]; cases tag <;> decide
      · rw [← he]; cases tag <;> decide
  refine ⟨fun tag h => ?_, fun tag h => ?_, fun tag h => ?_⟩
  · exact (key _ h).resolve_right fun hn => hn.1 tag rfl
  · exact (key _ h).resolve_right fun hn => hn.2.1 tag rfl
  · exact (key _ h).resolve_right fun hn => hn.2.2 tag rfl

/-- An expression that begins with a string literal, and which the next token does not continue. -/
theorem lone {c : Cat} {nt : NT c} {x : Ast c} (h : Derives L env nt inp rest x)
    (ht : t.value = .string s) (hc : ¬ Continues t2) : exprNT nt = true → inp = t :: t2 :: r →
      rest = t2 :: r ∧ IsLone s x := by
  have hno : ∀ v ∈ continuers, t2.value ≠ v := fun v hv he => hc (.inl (he ▸ hv))
  induction h
  case string a1 =>
    intro _ he
    cases he
    rw [ht] at a1
    cases a1
    exact ⟨rfl, rfl⟩
  case dot a1 a2 a3 ih =>
    intro hn he
    obtain ⟨h1, _⟩ := ih rfl he
    cases h1
    exact absurd a2 (hno _ (by decide))
  case brack a1 a2 a3 a4 ih _ =>
    intro hn he
    obtain ⟨h1, _⟩ := ih rfl he
    cases h1
    exact absurd a2 (hno _ (by decide))
  case call a1 a2 a3 a4 ih _ =>
    intro hn he
    obtain ⟨h1, _⟩ := ih rfl he
    cases h1
    exact absurd a2 (hno _ (by decide))
  case postInc a1 a2 a3 ih =>
    intro hn he
    obtain ⟨h1, _⟩ := ih rfl he
    cases h1
    exact absurd (.inr ⟨.inl a2, a3⟩) hc
  case postDec a1 a2 a3 ih =>
    intro hn he
    obtain ⟨h1, _⟩ := ih rfl he
    cases h1
    exact absurd (.inr ⟨.inr a2, a3⟩) hc
  case unop a1 _ _ =>
    intro hn he
    cases he
    obtain ⟨_, x, _, hs⟩ := a1
    rw [ht] at hs
    exact absurd hs ((by decide +kernel : ∀ p ∈ punctuators ++ reservedWords.map fun p => (p.1, TokenData.reserved p.2), (match p.2 with | .string _ => true | _ => false) = false) _ · |> fun h => by cases h)
  case binop a1 a2 a3 ih _ =>
    intro hn he
    obtain ⟨h1, _⟩ := ih rfl he
    cases h1
    exact absurd (.inl (symbol_continues.1 _ a2.2.1)) hc
  case logop a1 a2 a3 ih _ =>
    intro hn he
    obtain ⟨h1, _⟩ := ih rfl he
    cases h1
    exact absurd (.inl (symbol_continues.2.1 _ a2.2)) hc
  case cond a1 a2 a3 a4 a5 ih _ _ =>
    intro hn he
    obtain ⟨h1, _⟩ := ih rfl he
    cases h1
    exact absurd a2 (hno _ (by decide))
  case assign a1 a2 a3 a4 a5 ih _ =>
    intro hn he
    obtain ⟨h1, _⟩ := ih rfl he
    cases h1
    exact absurd a4 (hno _ (by decide))
  case binAssign a1 a2 a3 ih _ =>
    intro hn he
    obtain ⟨h1, _⟩ := ih rfl he
    cases h1
    exact absurd (.inl (symbol_continues.2.2 _ a2.2)) hc
  case exprsLast a1 a2 ih =>
    intro hn he
    obtain ⟨h1, h2⟩ := ih rfl he
    obtain ⟨l, rfl⟩ := isLone_expr h2
    exact ⟨h1, rfl⟩
  case exprsCons a1 a2 a3 ih _ =>
    intro hn he
    obtain ⟨h1, _⟩ := ih rfl he
    cases h1
    exact absurd a2 (hno _ (by decide))
  case exprSeq a1 a2 ih =>
    intro hn he
    exact (isLone_two (ih rfl he).2).elim
  case function a1 ih =>
    intro hn he
    have h2 := (ih rfl he).2
    rename_i f
    cases f
    exact (show False from h2).elim
  case identifier a1 =>
    intro hn he
    cases he
    cases a1 with
    | mk h _ => rw [ht] at h; cases h
  all_goals first
    | exact fun hx => Bool.noConfusion (show false = true from hx)
    | (rename_i ih; exact fun _ => ih rfl)
    | (intro _ he; cases he; simp_all; done)

/-- An expression before a token that does not continue it. -/
theorem up (hc : ¬ Continues t2) (hr : ∀ x, t2.value ≠ .regExp x) {e : Expr}
    (h : Derives Join.anyLoc env (.lhs true) inp (t2 :: r) e) :
    Derives Join.anyLoc env .expr inp (t2 :: r) e := by
  have hno : ∀ v ∈ continuers, t2.value ≠ v := fun v hv he => hc (.inl (he ▸ hv))
  have hnot : ∀ v ∈ continuers, NextIsNot (t2 :: r) v := fun v hv => ⟨t2, r, rfl, hno v hv⟩
  have h1 : Derives Join.anyLoc env .unary inp (t2 :: r) e := by
    refine .unaryPostfix (.postfixNone ⟨t2, r, rfl, fun hm => ?_⟩ ⟨t2, r, rfl, fun hi => ?_⟩ h)
    · exact hno _ ((by decide : ∀ v ∈ [TokenData.dot, .lBrack, .lParen], v ∈ continuers) _ hm) rfl
    · cases hn : t2.newline with
      | true => rfl
      | false => exact absurd (.inr ⟨hi, hn⟩) hc
  have h2 : Derives Join.anyLoc env (.binary 10) inp (t2 :: r) e := .binaryUnary h1
  have h3 : ∀ k, k ≤ 10 → Derives Join.anyLoc env (.binary (10 - k)) inp (t2 :: r) e := by
    intro k
    induction k with
    | zero => exact fun _ => h2
    | succ k ih =>
      intro hk
      refine .binaryUp (by omega) ?_
      rw [show 10 - (k + 1) + 1 = 10 - k by omega]
      exact ih (by omega)
  refine .exprOne (hnot _ (by decide)) (.assignNone ⟨t2, r, rfl, hno _ (by decide), fun op ho => ?_⟩
    (.condNone ?_ ⟨t2, r, rfl, fun op ho => ?_, fun op ho => ?_⟩ (hnot _ (by decide)) (h3 10 (by omega))))
  · exact hc (.inl (symbol_continues.2.2 _ ho.2))
  · intro u r' hu x
    cases hu
    exact hr x
  · exact hc (.inl (symbol_continues.1 _ ho.2.1))
  · exact hc (.inl (symbol_continues.2.1 _ ho.2))

/-- No string literal at the beginning of the statement after the leading string literals precedes
a slash. -/
def Free (inp : List Token) : Prop :=
  ∀ t u b ds, StringStatements inp (t :: u :: b) ds → (∃ x, t.value = .string x) →
    u.value ≠ .slash ∧ u.value ≠ .slashAssign ∧ ∀ x, u.value ≠ .regExp x

theorem items_of_prologue (ds : List Dir) {xs : Ast (.list .sitem)} : ∀ {inp : List Token},
    Derives L env (.prologue .items) inp rest (.body none ds xs) → Free inp →
    ∃ zs, Derives Join.anyLoc env .items inp rest zs ∧
      Ast.Similar zs (Ast.ofList (ds.map Dir.asItem ++ xs.toList)) := by
  induction ds with
  | nil =>
    intro inp h _
    cases h with
    | prologueEnd _ _ h =>
      refine ⟨xs, Join.mono (fun _ _ _ _ => trivial) h, ?_⟩
      rw [List.map_nil, List.nil_append, Ast.ofList_toList]
      exact (C21_identical_iff _ _).1 rfl
  | cons d ds ih =>
    intro inp h hf
    cases h with
    | directive h1 h2 h3 h4 h5 =>
      obtain ⟨t2, r, rfl, hc⟩ := h2
      obtain ⟨zs, h6, h7⟩ := ih h5 fun t u b ds hs => hf t u b _ (.cons (d := ⟨none, _, _⟩) h1 h3 hs)
      have hr := (hf _ t2 r [] .nil ⟨_, h1⟩).2.2
      refine ⟨.cons (.siStmt (.sExpr none _ _)) zs,
        .itemsCons (.itemStmt (.exprStmt ⟨_, _, rfl, by rw [h1]; simp [statementStarts], by rw [h1]; nofun⟩
          (up hc hr (.lhsPrimary (.string h1))) h3 trivial)) h6, ?_⟩
      exact .cons (.siStmt (.sExpr .eString)) h7

theorem prologue_of_items (n : List StmtListItem) : ∀ {zs : Ast (.list .sitem)} {inp : List Token},
    zs.toList = n → Derives L env .items inp rest zs → Free inp →
    ∃ ds xs, Derives Join.anyLoc env (.prologue .items) inp rest (.body none ds xs) ∧
      Ast.Similar (Ast.ofList (ds.map Dir.asItem ++ xs.toList)) zs := by
  induction n with
  | nil =>
    intro zs inp hz h hf
    cases h with
    | itemsCons => rw [Ast.toList_cons] at hz; cases hz
    | itemsNil h1 =>
      refine ⟨[], .nil, .prologueEnd ?_ ?_ (.itemsNil h1), .nil⟩
      · rintro ⟨t, t2, r, s, h2, h3, _⟩
        cases h2
        rw [h3] at h1
        simp [followsItems] at h1
      · intro t r s h2 h3
        cases h2
        rw [h3] at h1
        simp [followsItems] at h1
  | cons z n ih =>
    intro zs inp hz h hf
    by_cases hd : StartsDirective inp
    · obtain ⟨t, t2, r, s, rfl, ht, hc⟩ := hd
      cases h with
      | itemsNil h1 => rw [ht] at h1; simp [followsItems] at h1
      | itemsCons h1 h2 =>
        rw [Ast.toList_cons] at hz
        cases hz
        cases h1 with
        | itemDecl h1 =>
          cases h1
          case declFun _ h3 => cases h3 <;> simp only [ht, reduceCtorEq] at *
          all_goals simp only [ht, reduceCtorEq] at *
        | itemStmt h1 =>
          cases h1
          case exprStmt a1 a2 a3 a4 =>
            obtain ⟨rfl, h3⟩ := lone a2 ht hc rfl rfl
            obtain ⟨l', rfl⟩ := isLone_expr h3
            rename_i semi _
            obtain ⟨ds, xs, h4, h5⟩ := ih rfl h2 fun t u b ds hs =>
              hf t u b _ (.cons (d := ⟨none, s, semi⟩) ht a3 hs)
            exact ⟨⟨none, s, semi⟩ :: ds, xs, .directive ht ⟨t2, r, rfl, hc⟩ a3 trivial h4,
              .cons (.siStmt (.sExpr .eString)) h5⟩
          case blockStmt h3 => cases h3; simp only [ht, reduceCtorEq] at *
          case labelStmt h3 _ _ =>
            obtain ⟨n, h3, _⟩ := h3.value
            rw [ht] at h3
            cases h3
          all_goals simp only [ht, reduceCtorEq] at *
    · refine ⟨[], zs, .prologueEnd hd ?_ (Join.mono (fun _ _ _ _ => trivial) h), ?_⟩
      · rintro t r s rfl ht u b rfl
        exact ⟨(hf t u b [] .nil ⟨_, ht⟩).1, (hf t u b [] .nil ⟨_, ht⟩).2.1⟩
      · rw [List.map_nil, List.nil_append, Ast.ofList_toList]
        exact (C21_identical_iff _ _).1 rfl

end Lone

end Esprit
