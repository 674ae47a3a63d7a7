import Verif.Proofs.Complete.WrapText

/-!
Expressions can be put into brackets (C70): if a text is an expression, then so is the text in
parentheses, with the same tree; and the text can be put, on lines of its own, into the brackets
of `x[ ]` and of `if ( ) ;`, where its tree becomes the index and the condition.
-/

set_option linter.unusedSectionVars false

namespace Esprit

open Lex ReaderSpec Grammar

section Theorems

variable [Env] [LawfulEnv] {h s t : Str}

/-- The surroundings of `program`. -/
private abbrev env0 : Scope := { Scope.script false with plain := true }

private theorem expr_setup {vs ws : List TokenData} (hh : HasTokens h vs)
    (hvs : ∀ v ∈ vs, v ≠ .eof) {w : TokenData} (hw : w ∈ [.rBrace, .rParen, .rBrack])
    (ht : HasTokens ('\n' :: t) (w :: ws)) {c : List Check} {l l' : Loc} {e : Expr}
    (hp : program ('\n' :: s) =
      .ok (.ambiguous c (.body l [] (Ast.ofList [.siStmt (.sExpr l' e .inserted)]))))
    (hd : DistinctLabels (Ast.body l [] (Ast.ofList [.siStmt (.sExpr l' e .inserted)])))
    (hcr1 : h.getLast? ≠ some '\r') (hcr2 : s.getLast? ≠ some '\r') :
    ∃ as bs j e' ops k, as.map Token.value = vs ∧
      bs.map Token.value = w :: ws ++ [.eof] ∧
      Tokens (h ++ '\n' :: (s ++ '\n' :: t)) 0 true ops (as ++ j) k ∧
      Derives Join.anyLoc env0 .expr j bs e' ∧ Ast.Similar e' e := by
  obtain ⟨as, b, bs, ts, rest, y, S, ops, k, h1, h2, h3, h4, h5, h6, h7, h8, h9⟩ :=
    Wrap.setup hh hvs hw ht hp hd hcr1 hcr2
  cases h4 with
  | @body _ _ _ l2 _ ds _ items h10 h11 =>
    simp only [Ast.blur, Ast.ofList, List.map_nil, Ast.body.injEq, List.map_eq_nil_iff] at h6
    obtain ⟨_, rfl, h6⟩ := h6
    cases h10 with
    | prologueEnd _ _ h10 =>
      cases h10 with
      | itemsNil => cases h6
      | @itemsCons _ _ _ _ x xs h12 h13 =>
        simp only [Ast.blur, Ast.cons.injEq] at h6
        cases h13 with
        | itemsCons => cases h6.2
        | itemsNil h14 =>
          cases h12 with
          | itemDecl => cases h6.1
          | @itemStmt _ _ _ _ s h12 =>
            cases h12
            case exprStmt e2 semi l2 a1 a2 a3 a4 =>
              simp only [Ast.blur, Ast.siStmt.injEq, Ast.sExpr.injEq] at h6
              obtain ⟨⟨_, h15, h16⟩, _⟩ := h6
              cases semi with
              | explicit p => cases h16
              | inserted =>
                cases a3 with
                | inserted a5 a6 =>
                  obtain ⟨u, r, e1, e2⟩ := h5
                  cases e1
                  have := Join.derives_join h7 h9 a2 h8 (fun h => Bool.noConfusion (show false = true from h))
                  rw [Join.join_eof e2] at this
                  exact ⟨as, _, _, _, ops, k, h1, h2, h3, this, Ast.similar_of_blur h15⟩
            all_goals cases h6.1

/-- A program that consists of one statement. -/
private theorem one {a b : Token} {i : List Token} {x : Ast .stmt} (ha : ∀ s, a.value ≠ .string s)
    (hb : b.value = .eof) (h : Derives Join.anyLoc env0 .stmt (a :: i) [b] x) :
    Derives Join.anyLoc env0 (.body .items) (a :: i) [b] (.body none [] (Ast.ofList [.siStmt x])) := by
  have hd : ¬ StartsDirective (a :: i) := by
    rintro ⟨t, t2, r, s, h1, h2, _⟩
    cases h1
    exact ha _ h2
  have hd2 : ∀ t r s, a :: i = t :: r → t.value = .string s → NoDivision r := by
    intro t r s h1 h2
    cases h1
    exact absurd h2 (ha _)
  exact .body (.prologueEnd hd hd2 (.itemsCons (.itemStmt h) (.itemsNil (by rw [hb]; decide)))) trivial

/-- C70: if `program` accepts a text as an expression, then it accepts the text between, on lines of
their own, parentheses, and the tree is the same (up to locations and the origin of semicolons).
No statement in it is labelled twice with the same name, and the line terminators of the texts do not form one of two characters. -/
theorem C70_paren (hh : HasTokens h [.lParen]) (ht : HasTokens ('\n' :: t) [.rParen])
    {c : List Check} {l l' : Loc} {e : Expr}
    (hp : program ('\n' :: s) =
      .ok (.ambiguous c (.body l [] (Ast.ofList [.siStmt (.sExpr l' e .inserted)]))))
    (hd : DistinctLabels (Ast.body l [] (Ast.ofList [.siStmt (.sExpr l' e .inserted)])))
    (hcr1 : h.getLast? ≠ some '\r') (hcr2 : s.getLast? ≠ some '\r') :
    ∃ c' y, program (h ++ '\n' :: (s ++ '\n' :: t)) = .ok (.ambiguous c' y) ∧
      Ast.Similar y (.body none [] (Ast.ofList [.siStmt (.sExpr none e .inserted)])) := by
  obtain ⟨as, bs, j, e', ops, k, h1, h2, h3, h4, h5⟩ :=
    expr_setup hh (by simp) (by decide) ht hp hd hcr1 hcr2
  obtain ⟨a, as, rfl, ha, h1⟩ := List.map_eq_cons_iff.1 h1
  cases List.map_eq_nil_iff.1 h1
  obtain ⟨b1, bs, rfl, hb1, h2⟩ := List.map_eq_cons_iff.1 h2
  obtain ⟨b2, bs, rfl, hb2, h2⟩ := List.map_eq_cons_iff.1 h2
  cases List.map_eq_nil_iff.1 h2
  have hx : Derives Join.anyLoc env0 .expr (a :: j) [b2] e' :=
    Wrap.up (.inr hb2) (.lhsPrimary (.paren ha h4 hb1))
  have hy : Derives Join.anyLoc env0 .stmt (a :: j) [b2] (.sExpr none e' .inserted) :=
    .exprStmt ⟨_, _, rfl, by rw [ha]; decide, by rw [ha]; nofun⟩ hx
      (.inserted (by rw [hb2]; nofun) (.inr (.inl hb2))) trivial
  obtain ⟨c', y, h6, h7⟩ := C50_program _ h3 (one (by rw [ha]; nofun) hb2 hy) ⟨_, _, rfl, hb2⟩
  exact ⟨c', y, h6, h7.trans (.body rfl (.cons (.siStmt (.sExpr h5)) .nil))⟩

/-- C70 for indices: the text between `x[` and `]`. -/
theorem C70_index {n : Name} (hn : n ≠ .atom .«let») (hh : HasTokens h [.identifier n, .lBrack])
    (ht : HasTokens ('\n' :: t) [.rBrack]) {c : List Check} {l l' : Loc} {e : Expr}
    (hp : program ('\n' :: s) =
      .ok (.ambiguous c (.body l [] (Ast.ofList [.siStmt (.sExpr l' e .inserted)]))))
    (hd : DistinctLabels (Ast.body l [] (Ast.ofList [.siStmt (.sExpr l' e .inserted)])))
    (hcr1 : h.getLast? ≠ some '\r') (hcr2 : s.getLast? ≠ some '\r') :
    ∃ c' y, program (h ++ '\n' :: (s ++ '\n' :: t)) = .ok (.ambiguous c' y) ∧
      Ast.Similar y (.body none [] (Ast.ofList
        [.siStmt (.sExpr none (.eBrack none (.eId ⟨none, n⟩) e) .inserted)])) := by
  obtain ⟨as, bs, j, e', ops, k, h1, h2, h3, h4, h5⟩ :=
    expr_setup hh (by simp) (by decide) ht hp hd hcr1 hcr2
  obtain ⟨a1, as, rfl, ha1, h1⟩ := List.map_eq_cons_iff.1 h1
  obtain ⟨a2, as, rfl, ha2, h1⟩ := List.map_eq_cons_iff.1 h1
  cases List.map_eq_nil_iff.1 h1
  obtain ⟨b1, bs, rfl, hb1, h2⟩ := List.map_eq_cons_iff.1 h2
  obtain ⟨b2, bs, rfl, hb2, h2⟩ := List.map_eq_cons_iff.1 h2
  cases List.map_eq_nil_iff.1 h2
  have hi : Ident env0 false a1 ⟨some a1.location, n⟩ := .mk ha1 ⟨nofun, nofun⟩
  have hx := Wrap.up (.inr hb2) (.brack (.lhsPrimary (.identifier hi)) ha2 h4 hb1)
  have hy := Derives.exprStmt (L := Join.anyLoc) (env := env0) (l := none)
    ⟨a1, a2 :: j, rfl, by rw [ha1]; simp [statementStarts],
      fun _ => ⟨a2, j, rfl, by rw [ha2]; nofun, fun h => by
        rw [ha1] at h; cases h; exact absurd rfl hn⟩⟩ hx
      (.inserted (by rw [hb2]; nofun) (.inr (.inl hb2))) trivial
  obtain ⟨c', y, h6, h7⟩ := C50_program _ h3 (one (by rw [ha1]; nofun) hb2 hy) ⟨_, _, rfl, hb2⟩
  exact ⟨c', y, h6, h7.trans (.body rfl (.cons (.siStmt (.sExpr (.eBrack (.eId rfl) h5))) .nil))⟩

/-- C70 for conditions: the text between `if (` and `) ;`. -/
theorem C70_condition (hh : HasTokens h [.reserved .if, .lParen])
    (ht : HasTokens ('\n' :: t) [.rParen, .semi]) {c : List Check} {l l' : Loc} {e : Expr}
    (hp : program ('\n' :: s) =
      .ok (.ambiguous c (.body l [] (Ast.ofList [.siStmt (.sExpr l' e .inserted)]))))
    (hd : DistinctLabels (Ast.body l [] (Ast.ofList [.siStmt (.sExpr l' e .inserted)])))
    (hcr1 : h.getLast? ≠ some '\r') (hcr2 : s.getLast? ≠ some '\r') :
    ∃ c' y, program (h ++ '\n' :: (s ++ '\n' :: t)) = .ok (.ambiguous c' y) ∧
      Ast.Similar y (.body none [] (Ast.ofList [.siStmt (.sIf none e (.sEmpty none) .none)])) := by
  obtain ⟨as, bs, j, e', ops, k, h1, h2, h3, h4, h5⟩ :=
    expr_setup hh (by simp) (by decide) ht hp hd hcr1 hcr2
  obtain ⟨a1, as, rfl, ha1, h1⟩ := List.map_eq_cons_iff.1 h1
  obtain ⟨a2, as, rfl, ha2, h1⟩ := List.map_eq_cons_iff.1 h1
  cases List.map_eq_nil_iff.1 h1
  obtain ⟨b1, bs, rfl, hb1, h2⟩ := List.map_eq_cons_iff.1 h2
  obtain ⟨b2, bs, rfl, hb2, h2⟩ := List.map_eq_cons_iff.1 h2
  obtain ⟨b3, bs, rfl, hb3, h2⟩ := List.map_eq_cons_iff.1 h2
  cases List.map_eq_nil_iff.1 h2
  have hy : Derives Join.anyLoc env0 .stmt (a1 :: a2 :: j) [b3] (.sIf none e' (.sEmpty none) .none) :=
    .ifStmt ha1 ha2 h4 hb1 (.emptyStmt hb2 trivial) ⟨_, _, rfl, by rw [hb3]; nofun⟩ trivial
  obtain ⟨c', y, h6, h7⟩ := C50_program _ h3 (one (by rw [ha1]; nofun) hb3 hy) ⟨_, _, rfl, hb3⟩
  exact ⟨c', y, h6, h7.trans (.body rfl (.cons (.siStmt (.sIf h5 .sEmpty .none)) .nil))⟩

end Theorems

section Examples

local instance parenEnv : Env := asciiEnv true
local instance parenEnvLawful : LawfulEnv := asciiEnv_lawful true

private theorem hasTokens_of {s : Str} {vs : List TokenData} (ops : List Bool)
    (h : (match readTokens s ops with
      | .ok (ts, _) => decide (ts.map Token.value = vs ++ [.eof])
      | _ => false) = true) : HasTokens s vs := by
  split at h
  case h_2 => cases h
  case h_1 ts l e => exact ⟨_, _, _, (readTokens_at e).1, of_decide_eq_true h⟩

private def isExpr : Ast .sitem → Bool
  | .siStmt s => match s with
    | .sExpr _ _ semi => match semi with
      | .inserted => true
      | _ => false
    | _ => false
  | _ => false

private theorem isExpr_ok {x : Ast .sitem} (h : isExpr x = true) :
    ∃ l e, x = .siStmt (.sExpr l e .inserted) := by
  cases x with
  | siDecl => cases h
  | siStmt s =>
    cases s
    case sExpr l e semi =>
      cases semi with
      | inserted => exact ⟨_, _, rfl⟩
      | explicit => cases h
    all_goals cases h

private def isExprs : Script → Bool
  | .body _ ds xs => ds.isEmpty && (xs.toList.length == 1 && xs.toList.all isExpr)

private theorem isExprs_ok {x : Script} (h : isExprs x = true) :
    ∃ l l' e, x = .body l [] (Ast.ofList [.siStmt (.sExpr l' e .inserted)]) := by
  cases x with
  | body l ds xs =>
    obtain ⟨h1, h2⟩ := (Bool.and_eq_true _ _).mp h
    obtain ⟨h2, h3⟩ := (Bool.and_eq_true _ _).mp h2
    cases List.isEmpty_iff.1 h1
    obtain ⟨x, hx⟩ := List.length_eq_one_iff.1 (by simpa using h2)
    rw [hx] at h3
    obtain ⟨l', e, rfl⟩ := isExpr_ok (List.all_eq_true.1 h3 x (by simp))
    exact ⟨l, l', e, by rw [← hx, Ast.ofList_toList]⟩

/-- The hypotheses of C70 are met, for instance by an assignment. -/
example : ∃ c l l' e,
    HasTokens c!"(" [.lParen] ∧ HasTokens ('\n' :: c!")") [.rParen] ∧
    HasTokens c!"x [" [.identifier (.from c!"x"), .lBrack] ∧ HasTokens ('\n' :: c!"]") [.rBrack] ∧
    HasTokens c!"if (" [.reserved .if, .lParen] ∧ HasTokens ('\n' :: c!");") [.rParen, .semi] ∧
    program ('\n' :: c!"a = b / 2, /c/") =
      .ok (.ambiguous c (.body l [] (Ast.ofList [.siStmt (.sExpr l' e .inserted)]))) ∧
    DistinctLabels (Ast.body l [] (Ast.ofList [.siStmt (.sExpr l' e .inserted)])) := by
  have h1 : (match program ('\n' :: c!"a = b / 2, /c/") with
    | .ok (.ambiguous _ x) => isExprs x && labelsCheck 20 Place.top ⟨_, x⟩
    | _ => false) = true := by decide +kernel
  split at h1
  case h_2 => cases h1
  case h_1 c1 x e1 =>
    obtain ⟨h0, h1⟩ := (Bool.and_eq_true _ _).mp h1
    obtain ⟨l, l', e, rfl⟩ := isExprs_ok h0
    exact ⟨c1, l, l', e, hasTokens_of (List.replicate 2 false) (by decide +kernel),
      hasTokens_of (List.replicate 2 false) (by decide +kernel),
      hasTokens_of (List.replicate 3 false) (by decide +kernel),
      hasTokens_of (List.replicate 2 false) (by decide +kernel),
      hasTokens_of (List.replicate 3 false) (by decide +kernel),
      hasTokens_of (List.replicate 3 false) (by decide +kernel), e1,
      labelsCheck_ok 20 h1⟩

/-- With a semicolon of its own the text is a statement, but not an expression. -/
example : (match program c!"a;" with | .ok _ => true | _ => false) = true ∧
    (match program c!"(\na;\n)" with | .ok _ => true | _ => false) = false := by
  decide +kernel

end Examples

end Esprit
