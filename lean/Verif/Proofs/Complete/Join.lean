import Verif.Proofs.Parser.First
import Verif.Proofs.Parser.Nodes

/-!
Putting tokens in the place of the end of the source: what is derived from some tokens is
also derived from them when other tokens follow, which begin on a new line with a token
that does not continue a statement.
-/

set_option linter.unusedSectionVars false
set_option linter.unusedVariables false

namespace Esprit

open Lex ReaderSpec Grammar

namespace Join

/-- The tokens up to the end of the source, with `R` in its place. -/
def join (R : List Token) : List Token → List Token
  | [] => []
  | t :: i => if t.value = .eof then R else t :: join R i

/-- No rule about locations. -/
def anyLoc : LocSpec := fun _ _ _ => True

/-- The token begins a statement on a new line, and does not continue the statement before it,
or it is a closing bracket. -/
structure Fresh (t : Token) : Prop where
  newline : t.newline = true
  start : stmtStart t.value = true ∨ t.value ∈ [.rBrace, .rParen, .rBrack]
  punctuator : t.value ∉ [.lParen, .lBrack, .plus, .minus, .semi]
  string : ∀ s, t.value ≠ .string s
  regExp : ∀ x, t.value ≠ .regExp x

/-- `let` is not the last token, if the token `t` could be bound by it. -/
def LetSafe (t : Token) (inp : List Token) : Prop :=
  ∀ a b r, (a :: b :: r) <:+ inp → a.value = .identifier (.atom .«let») → b.value = .eof →
    ¬ StartsBinding t

theorem LetSafe.of {t : Token} {i j : List Token} (h : LetSafe t i) (hs : j <:+ i) : LetSafe t j :=
  fun a b r hr => h a b r (hr.trans hs)

theorem LetSafe.tail {t u : Token} {i : List Token} (h : LetSafe t (u :: i)) : LetSafe t i :=
  h.of (List.suffix_cons _ _)

/-- The next token is not the end of the source. -/
def HeadNe (i : List Token) : Prop := ∀ t r, i = t :: r → t.value ≠ .eof

/-- The nonterminals that derive as much as there is. -/
def isOpen : {c : Cat} → NT c → Bool
  | _, .items | _, .modItems | _, .prologue _ | _, .body _ | _, .case | _, .cases => true
  | _, _ => false

section Lemmas

variable {L : LocSpec} {c : Cat} {env : Scope} {nt : NT c} {x : Ast c} {t t1 t2 t3 t4 : Token}
  {i i1 i2 rest R R' : List Token} {v : TokenData}

theorem join_cons (h : t.value ≠ .eof) : join R (t :: i) = t :: join R i := by
  simp [join, h]

theorem join_eof (h : t.value = .eof) : join R (t :: i) = R := by
  simp [join, h]

theorem of_inp (h1 : t.value ≠ .eof)
    (h : Derives anyLoc env nt (t :: join R i) (join R rest) x) :
    Derives anyLoc env nt (join R (t :: i)) (join R rest) x := by
  rw [join_cons h1]; exact h

theorem of_inp2 (h1 : t.value ≠ .eof) (h2 : t2.value ≠ .eof)
    (h : Derives anyLoc env nt (t :: t2 :: join R i) (join R rest) x) :
    Derives anyLoc env nt (join R (t :: t2 :: i)) (join R rest) x := by
  rw [join_cons h1, join_cons h2]; exact h

theorem of_inp3 (h1 : t.value ≠ .eof) (h2 : t2.value ≠ .eof) (h3 : t3.value ≠ .eof)
    (h : Derives anyLoc env nt (t :: t2 :: t3 :: join R i) (join R rest) x) :
    Derives anyLoc env nt (join R (t :: t2 :: t3 :: i)) (join R rest) x := by
  rw [join_cons h1, join_cons h2, join_cons h3]; exact h

theorem of_inp4 (h1 : t.value ≠ .eof) (h2 : t2.value ≠ .eof) (h3 : t3.value ≠ .eof)
    (h4 : t4.value ≠ .eof)
    (h : Derives anyLoc env nt (t :: t2 :: t3 :: t4 :: join R i) (join R rest) x) :
    Derives anyLoc env nt (join R (t :: t2 :: t3 :: t4 :: i)) (join R rest) x := by
  rw [join_cons h1, join_cons h2, join_cons h3, join_cons h4]; exact h

theorem of_rest (h1 : t.value ≠ .eof)
    (h : Derives anyLoc env nt (join R i) (join R (t :: rest)) x) :
    Derives anyLoc env nt (join R i) (t :: join R rest) x := by
  rw [join_cons h1] at h; exact h

theorem of_rest2 (h1 : t.value ≠ .eof) (h2 : t2.value ≠ .eof)
    (h : Derives anyLoc env nt (join R i) (join R (t :: t2 :: rest)) x) :
    Derives anyLoc env nt (join R i) (t :: t2 :: join R rest) x := by
  rw [join_cons h1, join_cons h2] at h; exact h

theorem ident_ne {b : Bool} {j : Id} (h : Ident env b t j) : t.value ≠ .eof := by
  cases h; rename_i h _; rw [h]; nofun

theorem propName_ne {k : PropKey} (h : PropName t k) : t.value ≠ .eof := by
  cases h <;> (rename_i h; rw [h]; nofun)

theorem memberName_ne {k : DotKey} (h : MemberName t k) : t.value ≠ .eof := by
  cases h <;> (rename_i h; rw [h]; nofun)

theorem isSymbol_ne {s : Str} (h : IsSymbol s v) : v ≠ .eof := by
  rintro rfl
  have : ∀ p ∈ punctuators ++ reservedWords.map fun p => (p.1, .reserved p.2), p.2 ≠ .eof := by
    decide +kernel
  exact this _ h rfl

theorem isUnop_ne {op : Op UnopTag} (h : IsUnop t op) : t.value ≠ .eof := by
  obtain ⟨_, s, _, h⟩ := h; exact isSymbol_ne h

theorem isBinop_ne {op : Op BinopTag} (h : IsBinop env t op) : t.value ≠ .eof := isSymbol_ne h.2.1
theorem isLogop_ne {op : Op LogopTag} (h : IsLogop t op) : t.value ≠ .eof := isSymbol_ne h.2
theorem isAssop_ne {op : Op AssopTag} (h : IsAssop t op) : t.value ≠ .eof := isSymbol_ne h.2

theorem value_ne (h : t.value = v) (hv : v ≠ .eof) : t.value ≠ .eof := by rw [h]; exact hv

/-- Goals `t.value ≠ .eof`. -/
macro "ne0" : tactic => `(tactic| first
  | (refine value_ne (by assumption) ?_; nofun)
  | exact ident_ne (by assumption)
  | exact propName_ne (by assumption)
  | exact memberName_ne (by assumption)
  | exact isUnop_ne (by assumption)
  | exact isBinop_ne (by assumption)
  | exact isLogop_ne (by assumption)
  | exact isAssop_ne (by assumption))

/-- No token that begins a statement is one of these. -/
macro "val0" : tactic => `(tactic| decide)

/-- `v` is not the value of a token that begins a statement on a new line, or of a closing
bracket. -/
def Stale (v : TokenData) : Prop := (stmtStart v = false ∧ v ∉ [.rBrace, .rParen, .rBrack]) ∨
  v ∈ [.lParen, .lBrack, .plus, .minus, .semi]

instance : Decidable (Stale v) := inferInstanceAs (Decidable (_ ∨ _))

theorem Fresh.ne (h : Fresh t) (hv : Stale v) : t.value ≠ v := by
  rintro rfl
  rcases hv with hv | hv
  · rcases h.start with h | h
    · rw [h] at hv; cases hv.1
    · exact hv.2 h
  · exact h.punctuator hv

theorem head_cases (R : List Token) (t : Token) (r : List Token) :
    (t.value = .eof ∧ join R (t :: r) = R) ∨ (t.value ≠ .eof ∧ join R (t :: r) = t :: join R r) := by
  by_cases h : t.value = .eof
  · exact .inl ⟨h, join_eof h⟩
  · exact .inr ⟨h, join_cons h⟩

theorem nextIs_join (h : NextIs i v) (hv : v ≠ .eof) : NextIs (join R i) v := by
  obtain ⟨t, r, rfl, h⟩ := h
  rw [join_cons (by rw [h]; exact hv)]
  exact ⟨_, _, rfl, h⟩

variable {t0 : Token}

theorem nextIsNot_join (hJ : Fresh t0) (h : NextIsNot i v) (hv : Stale v) :
    NextIsNot (join (t0 :: R') i) v := by
  obtain ⟨t, r, rfl, h⟩ := h
  rcases head_cases (t0 :: R') t r with ⟨_, e⟩ | ⟨_, e⟩ <;> rw [e]
  · exact ⟨_, _, rfl, hJ.ne hv⟩
  · exact ⟨_, _, rfl, h⟩

theorem nextNotIn_join {vs : List TokenData} (hJ : Fresh t0) (h : NextNotIn i vs)
    (hv : ∀ v ∈ vs, Stale v) : NextNotIn (join (t0 :: R') i) vs := by
  obtain ⟨t, r, rfl, h⟩ := h
  rcases head_cases (t0 :: R') t r with ⟨_, e⟩ | ⟨_, e⟩ <;> rw [e]
  · exact ⟨_, _, rfl, fun h => hJ.ne (hv _ h) rfl⟩
  · exact ⟨_, _, rfl, h⟩

theorem noRegExp_join (hJ : Fresh t0) (h : NoRegExp i) : NoRegExp (join (t0 :: R') i) := by
  intro u s hu
  cases i with
  | nil => cases hu
  | cons t r =>
    rcases head_cases (t0 :: R') t r with ⟨_, e⟩ | ⟨_, e⟩ <;> rw [e] at hu <;> cases hu
    · exact hJ.regExp
    · exact h _ _ rfl

theorem noDivision_join (hJ : Fresh t0) (h : NoDivision i) : NoDivision (join (t0 :: R') i) := by
  intro u s hu
  cases i with
  | nil => cases hu
  | cons t r =>
    rcases head_cases (t0 :: R') t r with ⟨_, e⟩ | ⟨_, e⟩ <;> rw [e] at hu <;> cases hu
    · exact ⟨hJ.ne (by decide), hJ.ne (by decide)⟩
    · exact h _ _ rfl

theorem letNoDivision_join (hJ : Fresh t0) (h : LetNoDivision i) (hn : HeadNe i) :
    LetNoDivision (join (t0 :: R') i) := by
  intro u s hu hv
  cases i with
  | nil => cases hu
  | cons t r =>
    rw [join_cons (hn _ _ rfl)] at hu
    cases hu
    exact noDivision_join hJ (h _ _ rfl hv)

theorem stringNoDivision_join (hJ : Fresh t0)
    (h : ∀ t r s, i = t :: r → t.value = .string s → NoDivision r) :
    ∀ t r s, join (t0 :: R') i = t :: r → t.value = .string s → NoDivision r := by
  intro u r' s hu hv
  cases i with
  | nil => cases hu
  | cons t r =>
    rcases head_cases (t0 :: R') t r with ⟨_, e⟩ | ⟨_, e⟩ <;> rw [e] at hu <;> cases hu
    · exact absurd hv (hJ.string s)
    · exact noDivision_join hJ (h _ _ _ rfl hv)

theorem noInfix_join (hJ : Fresh t0) (h : NoInfix env i) : NoInfix env (join (t0 :: R') i) := by
  obtain ⟨t, r, rfl, h1, h2⟩ := h
  rcases head_cases (t0 :: R') t r with ⟨_, e⟩ | ⟨_, e⟩ <;> rw [e]
  · refine ⟨_, _, rfl, fun op ho => ?_, fun op ho => ?_⟩
    · have key : ∀ tag : BinopTag, ∀ p ∈ punctuators ++ reservedWords.map fun p => (p.1, .reserved p.2),
          p.1 = tag.display → Stale p.2 := by intro tag; cases tag <;> decide +kernel
      exact hJ.ne (key op.tag _ ho.2.1 rfl) rfl
    · have key : ∀ tag : LogopTag, ∀ p ∈ punctuators ++ reservedWords.map fun p => (p.1, .reserved p.2),
          p.1 = tag.display → Stale p.2 := by intro tag; cases tag <;> decide +kernel
      exact hJ.ne (key op.tag _ ho.2 rfl) rfl
  · exact ⟨_, _, rfl, h1, h2⟩

theorem noAssign_join (hJ : Fresh t0) (h : NoAssign i) : NoAssign (join (t0 :: R') i) := by
  obtain ⟨t, r, rfl, h1, h2⟩ := h
  rcases head_cases (t0 :: R') t r with ⟨_, e⟩ | ⟨_, e⟩ <;> rw [e]
  · refine ⟨_, _, rfl, hJ.ne (by decide), fun op ho => ?_⟩
    have key : ∀ tag : AssopTag, ∀ p ∈ punctuators ++ reservedWords.map fun p => (p.1, .reserved p.2),
        p.1 = tag.display → Stale p.2 := by intro tag; cases tag <;> decide +kernel
    exact hJ.ne (key op.tag _ ho.2 rfl) rfl
  · exact ⟨_, _, rfl, h1, h2⟩

theorem noPostfix_join (hJ : Fresh t0) (h : NoPostfix i) : NoPostfix (join (t0 :: R') i) := by
  obtain ⟨t, r, rfl, h⟩ := h
  rcases head_cases (t0 :: R') t r with ⟨_, e⟩ | ⟨_, e⟩ <;> rw [e]
  · exact ⟨_, _, rfl, fun _ => hJ.newline⟩
  · exact ⟨_, _, rfl, h⟩

theorem noArg_join (hJ : Fresh t0) (h : NoArgSameLine i) : NoArgSameLine (join (t0 :: R') i) := by
  obtain ⟨t, r, rfl, h⟩ := h
  rcases head_cases (t0 :: R') t r with ⟨_, e⟩ | ⟨_, e⟩ <;> rw [e]
  · exact ⟨_, _, rfl, .inl hJ.newline⟩
  · exact ⟨_, _, rfl, h⟩

theorem term_join {o : Bool} {semi : Semi} (hJ : Fresh t0) (h : Term o i rest semi) :
    Term o (join (t0 :: R') i) (join (t0 :: R') rest) semi := by
  cases h with
  | explicit h => rw [join_cons (by rw [h]; nofun)]; exact .explicit h
  | @inserted t r h1 h2 =>
    rcases head_cases (t0 :: R') t r with ⟨_, e⟩ | ⟨_, e⟩ <;> rw [e]
    · exact .inserted (hJ.ne (by decide)) (.inr (.inr (.inl hJ.newline)))
    · exact .inserted h1 h2

theorem argSameLine_head {r r' : List Token} (h : ArgSameLine (t :: r)) : ArgSameLine (t :: r') := by
  obtain ⟨_, _, h, h1⟩ := h
  cases h
  exact ⟨_, _, rfl, h1⟩

theorem exprStart_ne (h : exprStart v = true) : v ≠ .eof := by
  rintro rfl; cases h

theorem headNe_expr (h : NextSat (some exprStart) i) : HeadNe i := by
  obtain ⟨t, r, rfl, h⟩ := h
  intro u s hu
  cases hu
  exact exprStart_ne h

theorem argSameLine_join (h : ArgSameLine i) (hf : NextSat (some exprStart) i) :
    ArgSameLine (join R i) := by
  obtain ⟨t, r, rfl, h⟩ := h
  rw [join_cons (headNe_expr hf _ _ rfl)]
  exact ⟨_, _, rfl, h⟩

theorem exprStmtStart_join (hJ : Fresh t0) (hs : LetSafe t0 i) (h : ExprStmtStart i)
    (hf : NextSat (some exprStart) i) : ExprStmtStart (join (t0 :: R') i) := by
  obtain ⟨t, r, rfl, h1, h2⟩ := h
  rw [join_cons (headNe_expr hf _ _ rfl)]
  refine ⟨_, _, rfl, h1, fun hi => ?_⟩
  obtain ⟨t2, r2, rfl, h3, h4⟩ := h2 hi
  rcases head_cases (t0 :: R') t2 r2 with ⟨he, e⟩ | ⟨_, e⟩ <;> rw [e]
  · exact ⟨_, _, rfl, hJ.ne (by decide), fun hl => hs _ _ _ (List.suffix_refl _) hl he⟩
  · exact ⟨_, _, rfl, h3, h4⟩

theorem forExprStart_join (hJ : Fresh t0) (hs : LetSafe t0 i) (h : ForExprStart i)
    (hf : NextSat (some exprStart) i) : ForExprStart (join (t0 :: R') i) := by
  obtain ⟨t, r, rfl, h1, h2, h3⟩ := h
  rw [join_cons (headNe_expr hf _ _ rfl)]
  refine ⟨_, _, rfl, h1, h2, fun hi => ?_⟩
  obtain ⟨t2, r2, rfl, h4⟩ := h3 hi
  rcases head_cases (t0 :: R') t2 r2 with ⟨he, e⟩ | ⟨_, e⟩ <;> rw [e]
  · exact ⟨_, _, rfl, hs _ _ _ (List.suffix_refl _) hi he⟩
  · exact ⟨_, _, rfl, h4⟩

theorem Fresh.continues (h : Fresh t) : ¬ Continues t := by
  rintro (h1 | ⟨_, h1⟩)
  · have key : ∀ v ∈ continuers, Stale v := by decide +kernel
    exact h.ne (key _ h1) rfl
  · rw [h.newline] at h1; cases h1

theorem eof_continues (h : t.value = .eof) : ¬ Continues t := by
  rintro (h1 | ⟨h1 | h1, _⟩) <;> rw [h] at h1
  · revert h1; decide
  · cases h1
  · cases h1

theorem notContinues_join (hJ : Fresh t0) (h : ∃ t r, i = t :: r ∧ ¬ Continues t) :
    ∃ t r, join (t0 :: R') i = t :: r ∧ ¬ Continues t := by
  obtain ⟨t, r, rfl, h⟩ := h
  rcases head_cases (t0 :: R') t r with ⟨_, e⟩ | ⟨_, e⟩ <;> rw [e]
  · exact ⟨_, _, rfl, hJ.continues⟩
  · exact ⟨_, _, rfl, h⟩

theorem notDirective_join (hJ : Fresh t0) (h : ¬ StartsDirective i) :
    ¬ StartsDirective (join (t0 :: R') i) := by
  rintro ⟨a, b, r, s, h1, h2, h3⟩
  cases i with
  | nil => cases h1
  | cons t i =>
    rcases head_cases (t0 :: R') t i with ⟨_, e⟩ | ⟨_, e⟩ <;> rw [e] at h1
    · injection h1 with h1 _
      exact hJ.string s (h1 ▸ h2)
    · injection h1 with h1 h4
      subst h1
      cases i with
      | nil => cases h4
      | cons t2 i =>
        rcases head_cases (t0 :: R') t2 i with ⟨he, e⟩ | ⟨_, e⟩ <;> rw [e] at h4
        · exact h ⟨_, _, _, _, rfl, h2, eof_continues he⟩
        · injection h4 with h4 _
          subst h4
          exact h ⟨_, _, _, _, rfl, h2, h3⟩

theorem mem_join {u : Token} : ∀ {i : List Token}, u ∈ join R i → u ∈ i ∨ u ∈ R
  | [], h => by cases h
  | t :: i, h => by
    rcases head_cases R t i with ⟨_, e⟩ | ⟨_, e⟩ <;> rw [e] at h
    · exact .inr h
    · rcases List.mem_cons.1 h with rfl | h
      · exact .inl (by simp)
      · exact (mem_join h).imp (List.mem_cons_of_mem _) id

theorem startsBefore_join {l : Loc} (hR : StartsBefore l R) (h : StartsBefore l i) :
    StartsBefore l (join R i) :=
  fun sp hl u hu => (mem_join hu).elim (h sp hl u) (hR sp hl u)

theorem startsBefore_tail {l : Loc} (hR : StartsBefore l R) (h : StartsBefore l i.tail) :
    StartsBefore l (join R i).tail := by
  cases i with
  | nil => exact h
  | cons t i =>
    rcases head_cases R t i with ⟨_, e⟩ | ⟨_, e⟩ <;> rw [e]
    · exact fun sp hl u hu => hR sp hl u (List.mem_of_mem_tail hu)
    · exact startsBefore_join hR h

theorem headNe_params {ps : Ast .params} (h : Derives L env .params i rest ps) : HeadNe i := by
  obtain ⟨t, r, rfl, h1⟩ := h.first
  intro u s hu
  cases hu
  rw [of_decide_eq_true h1]
  nofun

theorem headNe_cases {cs : Ast (.list .case)} (h : Derives L env .cases i rest cs)
    (hr : HeadNe rest) : HeadNe i := by
  cases h with
  | casesNil => exact hr
  | casesCons h _ =>
    obtain ⟨t, r, rfl, h1⟩ := h.first
    intro u s hu
    cases hu
    intro he
    rw [he] at h1
    revert h1
    decide

end Lemmas

/-- What is derived, whatever the rules about locations. -/
theorem mono {L L' : LocSpec} (hL : ∀ i r l, L i r l → L' i r l) {c : Cat} {env : Scope} {nt : NT c}
    {inp rest : List Token} {x : Ast c} (h : Derives L env nt inp rest x) :
    Derives L' env nt inp rest x := by
  induction h
  case identifier h1 => exact .identifier h1
  case kNull h1 => exact .kNull h1
  case kThis h1 => exact .kThis h1
  case kTrue h1 => exact .kTrue h1
  case kFalse h1 => exact .kFalse h1
  case number h1 => exact .number h1
  case string h1 => exact .string h1
  case regExp h1 => exact .regExp h1
  case array h1 h2 h3 ih1 => exact .array h1 ih1 h3
  case object h1 h2 h3 ih1 => exact .object h1 ih1 h3
  case function h1 ih1 => exact .function ih1
  case paren h1 h2 h3 ih1 => exact .paren h1 ih1 h3
  case elemsNil => exact .elemsNil
  case elemsLast h1 ih1 => exact .elemsLast ih1
  case elemsCons h1 h2 h3 ih1 ih2 => exact .elemsCons ih1 h2 ih2
  case elemsHole h1 h2 ih1 => exact .elemsHole h1 ih1
  case argExpr h1 ih1 => exact .argExpr ih1
  case argSpread h1 h2 h3 ih1 => exact .argSpread h1 ih1 (hL _ _ _ h3)
  case propsNil => exact .propsNil
  case propsLast h1 ih1 => exact .propsLast ih1
  case propsCons h1 h2 h3 ih1 ih2 => exact .propsCons ih1 h2 ih2
  case propInit h1 h2 h3 ih1 => exact .propInit h1 h2 ih1
  case propShorthand h1 h2 h3 => exact .propShorthand h1 h2 h3
  case propMethod h1 h2 h3 ih1 ih2 => exact .propMethod h1 ih1 ih2
  case propGenerator h1 h2 h3 h4 ih1 ih2 => exact .propGenerator h1 h2 ih1 ih2
  case propGet h1 h2 h3 h4 h5 ih1 => exact .propGet h1 h2 h3 h4 ih1
  case propSet h1 h2 h3 h4 h5 h6 ih1 ih2 => exact .propSet h1 h2 h3 ih1 h5 ih2
  case name h1 => exact .name h1
  case nameNone => exact .nameNone
  case nameSome h1 ih1 => exact .nameSome ih1
  case func h1 h2 h3 h4 h5 h6 ih1 ih2 ih3 => exact .func h1 ih1 ih2 ih3 (hL _ _ _ h5) h6
  case funcGenerator h1 h2 h3 h4 h5 h6 h7 ih1 ih2 ih3 => exact .funcGenerator h1 h2 ih1 ih2 ih3 (hL _ _ _ h6) h7
  case pattern h1 => exact .pattern h1
  case paramsNil => exact .paramsNil
  case paramsRest h1 h2 h3 ih1 => exact .paramsRest h1 ih1 (hL _ _ _ h3)
  case paramsLast h1 ih1 => exact .paramsLast ih1
  case paramsCons h1 h2 h3 ih1 ih2 => exact .paramsCons ih1 h2 ih2
  case params h1 h2 h3 h4 ih1 => exact .params h1 ih1 h3 (hL _ _ _ h4)
  case functionBody h1 h2 h3 h4 ih1 => exact .functionBody h1 ih1 h3 h4
  case lhsPrimary h1 ih1 => exact .lhsPrimary ih1
  case newTarget h1 h2 h3 => exact .newTarget h1 h2 h3
  case dot h1 h2 h3 ih1 => exact .dot ih1 h2 h3
  case brack h1 h2 h3 h4 ih1 ih2 => exact .brack ih1 h2 ih2 h4
  case call h1 h2 h3 h4 ih1 ih2 => exact .call ih1 h2 ih2 h4
  case lhsNew h1 ih1 => exact .lhsNew ih1
  case newBaseMember h1 h2 ih1 => exact .newBaseMember h1 ih1
  case newBaseArgs h1 ih1 => exact .newBaseArgs ih1
  case newBaseNoArgs h1 ih1 => exact .newBaseNoArgs ih1
  case newArgs h1 h2 h3 h4 h5 ih1 ih2 => exact .newArgs h1 ih1 h3 ih2 h5
  case newNoArgs h1 h2 h3 ih1 => exact .newNoArgs h1 ih1 h3
  case argListNil => exact .argListNil
  case argList h1 ih1 => exact .argList ih1
  case argsLast h1 ih1 => exact .argsLast ih1
  case argsCons h1 h2 h3 ih1 ih2 => exact .argsCons ih1 h2 ih2
  case postfixNone h1 h2 h3 ih1 => exact .postfixNone h1 h2 ih1
  case postInc h1 h2 h3 ih1 => exact .postInc ih1 h2 h3
  case postDec h1 h2 h3 ih1 => exact .postDec ih1 h2 h3
  case unaryPostfix h1 ih1 => exact .unaryPostfix ih1
  case unop h1 h2 ih1 => exact .unop h1 ih1
  case preInc h1 h2 ih1 => exact .preInc h1 ih1
  case preDec h1 h2 ih1 => exact .preDec h1 ih1
  case binaryUnary h1 ih1 => exact .binaryUnary ih1
  case binaryUp h1 h2 ih1 => exact .binaryUp h1 ih1
  case binop h1 h2 h3 ih1 ih2 => exact .binop ih1 h2 ih2
  case logop h1 h2 h3 ih1 ih2 => exact .logop ih1 h2 ih2
  case condNone h1 h2 h3 h4 ih1 => exact .condNone h1 h2 h3 ih1
  case cond h1 h2 h3 h4 h5 ih1 ih2 ih3 => exact .cond ih1 h2 ih2 h4 ih3
  case assignNone h1 h2 ih1 => exact .assignNone h1 ih1
  case assign h1 h2 h3 h4 h5 ih1 ih2 => exact .assign h1 h2 ih1 h4 ih2
  case binAssign h1 h2 h3 ih1 ih2 => exact .binAssign ih1 h2 ih2
  case exprsLast h1 h2 ih1 => exact .exprsLast h1 ih1
  case exprsCons h1 h2 h3 ih1 ih2 => exact .exprsCons ih1 h2 ih2
  case exprOne h1 h2 ih1 => exact .exprOne h1 ih1
  case exprSeq h1 h2 ih1 => exact .exprSeq ih1 h2
  case directive h1 h2 h3 h4 h5 ih1 => exact .directive h1 h2 h3 (hL _ _ _ h4) ih1
  case prologueEnd h1 h2 h3 ih1 => exact .prologueEnd h1 h2 ih1
  case body h1 h2 ih1 => exact .body ih1 (hL _ _ _ h2)
  case itemsNil h1 => exact .itemsNil h1
  case itemsCons h1 h2 ih1 ih2 => exact .itemsCons ih1 ih2
  case modItemsNil h1 => exact .modItemsNil h1
  case modItemsCons h1 h2 ih1 ih2 => exact .modItemsCons ih1 ih2
  case itemStmt h1 ih1 => exact .itemStmt ih1
  case itemDecl h1 ih1 => exact .itemDecl ih1
  case declFun h1 h2 ih1 => exact .declFun ih1 (hL _ _ _ h2)
  case declLet h1 h2 h3 h4 ih1 => exact .declLet h1 ih1 h3 (hL _ _ _ h4)
  case declConst h1 h2 h3 h4 ih1 => exact .declConst h1 ih1 h3 (hL _ _ _ h4)
  case dtorNone h1 h2 h3 => exact .dtorNone h1 h2 (hL _ _ _ h3)
  case dtorInit h1 h2 h3 h4 ih1 => exact .dtorInit h1 h2 ih1 (hL _ _ _ h4)
  case dtorsLast h1 h2 ih1 => exact .dtorsLast h1 ih1
  case dtorsCons h1 h2 h3 ih1 ih2 => exact .dtorsCons ih1 h2 ih2
  case constDtor h1 h2 h3 ih1 ih2 => exact .constDtor ih1 h2 ih2
  case constDtorsLast h1 h2 ih1 => exact .constDtorsLast h1 ih1
  case constDtorsCons h1 h2 h3 ih1 ih2 => exact .constDtorsCons ih1 h2 ih2
  case block h1 h2 h3 h4 ih1 => exact .block h1 ih1 h3 (hL _ _ _ h4)
  case blockStmt h1 ih1 => exact .blockStmt ih1
  case varStmt h1 h2 h3 h4 ih1 => exact .varStmt h1 ih1 h3 (hL _ _ _ h4)
  case emptyStmt h1 h2 => exact .emptyStmt h1 (hL _ _ _ h2)
  case exprStmt h1 h2 h3 h4 ih1 => exact .exprStmt h1 ih1 h3 (hL _ _ _ h4)
  case ifStmt h1 h2 h3 h4 h5 h6 h7 ih1 ih2 => exact .ifStmt h1 h2 ih1 h4 ih2 h6 (hL _ _ _ h7)
  case ifElseStmt h1 h2 h3 h4 h5 h6 h7 h8 ih1 ih2 ih3 => exact .ifElseStmt h1 h2 ih1 h4 ih2 h6 ih3 (hL _ _ _ h8)
  case doStmt h1 h2 h3 h4 h5 h6 h7 h8 ih1 ih2 => exact .doStmt h1 ih1 h3 h4 ih2 h6 h7 (hL _ _ _ h8)
  case whileStmt h1 h2 h3 h4 h5 h6 ih1 ih2 => exact .whileStmt h1 h2 ih1 h4 ih2 (hL _ _ _ h6)
  case forStmt h1 h2 h3 h4 h5 h6 h7 h8 h9 ih1 ih2 ih3 ih4 => exact .forStmt h1 h2 ih1 ih2 h5 ih3 h7 ih4 (hL _ _ _ h9)
  case forInStmt h1 h2 h3 h4 h5 h6 h7 h8 ih1 ih2 ih3 => exact .forInStmt h1 h2 ih1 h4 ih2 h6 ih3 (hL _ _ _ h8)
  case forOfStmt h1 h2 h3 h4 h5 h6 h7 h8 ih1 ih2 ih3 => exact .forOfStmt h1 h2 ih1 h4 ih2 h6 ih3 (hL _ _ _ h8)
  case exprOptNone => exact .exprOptNone
  case exprOptSome h1 ih1 => exact .exprOptSome ih1
  case headDtorNone h1 => exact .headDtorNone h1
  case headDtorInit h1 h2 h3 ih1 => exact .headDtorInit h1 h2 ih1
  case headDtorsLast h1 ih1 => exact .headDtorsLast ih1
  case headDtorsCons h1 h2 h3 ih1 ih2 => exact .headDtorsCons ih1 h2 ih2
  case forHeadNone h1 => exact .forHeadNone h1
  case forHeadVar h1 h2 h3 ih1 => exact .forHeadVar h1 ih1 h3
  case forHeadLet h1 h2 h3 ih1 => exact .forHeadLet h1 ih1 h3
  case forHeadConst h1 h2 h3 ih1 => exact .forHeadConst h1 ih1 h3
  case forHeadExpr h1 h2 h3 h4 ih1 => exact .forHeadExpr h1 h2 ih1 h4
  case forInVarInit h1 h2 h3 h4 ih1 => exact .forInVarInit h1 h2 h3 ih1
  case forInVar h1 h2 ih1 => exact .forInVar h1 ih1
  case forInLet h1 h2 ih1 => exact .forInLet h1 ih1
  case forInConst h1 h2 ih1 => exact .forInConst h1 ih1
  case forInPatt h1 h2 h3 h4 h5 ih1 => exact .forInPatt h1 h2 h3 h4 ih1
  case forOfVar h1 h2 ih1 => exact .forOfVar h1 ih1
  case forOfLet h1 h2 ih1 => exact .forOfLet h1 ih1
  case forOfConst h1 h2 ih1 => exact .forOfConst h1 ih1
  case forOfPatt h1 h2 h3 h4 h5 ih1 => exact .forOfPatt h1 h2 h3 h4 ih1
  case breakNone h1 h2 h3 h4 h5 => exact .breakNone h1 h2 h3 h4 (hL _ _ _ h5)
  case breakLabel h1 h2 h3 h4 h5 h6 => exact .breakLabel h1 h2 h3 h4 h5 (hL _ _ _ h6)
  case continueNone h1 h2 h3 h4 h5 => exact .continueNone h1 h2 h3 h4 (hL _ _ _ h5)
  case continueLabel h1 h2 h3 h4 h5 h6 => exact .continueLabel h1 h2 h3 h4 h5 (hL _ _ _ h6)
  case returnNone h1 h2 h3 h4 h5 => exact .returnNone h1 h2 h3 h4 (hL _ _ _ h5)
  case returnExpr h1 h2 h3 h4 h5 h6 ih1 => exact .returnExpr h1 h2 h3 ih1 h5 (hL _ _ _ h6)
  case throwStmt h1 h2 h3 h4 h5 ih1 => exact .throwStmt h1 h2 ih1 h4 (hL _ _ _ h5)
  case withStmt h1 h2 h3 h4 h5 h6 h7 ih1 ih2 => exact .withStmt h1 h2 h3 ih1 h5 ih2 (hL _ _ _ h7)
  case switchStmt h1 h2 h3 h4 h5 h6 h7 h8 h9 ih1 ih2 => exact .switchStmt h1 h2 ih1 h4 h5 ih2 h7 h8 (hL _ _ _ h9)
  case casesNil => exact .casesNil
  case casesCons h1 h2 ih1 ih2 => exact .casesCons ih1 ih2
  case case h1 h2 h3 h4 h5 ih1 ih2 => exact .case h1 ih1 h3 ih2 (hL _ _ _ h5)
  case default h1 h2 h3 h4 ih1 => exact .default h1 h2 ih1 (hL _ _ _ h4)
  case labelStmt h1 h2 h3 h4 ih1 => exact .labelStmt h1 h2 h3 ih1
  case tryStmt h1 h2 h3 h4 h5 h6 ih1 ih2 ih3 => exact .tryStmt h1 ih1 ih2 ih3 h5 (hL _ _ _ h6)
  case catchNone => exact .catchNone
  case catchSome h1 h2 h3 h4 h5 h6 ih1 ih2 => exact .catchSome h1 h2 ih1 h4 ih2 (hL _ _ _ h6)
  case finallyNone h1 => exact .finallyNone h1
  case finallySome h1 h2 ih1 => exact .finallySome h1 ih1
  case debuggerStmt h1 h2 h3 => exact .debuggerStmt h1 h2 (hL _ _ _ h3)

set_option maxHeartbeats 2000000 in
/-- Derivations from tokens in which the end of the source is replaced by other tokens. -/
theorem derives_join [Env] {L : LocSpec} {t0 : Token} {R' : List Token} (hJ : Fresh t0)
    (hL : ∀ i r l, L i r l → StartsBefore l (t0 :: R')) {c : Cat} {env : Scope} {nt : NT c}
    {inp rest : List Token} {x : Ast c} (h : Derives L env nt inp rest x) :
    LetSafe t0 inp → (isOpen nt = true → HeadNe rest) →
      Derives anyLoc env nt (join (t0 :: R') inp) (join (t0 :: R') rest) x := by
  induction h
  case identifier h1 =>
    intro hs hr
    refine of_inp (by ne0) ?_
    exact .identifier h1
  case kNull h1 =>
    intro hs hr
    refine of_inp (by ne0) ?_
    exact .kNull h1
  case kThis h1 =>
    intro hs hr
    refine of_inp (by ne0) ?_
    exact .kThis h1
  case kTrue h1 =>
    intro hs hr
    refine of_inp (by ne0) ?_
    exact .kTrue h1
  case kFalse h1 =>
    intro hs hr
    refine of_inp (by ne0) ?_
    exact .kFalse h1
  case number h1 =>
    intro hs hr
    refine of_inp (by ne0) ?_
    exact .number h1
  case string h1 =>
    intro hs hr
    refine of_inp (by ne0) ?_
    exact .string h1
  case regExp h1 =>
    intro hs hr
    refine of_inp (by ne0) ?_
    exact .regExp h1
  case array h1 h2 h3 ih1 =>
    intro hs hr
    refine of_inp (by ne0) ?_
    exact .array h1 (of_rest (by ne0) (ih1 ((hs).tail) (fun h => Bool.noConfusion (show false = true from h)))) h3
  case object h1 h2 h3 ih1 =>
    intro hs hr
    refine of_inp (by ne0) ?_
    exact .object h1 (of_rest (by ne0) (ih1 ((hs).tail) (fun h => Bool.noConfusion (show false = true from h)))) h3
  case function h1 ih1 =>
    intro hs hr
    exact .function (ih1 hs (fun h => Bool.noConfusion (show false = true from h)))
  case paren h1 h2 h3 ih1 =>
    intro hs hr
    refine of_inp (by ne0) ?_
    exact .paren h1 (of_rest (by ne0) (ih1 ((hs).tail) (fun h => Bool.noConfusion (show false = true from h)))) h3
  case elemsNil =>
    intro hs hr
    exact .elemsNil
  case elemsLast h1 ih1 =>
    intro hs hr
    exact .elemsLast (ih1 hs (fun h => Bool.noConfusion (show false = true from h)))
  case elemsCons h1 h2 h3 ih1 ih2 =>
    intro hs hr
    exact .elemsCons (of_rest (by ne0) (ih1 hs (fun h => Bool.noConfusion (show false = true from h)))) h2 (ih2 (((hs).of h1.suffix).tail) (fun h => Bool.noConfusion (show false = true from h)))
  case elemsHole h1 h2 ih1 =>
    intro hs hr
    refine of_inp (by ne0) ?_
    exact .elemsHole h1 (ih1 ((hs).tail) (fun h => Bool.noConfusion (show false = true from h)))
  case argExpr h1 ih1 =>
    intro hs hr
    exact .argExpr (ih1 hs (fun h => Bool.noConfusion (show false = true from h)))
  case argSpread h1 h2 h3 ih1 =>
    intro hs hr
    refine of_inp (by ne0) ?_
    exact .argSpread h1 (ih1 ((hs).tail) (fun h => Bool.noConfusion (show false = true from h))) trivial
  case propsNil =>
    intro hs hr
    exact .propsNil
  case propsLast h1 ih1 =>
    intro hs hr
    exact .propsLast (ih1 hs (fun h => Bool.noConfusion (show false = true from h)))
  case propsCons h1 h2 h3 ih1 ih2 =>
    intro hs hr
    exact .propsCons (of_rest (by ne0) (ih1 hs (fun h => Bool.noConfusion (show false = true from h)))) h2 (ih2 (((hs).of h1.suffix).tail) (fun h => Bool.noConfusion (show false = true from h)))
  case propInit h1 h2 h3 ih1 =>
    intro hs hr
    refine of_inp2 (by ne0) (by ne0) ?_
    exact .propInit h1 h2 (ih1 (((hs).tail).tail) (fun h => Bool.noConfusion (show false = true from h)))
  case propShorthand h1 h2 h3 =>
    intro hs hr
    refine of_inp (by ne0) ?_
    exact .propShorthand h1 h2 (h3.imp (fun h => nextIs_join h nofun) (fun h => nextIs_join h nofun))
  case propMethod h1 h2 h3 ih1 ih2 =>
    intro hs hr
    refine of_inp (by ne0) ?_
    exact .propMethod h1 (ih1 ((hs).tail) (fun h => Bool.noConfusion (show false = true from h))) (ih2 (((hs).tail).of h2.suffix) (fun h => Bool.noConfusion (show false = true from h)))
  case propGenerator h1 h2 h3 h4 ih1 ih2 =>
    intro hs hr
    refine of_inp2 (by ne0) (by ne0) ?_
    exact .propGenerator h1 h2 (ih1 (((hs).tail).tail) (fun h => Bool.noConfusion (show false = true from h))) (ih2 ((((hs).tail).tail).of h3.suffix) (fun h => Bool.noConfusion (show false = true from h)))
  case propGet h1 h2 h3 h4 h5 ih1 =>
    intro hs hr
    refine of_inp4 (by ne0) (by ne0) (by ne0) (by ne0) ?_
    exact .propGet h1 h2 h3 h4 (ih1 (((((hs).tail).tail).tail).tail) (fun h => Bool.noConfusion (show false = true from h)))
  case propSet h1 h2 h3 h4 h5 h6 ih1 ih2 =>
    intro hs hr
    refine of_inp3 (by ne0) (by ne0) (by ne0) ?_
    exact .propSet h1 h2 h3 (of_rest (by ne0) (ih1 ((((hs).tail).tail).tail) (fun h => Bool.noConfusion (show false = true from h)))) h5 (ih2 ((((((hs).tail).tail).tail).of h4.suffix).tail) (fun h => Bool.noConfusion (show false = true from h)))
  case name h1 =>
    intro hs hr
    refine of_inp (by ne0) ?_
    exact .name h1
  case nameNone =>
    intro hs hr
    exact .nameNone
  case nameSome h1 ih1 =>
    intro hs hr
    exact .nameSome (ih1 hs (fun h => Bool.noConfusion (show false = true from h)))
  case func h1 h2 h3 h4 h5 h6 ih1 ih2 ih3 =>
    intro hs hr
    refine of_inp (by ne0) ?_
    exact .func h1 (ih1 ((hs).tail) (fun _ => headNe_params h3)) (ih2 (((hs).tail).of h2.suffix) (fun h => Bool.noConfusion (show false = true from h))) (ih3 ((((hs).tail).of h2.suffix).of h3.suffix) (fun h => Bool.noConfusion (show false = true from h))) trivial (startsBefore_tail (hL _ _ _ h5) h6)
  case funcGenerator h1 h2 h3 h4 h5 h6 h7 ih1 ih2 ih3 =>
    intro hs hr
    refine of_inp2 (by ne0) (by ne0) ?_
    exact .funcGenerator h1 h2 (ih1 (((hs).tail).tail) (fun _ => headNe_params h4)) (ih2 ((((hs).tail).tail).of h3.suffix) (fun h => Bool.noConfusion (show false = true from h))) (ih3 (((((hs).tail).tail).of h3.suffix).of h4.suffix) (fun h => Bool.noConfusion (show false = true from h))) trivial (startsBefore_join (hL _ _ _ h6) h7)
  case pattern h1 =>
    intro hs hr
    refine of_inp (by ne0) ?_
    exact .pattern h1
  case paramsNil =>
    intro hs hr
    exact .paramsNil
  case paramsRest h1 h2 h3 ih1 =>
    intro hs hr
    refine of_inp (by ne0) ?_
    exact .paramsRest h1 (ih1 ((hs).tail) (fun h => Bool.noConfusion (show false = true from h))) trivial
  case paramsLast h1 ih1 =>
    intro hs hr
    exact .paramsLast (ih1 hs (fun h => Bool.noConfusion (show false = true from h)))
  case paramsCons h1 h2 h3 ih1 ih2 =>
    intro hs hr
    exact .paramsCons (of_rest (by ne0) (ih1 hs (fun h => Bool.noConfusion (show false = true from h)))) h2 (ih2 (((hs).of h1.suffix).tail) (fun h => Bool.noConfusion (show false = true from h)))
  case params h1 h2 h3 h4 ih1 =>
    intro hs hr
    refine of_inp (by ne0) ?_
    exact .params h1 (of_rest (by ne0) (ih1 ((hs).tail) (fun h => Bool.noConfusion (show false = true from h)))) h3 trivial
  case functionBody h1 h2 h3 h4 ih1 =>
    intro hs hr
    refine of_inp (by ne0) ?_
    exact .functionBody h1 (of_rest (by ne0) (ih1 ((hs).tail) (fun _ _ _ h => by cases h; ne0))) h3 h4
  case lhsPrimary h1 ih1 =>
    intro hs hr
    exact .lhsPrimary (ih1 hs (fun h => Bool.noConfusion (show false = true from h)))
  case newTarget h1 h2 h3 =>
    intro hs hr
    refine of_inp3 (by ne0) (by ne0) (by ne0) ?_
    exact .newTarget h1 h2 h3
  case dot h1 h2 h3 ih1 =>
    intro hs hr
    exact .dot (of_rest2 (by ne0) (by ne0) (ih1 hs (fun h => Bool.noConfusion (show false = true from h)))) h2 h3
  case brack h1 h2 h3 h4 ih1 ih2 =>
    intro hs hr
    exact .brack (of_rest (by ne0) (ih1 hs (fun h => Bool.noConfusion (show false = true from h)))) h2 (of_rest (by ne0) (ih2 (((hs).of h1.suffix).tail) (fun h => Bool.noConfusion (show false = true from h)))) h4
  case call h1 h2 h3 h4 ih1 ih2 =>
    intro hs hr
    exact .call (of_rest (by ne0) (ih1 hs (fun h => Bool.noConfusion (show false = true from h)))) h2 (of_rest (by ne0) (ih2 (((hs).of h1.suffix).tail) (fun h => Bool.noConfusion (show false = true from h)))) h4
  case lhsNew h1 ih1 =>
    intro hs hr
    exact .lhsNew (ih1 hs (fun h => Bool.noConfusion (show false = true from h)))
  case newBaseMember h1 h2 ih1 =>
    intro hs hr
    exact .newBaseMember (nextNotIn_join hJ h1 (by val0)) (ih1 hs (fun h => Bool.noConfusion (show false = true from h)))
  case newBaseArgs h1 ih1 =>
    intro hs hr
    exact .newBaseArgs (ih1 hs (fun h => Bool.noConfusion (show false = true from h)))
  case newBaseNoArgs h1 ih1 =>
    intro hs hr
    exact .newBaseNoArgs (ih1 hs (fun h => Bool.noConfusion (show false = true from h)))
  case newArgs h1 h2 h3 h4 h5 ih1 ih2 =>
    intro hs hr
    refine of_inp (by ne0) ?_
    exact .newArgs h1 (of_rest (by ne0) (ih1 ((hs).tail) (fun h => Bool.noConfusion (show false = true from h)))) h3 (of_rest (by ne0) (ih2 ((((hs).tail).of h2.suffix).tail) (fun h => Bool.noConfusion (show false = true from h)))) h5
  case newNoArgs h1 h2 h3 ih1 =>
    intro hs hr
    refine of_inp (by ne0) ?_
    exact .newNoArgs h1 (ih1 ((hs).tail) (fun h => Bool.noConfusion (show false = true from h))) (nextIsNot_join hJ h3 (by val0))
  case argListNil =>
    intro hs hr
    exact .argListNil
  case argList h1 ih1 =>
    intro hs hr
    exact .argList (ih1 hs (fun h => Bool.noConfusion (show false = true from h)))
  case argsLast h1 ih1 =>
    intro hs hr
    exact .argsLast (ih1 hs (fun h => Bool.noConfusion (show false = true from h)))
  case argsCons h1 h2 h3 ih1 ih2 =>
    intro hs hr
    exact .argsCons (of_rest (by ne0) (ih1 hs (fun h => Bool.noConfusion (show false = true from h)))) h2 (ih2 (((hs).of h1.suffix).tail) (fun h => Bool.noConfusion (show false = true from h)))
  case postfixNone h1 h2 h3 ih1 =>
    intro hs hr
    exact .postfixNone (nextNotIn_join hJ h1 (by val0)) (noPostfix_join hJ h2) (ih1 hs (fun h => Bool.noConfusion (show false = true from h)))
  case postInc h1 h2 h3 ih1 =>
    intro hs hr
    exact .postInc (of_rest (by ne0) (ih1 hs (fun h => Bool.noConfusion (show false = true from h)))) h2 h3
  case postDec h1 h2 h3 ih1 =>
    intro hs hr
    exact .postDec (of_rest (by ne0) (ih1 hs (fun h => Bool.noConfusion (show false = true from h)))) h2 h3
  case unaryPostfix h1 ih1 =>
    intro hs hr
    exact .unaryPostfix (ih1 hs (fun h => Bool.noConfusion (show false = true from h)))
  case unop h1 h2 ih1 =>
    intro hs hr
    refine of_inp (by ne0) ?_
    exact .unop h1 (ih1 ((hs).tail) (fun h => Bool.noConfusion (show false = true from h)))
  case preInc h1 h2 ih1 =>
    intro hs hr
    refine of_inp (by ne0) ?_
    exact .preInc h1 (ih1 ((hs).tail) (fun h => Bool.noConfusion (show false = true from h)))
  case preDec h1 h2 ih1 =>
    intro hs hr
    refine of_inp (by ne0) ?_
    exact .preDec h1 (ih1 ((hs).tail) (fun h => Bool.noConfusion (show false = true from h)))
  case binaryUnary h1 ih1 =>
    intro hs hr
    exact .binaryUnary (ih1 hs (fun h => Bool.noConfusion (show false = true from h)))
  case binaryUp h1 h2 ih1 =>
    intro hs hr
    exact .binaryUp h1 (ih1 hs (fun h => Bool.noConfusion (show false = true from h)))
  case binop h1 h2 h3 ih1 ih2 =>
    intro hs hr
    exact .binop (of_rest (by ne0) (ih1 hs (fun h => Bool.noConfusion (show false = true from h)))) h2 (ih2 (((hs).of h1.suffix).tail) (fun h => Bool.noConfusion (show false = true from h)))
  case logop h1 h2 h3 ih1 ih2 =>
    intro hs hr
    exact .logop (of_rest (by ne0) (ih1 hs (fun h => Bool.noConfusion (show false = true from h)))) h2 (ih2 (((hs).of h1.suffix).tail) (fun h => Bool.noConfusion (show false = true from h)))
  case condNone h1 h2 h3 h4 ih1 =>
    intro hs hr
    exact .condNone (noRegExp_join hJ h1) (noInfix_join hJ h2) (nextIsNot_join hJ h3 (by val0)) (ih1 hs (fun h => Bool.noConfusion (show false = true from h)))
  case cond h1 h2 h3 h4 h5 ih1 ih2 ih3 =>
    intro hs hr
    exact .cond (of_rest (by ne0) (ih1 hs (fun h => Bool.noConfusion (show false = true from h)))) h2 (of_rest (by ne0) (ih2 (((hs).of h1.suffix).tail) (fun h => Bool.noConfusion (show false = true from h)))) h4 (ih3 (((((hs).of h1.suffix).tail).of h3.suffix).tail) (fun h => Bool.noConfusion (show false = true from h)))
  case assignNone h1 h2 ih1 =>
    intro hs hr
    exact .assignNone (noAssign_join hJ h1) (ih1 hs (fun h => Bool.noConfusion (show false = true from h)))
  case assign h1 h2 h3 h4 h5 ih1 ih2 =>
    intro hs hr
    exact .assign h1 h2 (of_rest (by ne0) (ih1 hs (fun h => Bool.noConfusion (show false = true from h)))) h4 (ih2 (((hs).of h3.suffix).tail) (fun h => Bool.noConfusion (show false = true from h)))
  case binAssign h1 h2 h3 ih1 ih2 =>
    intro hs hr
    exact .binAssign (of_rest (by ne0) (ih1 hs (fun h => Bool.noConfusion (show false = true from h)))) h2 (ih2 (((hs).of h1.suffix).tail) (fun h => Bool.noConfusion (show false = true from h)))
  case exprsLast h1 h2 ih1 =>
    intro hs hr
    exact .exprsLast (nextIsNot_join hJ h1 (by val0)) (ih1 hs (fun h => Bool.noConfusion (show false = true from h)))
  case exprsCons h1 h2 h3 ih1 ih2 =>
    intro hs hr
    exact .exprsCons (of_rest (by ne0) (ih1 hs (fun h => Bool.noConfusion (show false = true from h)))) h2 (ih2 (((hs).of h1.suffix).tail) (fun h => Bool.noConfusion (show false = true from h)))
  case exprOne h1 h2 ih1 =>
    intro hs hr
    exact .exprOne (nextIsNot_join hJ h1 (by val0)) (ih1 hs (fun h => Bool.noConfusion (show false = true from h)))
  case exprSeq h1 h2 ih1 =>
    intro hs hr
    exact .exprSeq (ih1 hs (fun h => Bool.noConfusion (show false = true from h))) h2
  case directive h1 h2 h3 h4 h5 ih1 =>
    intro hs hr
    refine of_inp (by ne0) ?_
    exact .directive h1 (notContinues_join hJ h2) (term_join hJ h3) trivial (ih1 (((hs).tail).of h3.suffix) (fun _ => hr rfl))
  case prologueEnd h1 h2 h3 ih1 =>
    intro hs hr
    exact .prologueEnd (notDirective_join hJ h1) (stringNoDivision_join hJ h2) (ih1 hs (fun _ => hr rfl))
  case body h1 h2 ih1 =>
    intro hs hr
    exact .body (ih1 hs (fun _ => hr rfl)) trivial
  case itemsNil h1 =>
    intro hs hr
    rw [join_cons (hr rfl _ _ rfl)]
    exact .itemsNil h1
  case itemsCons h1 h2 ih1 ih2 =>
    intro hs hr
    exact .itemsCons (ih1 hs (fun h => Bool.noConfusion (show false = true from h))) (ih2 ((hs).of h1.suffix) (fun _ => hr rfl))
  case modItemsNil h1 =>
    intro hs hr
    rw [join_cons (hr rfl _ _ rfl)]
    exact .modItemsNil h1
  case modItemsCons h1 h2 ih1 ih2 =>
    intro hs hr
    exact .modItemsCons (ih1 hs (fun h => Bool.noConfusion (show false = true from h))) (ih2 ((hs).of h1.suffix) (fun _ => hr rfl))
  case itemStmt h1 ih1 =>
    intro hs hr
    exact .itemStmt (ih1 hs (fun h => Bool.noConfusion (show false = true from h)))
  case itemDecl h1 ih1 =>
    intro hs hr
    exact .itemDecl (ih1 hs (fun h => Bool.noConfusion (show false = true from h)))
  case declFun h1 h2 ih1 =>
    intro hs hr
    exact .declFun (ih1 hs (fun h => Bool.noConfusion (show false = true from h))) trivial
  case declLet h1 h2 h3 h4 ih1 =>
    intro hs hr
    refine of_inp (by ne0) ?_
    exact .declLet h1 (ih1 ((hs).tail) (fun h => Bool.noConfusion (show false = true from h))) (term_join hJ h3) trivial
  case declConst h1 h2 h3 h4 ih1 =>
    intro hs hr
    refine of_inp (by ne0) ?_
    exact .declConst h1 (ih1 ((hs).tail) (fun h => Bool.noConfusion (show false = true from h))) (term_join hJ h3) trivial
  case dtorNone h1 h2 h3 =>
    intro hs hr
    refine of_inp (by ne0) ?_
    exact .dtorNone (nextIsNot_join hJ h1 (by val0)) h2 trivial
  case dtorInit h1 h2 h3 h4 ih1 =>
    intro hs hr
    refine of_inp2 (by ne0) (by ne0) ?_
    exact .dtorInit h1 h2 (ih1 (((hs).tail).tail) (fun h => Bool.noConfusion (show false = true from h))) trivial
  case dtorsLast h1 h2 ih1 =>
    intro hs hr
    exact .dtorsLast (nextIsNot_join hJ h1 (by val0)) (ih1 hs (fun h => Bool.noConfusion (show false = true from h)))
  case dtorsCons h1 h2 h3 ih1 ih2 =>
    intro hs hr
    exact .dtorsCons (of_rest (by ne0) (ih1 hs (fun h => Bool.noConfusion (show false = true from h)))) h2 (ih2 (((hs).of h1.suffix).tail) (fun h => Bool.noConfusion (show false = true from h)))
  case constDtor h1 h2 h3 ih1 ih2 =>
    intro hs hr
    exact .constDtor (of_rest (by ne0) (ih1 hs (fun h => Bool.noConfusion (show false = true from h)))) h2 (ih2 (((hs).of h1.suffix).tail) (fun h => Bool.noConfusion (show false = true from h)))
  case constDtorsLast h1 h2 ih1 =>
    intro hs hr
    exact .constDtorsLast (nextIsNot_join hJ h1 (by val0)) (ih1 hs (fun h => Bool.noConfusion (show false = true from h)))
  case constDtorsCons h1 h2 h3 ih1 ih2 =>
    intro hs hr
    exact .constDtorsCons (of_rest (by ne0) (ih1 hs (fun h => Bool.noConfusion (show false = true from h)))) h2 (ih2 (((hs).of h1.suffix).tail) (fun h => Bool.noConfusion (show false = true from h)))
  case block h1 h2 h3 h4 ih1 =>
    intro hs hr
    refine of_inp (by ne0) ?_
    exact .block h1 (of_rest (by ne0) (ih1 ((hs).tail) (fun _ _ _ h => by cases h; ne0))) h3 trivial
  case blockStmt h1 ih1 =>
    intro hs hr
    exact .blockStmt (ih1 hs (fun h => Bool.noConfusion (show false = true from h)))
  case varStmt h1 h2 h3 h4 ih1 =>
    intro hs hr
    refine of_inp (by ne0) ?_
    exact .varStmt h1 (ih1 ((hs).tail) (fun h => Bool.noConfusion (show false = true from h))) (term_join hJ h3) trivial
  case emptyStmt h1 h2 =>
    intro hs hr
    refine of_inp (by ne0) ?_
    exact .emptyStmt h1 trivial
  case exprStmt h1 h2 h3 h4 ih1 =>
    intro hs hr
    exact .exprStmt (exprStmtStart_join hJ hs h1 h2.first) (ih1 hs (fun h => Bool.noConfusion (show false = true from h))) (term_join hJ h3) trivial
  case ifStmt h1 h2 h3 h4 h5 h6 h7 ih1 ih2 =>
    intro hs hr
    refine of_inp2 (by ne0) (by ne0) ?_
    exact .ifStmt h1 h2 (of_rest (by ne0) (ih1 (((hs).tail).tail) (fun h => Bool.noConfusion (show false = true from h)))) h4 (ih2 (((((hs).tail).tail).of h3.suffix).tail) (fun h => Bool.noConfusion (show false = true from h))) (nextIsNot_join hJ h6 (by val0)) trivial
  case ifElseStmt h1 h2 h3 h4 h5 h6 h7 h8 ih1 ih2 ih3 =>
    intro hs hr
    refine of_inp2 (by ne0) (by ne0) ?_
    exact .ifElseStmt h1 h2 (of_rest (by ne0) (ih1 (((hs).tail).tail) (fun h => Bool.noConfusion (show false = true from h)))) h4 (of_rest (by ne0) (ih2 (((((hs).tail).tail).of h3.suffix).tail) (fun h => Bool.noConfusion (show false = true from h)))) h6 (ih3 (((((((hs).tail).tail).of h3.suffix).tail).of h5.suffix).tail) (fun h => Bool.noConfusion (show false = true from h))) trivial
  case doStmt h1 h2 h3 h4 h5 h6 h7 h8 ih1 ih2 =>
    intro hs hr
    refine of_inp (by ne0) ?_
    exact .doStmt h1 (of_rest2 (by ne0) (by ne0) (ih1 ((hs).tail) (fun h => Bool.noConfusion (show false = true from h)))) h3 h4 (of_rest (by ne0) (ih2 (((((hs).tail).of h2.suffix).tail).tail) (fun h => Bool.noConfusion (show false = true from h)))) h6 (term_join hJ h7) trivial
  case whileStmt h1 h2 h3 h4 h5 h6 ih1 ih2 =>
    intro hs hr
    refine of_inp2 (by ne0) (by ne0) ?_
    exact .whileStmt h1 h2 (of_rest (by ne0) (ih1 (((hs).tail).tail) (fun h => Bool.noConfusion (show false = true from h)))) h4 (ih2 (((((hs).tail).tail).of h3.suffix).tail) (fun h => Bool.noConfusion (show false = true from h))) trivial
  case forStmt h1 h2 h3 h4 h5 h6 h7 h8 h9 ih1 ih2 ih3 ih4 =>
    intro hs hr
    refine of_inp2 (by ne0) (by ne0) ?_
    exact .forStmt h1 h2 (ih1 (((hs).tail).tail) (fun h => Bool.noConfusion (show false = true from h))) (of_rest (by ne0) (ih2 ((((hs).tail).tail).of h3.suffix) (fun h => Bool.noConfusion (show false = true from h)))) h5 (of_rest (by ne0) (ih3 ((((((hs).tail).tail).of h3.suffix).of h4.suffix).tail) (fun h => Bool.noConfusion (show false = true from h)))) h7 (ih4 ((((((((hs).tail).tail).of h3.suffix).of h4.suffix).tail).of h6.suffix).tail) (fun h => Bool.noConfusion (show false = true from h))) trivial
  case forInStmt h1 h2 h3 h4 h5 h6 h7 h8 ih1 ih2 ih3 =>
    intro hs hr
    refine of_inp2 (by ne0) (by ne0) ?_
    exact .forInStmt h1 h2 (of_rest (by ne0) (ih1 (((hs).tail).tail) (fun h => Bool.noConfusion (show false = true from h)))) h4 (of_rest (by ne0) (ih2 (((((hs).tail).tail).of h3.suffix).tail) (fun h => Bool.noConfusion (show false = true from h)))) h6 (ih3 (((((((hs).tail).tail).of h3.suffix).tail).of h5.suffix).tail) (fun h => Bool.noConfusion (show false = true from h))) trivial
  case forOfStmt h1 h2 h3 h4 h5 h6 h7 h8 ih1 ih2 ih3 =>
    intro hs hr
    refine of_inp2 (by ne0) (by ne0) ?_
    exact .forOfStmt h1 h2 (of_rest (by ne0) (ih1 (((hs).tail).tail) (fun h => Bool.noConfusion (show false = true from h)))) h4 (of_rest (by ne0) (ih2 (((((hs).tail).tail).of h3.suffix).tail) (fun h => Bool.noConfusion (show false = true from h)))) h6 (ih3 (((((((hs).tail).tail).of h3.suffix).tail).of h5.suffix).tail) (fun h => Bool.noConfusion (show false = true from h))) trivial
  case exprOptNone =>
    intro hs hr
    exact .exprOptNone
  case exprOptSome h1 ih1 =>
    intro hs hr
    exact .exprOptSome (ih1 hs (fun h => Bool.noConfusion (show false = true from h)))
  case headDtorNone h1 =>
    intro hs hr
    refine of_inp (by ne0) ?_
    exact .headDtorNone h1
  case headDtorInit h1 h2 h3 ih1 =>
    intro hs hr
    refine of_inp2 (by ne0) (by ne0) ?_
    exact .headDtorInit h1 h2 (ih1 (((hs).tail).tail) (fun h => Bool.noConfusion (show false = true from h)))
  case headDtorsLast h1 ih1 =>
    intro hs hr
    exact .headDtorsLast (ih1 hs (fun h => Bool.noConfusion (show false = true from h)))
  case headDtorsCons h1 h2 h3 ih1 ih2 =>
    intro hs hr
    exact .headDtorsCons (of_rest (by ne0) (ih1 hs (fun h => Bool.noConfusion (show false = true from h)))) h2 (ih2 (((hs).of h1.suffix).tail) (fun h => Bool.noConfusion (show false = true from h)))
  case forHeadNone h1 =>
    intro hs hr
    refine of_inp (by ne0) ?_
    exact .forHeadNone h1
  case forHeadVar h1 h2 h3 ih1 =>
    intro hs hr
    refine of_inp (by ne0) ?_
    exact .forHeadVar h1 (of_rest (by ne0) (ih1 ((hs).tail) (fun h => Bool.noConfusion (show false = true from h)))) h3
  case forHeadLet h1 h2 h3 ih1 =>
    intro hs hr
    refine of_inp (by ne0) ?_
    exact .forHeadLet h1 (of_rest (by ne0) (ih1 ((hs).tail) (fun h => Bool.noConfusion (show false = true from h)))) h3
  case forHeadConst h1 h2 h3 ih1 =>
    intro hs hr
    refine of_inp (by ne0) ?_
    exact .forHeadConst h1 (of_rest (by ne0) (ih1 ((hs).tail) (fun h => Bool.noConfusion (show false = true from h)))) h3
  case forHeadExpr h1 h2 h3 h4 ih1 =>
    intro hs hr
    exact .forHeadExpr (letNoDivision_join hJ h1 (headNe_expr h3.first)) (forExprStart_join hJ hs h2 h3.first) (of_rest (by ne0) (ih1 hs (fun h => Bool.noConfusion (show false = true from h)))) h4
  case forInVarInit h1 h2 h3 h4 ih1 =>
    intro hs hr
    refine of_inp3 (by ne0) (by ne0) (by ne0) ?_
    exact .forInVarInit h1 h2 h3 (ih1 ((((hs).tail).tail).tail) (fun h => Bool.noConfusion (show false = true from h)))
  case forInVar h1 h2 ih1 =>
    intro hs hr
    refine of_inp (by ne0) ?_
    exact .forInVar h1 (ih1 ((hs).tail) (fun h => Bool.noConfusion (show false = true from h)))
  case forInLet h1 h2 ih1 =>
    intro hs hr
    refine of_inp (by ne0) ?_
    exact .forInLet h1 (ih1 ((hs).tail) (fun h => Bool.noConfusion (show false = true from h)))
  case forInConst h1 h2 ih1 =>
    intro hs hr
    refine of_inp (by ne0) ?_
    exact .forInConst h1 (ih1 ((hs).tail) (fun h => Bool.noConfusion (show false = true from h)))
  case forInPatt h1 h2 h3 h4 h5 ih1 =>
    intro hs hr
    exact .forInPatt (letNoDivision_join hJ h1 (headNe_expr h5.first)) h2 h3 (forExprStart_join hJ hs h4 h5.first) (ih1 hs (fun h => Bool.noConfusion (show false = true from h)))
  case forOfVar h1 h2 ih1 =>
    intro hs hr
    refine of_inp (by ne0) ?_
    exact .forOfVar h1 (ih1 ((hs).tail) (fun h => Bool.noConfusion (show false = true from h)))
  case forOfLet h1 h2 ih1 =>
    intro hs hr
    refine of_inp (by ne0) ?_
    exact .forOfLet h1 (ih1 ((hs).tail) (fun h => Bool.noConfusion (show false = true from h)))
  case forOfConst h1 h2 ih1 =>
    intro hs hr
    refine of_inp (by ne0) ?_
    exact .forOfConst h1 (ih1 ((hs).tail) (fun h => Bool.noConfusion (show false = true from h)))
  case forOfPatt h1 h2 h3 h4 h5 ih1 =>
    intro hs hr
    exact .forOfPatt (letNoDivision_join hJ h1 (headNe_expr h5.first)) h2 h3 (forExprStart_join hJ hs h4 h5.first) (ih1 hs (fun h => Bool.noConfusion (show false = true from h)))
  case breakNone h1 h2 h3 h4 h5 =>
    intro hs hr
    refine of_inp (by ne0) ?_
    exact .breakNone h1 (noArg_join hJ h2) h3 (term_join hJ h4) trivial
  case breakLabel h1 h2 h3 h4 h5 h6 =>
    intro hs hr
    refine of_inp2 (by ne0) (by ne0) ?_
    exact .breakLabel h1 (argSameLine_head h2) h3 h4 (term_join hJ h5) trivial
  case continueNone h1 h2 h3 h4 h5 =>
    intro hs hr
    refine of_inp (by ne0) ?_
    exact .continueNone h1 (noArg_join hJ h2) h3 (term_join hJ h4) trivial
  case continueLabel h1 h2 h3 h4 h5 h6 =>
    intro hs hr
    refine of_inp2 (by ne0) (by ne0) ?_
    exact .continueLabel h1 (argSameLine_head h2) h3 h4 (term_join hJ h5) trivial
  case returnNone h1 h2 h3 h4 h5 =>
    intro hs hr
    refine of_inp (by ne0) ?_
    exact .returnNone h1 (noArg_join hJ h2) h3 (term_join hJ h4) trivial
  case returnExpr h1 h2 h3 h4 h5 h6 ih1 =>
    intro hs hr
    refine of_inp (by ne0) ?_
    exact .returnExpr h1 (argSameLine_join h2 h4.first) h3 (ih1 ((hs).tail) (fun h => Bool.noConfusion (show false = true from h))) (term_join hJ h5) trivial
  case throwStmt h1 h2 h3 h4 h5 ih1 =>
    intro hs hr
    refine of_inp (by ne0) ?_
    exact .throwStmt h1 (argSameLine_join h2 h3.first) (ih1 ((hs).tail) (fun h => Bool.noConfusion (show false = true from h))) (term_join hJ h4) trivial
  case withStmt h1 h2 h3 h4 h5 h6 h7 ih1 ih2 =>
    intro hs hr
    refine of_inp2 (by ne0) (by ne0) ?_
    exact .withStmt h1 h2 h3 (of_rest (by ne0) (ih1 (((hs).tail).tail) (fun h => Bool.noConfusion (show false = true from h)))) h5 (ih2 (((((hs).tail).tail).of h4.suffix).tail) (fun h => Bool.noConfusion (show false = true from h))) trivial
  case switchStmt h1 h2 h3 h4 h5 h6 h7 h8 h9 ih1 ih2 =>
    intro hs hr
    refine of_inp2 (by ne0) (by ne0) ?_
    exact .switchStmt h1 h2 (of_rest2 (by ne0) (by ne0) (ih1 (((hs).tail).tail) (fun h => Bool.noConfusion (show false = true from h)))) h4 h5 (of_rest (by ne0) (ih2 ((((((hs).tail).tail).of h3.suffix).tail).tail) (fun _ _ _ h => by cases h; ne0))) h7 h8 trivial
  case casesNil =>
    intro hs hr
    exact .casesNil
  case casesCons h1 h2 ih1 ih2 =>
    intro hs hr
    exact .casesCons (ih1 hs (fun _ => headNe_cases h2 (hr rfl))) (ih2 ((hs).of h1.suffix) (fun _ => hr rfl))
  case case h1 h2 h3 h4 h5 ih1 ih2 =>
    intro hs hr
    refine of_inp (by ne0) ?_
    exact .case h1 (of_rest (by ne0) (ih1 ((hs).tail) (fun h => Bool.noConfusion (show false = true from h)))) h3 (ih2 ((((hs).tail).of h2.suffix).tail) (fun _ => hr rfl)) trivial
  case default h1 h2 h3 h4 ih1 =>
    intro hs hr
    refine of_inp2 (by ne0) (by ne0) ?_
    exact .default h1 h2 (ih1 (((hs).tail).tail) (fun _ => hr rfl)) trivial
  case labelStmt h1 h2 h3 h4 ih1 =>
    intro hs hr
    refine of_inp2 (by ne0) (by ne0) ?_
    exact .labelStmt h1 h2 h3 (ih1 (((hs).tail).tail) (fun h => Bool.noConfusion (show false = true from h)))
  case tryStmt h1 h2 h3 h4 h5 h6 ih1 ih2 ih3 =>
    intro hs hr
    refine of_inp (by ne0) ?_
    exact .tryStmt h1 (ih1 ((hs).tail) (fun h => Bool.noConfusion (show false = true from h))) (ih2 (((hs).tail).of h2.suffix) (fun h => Bool.noConfusion (show false = true from h))) (ih3 ((((hs).tail).of h2.suffix).of h3.suffix) (fun h => Bool.noConfusion (show false = true from h))) h5 trivial
  case catchNone =>
    intro hs hr
    exact .catchNone
  case catchSome h1 h2 h3 h4 h5 h6 ih1 ih2 =>
    intro hs hr
    refine of_inp2 (by ne0) (by ne0) ?_
    exact .catchSome h1 h2 (of_rest (by ne0) (ih1 (((hs).tail).tail) (fun h => Bool.noConfusion (show false = true from h)))) h4 (ih2 (((((hs).tail).tail).of h3.suffix).tail) (fun h => Bool.noConfusion (show false = true from h))) trivial
  case finallyNone h1 =>
    intro hs hr
    exact .finallyNone (nextIsNot_join hJ h1 (by val0))
  case finallySome h1 h2 ih1 =>
    intro hs hr
    refine of_inp (by ne0) ?_
    exact .finallySome h1 (ih1 ((hs).tail) (fun h => Bool.noConfusion (show false = true from h)))
  case debuggerStmt h1 h2 h3 =>
    intro hs hr
    refine of_inp (by ne0) ?_
    exact .debuggerStmt h1 (term_join hJ h2) trivial

section Glue

variable [Env] {L : LocSpec} {t0 : Token} {R' rest R2 : List Token} {env : Scope}

/-- Statements followed by statements. -/
theorem glue_items (hJ : Fresh t0) (hL : ∀ i r l, L i r l → StartsBefore l (t0 :: R'))
    (he : NextIs rest .eof) {ys : Ast (.list .sitem)}
    (hy : Derives anyLoc env .items (t0 :: R') R2 ys) : ∀ (xs : Ast (.list .sitem)) {inp : List Token},
    LetSafe t0 inp → Derives L env .items inp rest xs →
    Derives anyLoc env .items (join (t0 :: R') inp) R2 (Ast.ofList (xs.toList ++ ys.toList))
  | .nil, inp, hs, h => by
    cases h
    obtain ⟨t, r, h1, h2⟩ := he
    cases h1
    rw [join_eof h2]
    rw [Ast.toList_nil, List.nil_append, Ast.ofList_toList]
    exact hy
  | .cons x xs, inp, hs, h => by
    cases h with
    | itemsCons h1 h2 =>
      exact .itemsCons (derives_join hJ hL h1 hs (fun h => Bool.noConfusion (show false = true from h)))
        (glue_items hJ hL he hy xs (hs.of h1.suffix) h2)

/-- A body followed by statements. -/
theorem glue_prologue (hJ : Fresh t0) (hL : ∀ i r l, L i r l → StartsBefore l (t0 :: R'))
    (he : NextIs rest .eof) {xs ys : Ast (.list .sitem)}
    (hy : Derives anyLoc env .items (t0 :: R') R2 ys) : ∀ (ds : List Dir) {inp : List Token},
    LetSafe t0 inp → Derives L env (.prologue .items) inp rest (.body none ds xs) →
    Derives anyLoc env (.prologue .items) (join (t0 :: R') inp) R2
      (.body none ds (Ast.ofList (xs.toList ++ ys.toList)))
  | [], inp, hs, h => by
    cases h with
    | prologueEnd h1 h2 h3 =>
      exact .prologueEnd (notDirective_join hJ h1) (stringNoDivision_join hJ h2)
        (glue_items hJ hL he hy xs hs h3)
  | d :: ds, inp, hs, h => by
    cases h with
    | directive h1 h2 h3 h4 h5 =>
      rw [join_cons (by ne0)]
      exact .directive h1 (notContinues_join hJ h2) (term_join hJ h3) trivial
        (glue_prologue hJ hL he hy ds (hs.tail.of h3.suffix) h5)

theorem glue_body (hJ : Fresh t0) (hL : ∀ i r l, L i r l → StartsBefore l (t0 :: R'))
    (he : NextIs rest .eof) {xs ys : Ast (.list .sitem)}
    (hy : Derives anyLoc env .items (t0 :: R') R2 ys) {l : Loc} {ds : List Dir} {inp : List Token}
    (hs : LetSafe t0 inp) (h : Derives L env (.body .items) inp rest (.body l ds xs)) :
    Derives anyLoc env (.body .items) (join (t0 :: R') inp) R2
      (.body l ds (Ast.ofList (xs.toList ++ ys.toList))) := by
  cases h with
  | body h1 h2 => exact .body (glue_prologue hJ hL he hy ds hs h1) trivial

/-- Module items followed by module items. -/
theorem glue_modItems (hJ : Fresh t0) (hL : ∀ i r l, L i r l → StartsBefore l (t0 :: R'))
    {ys : Ast (.list .modItem)}
    (hy : Derives anyLoc env .modItems (t0 :: R') R2 ys) : ∀ (xs : Ast (.list .modItem)) {inp : List Token},
    LetSafe t0 inp → Derives L env .modItems inp rest xs →
    Derives anyLoc env .modItems (join (t0 :: R') inp) R2 (Ast.ofList (xs.toList ++ ys.toList))
  | .nil, inp, hs, h => by
    cases h with
    | modItemsNil h =>
      rw [join_eof h, Ast.toList_nil, List.nil_append, Ast.ofList_toList]
      exact hy
  | .cons x xs, inp, hs, h => by
    cases h with
    | modItemsCons h1 h2 =>
      exact .modItemsCons (derives_join hJ hL h1 hs (fun h => Bool.noConfusion (show false = true from h)))
        (glue_modItems hJ hL hy xs (hs.of h1.suffix) h2)

/-- A module body followed by module items. -/
theorem glue_modPrologue (hJ : Fresh t0) (hL : ∀ i r l, L i r l → StartsBefore l (t0 :: R'))
    {xs ys : Ast (.list .modItem)}
    (hy : Derives anyLoc env .modItems (t0 :: R') R2 ys) : ∀ (ds : List Dir) {inp : List Token},
    LetSafe t0 inp → Derives L env (.prologue .modItems) inp rest (.body none ds xs) →
    Derives anyLoc env (.prologue .modItems) (join (t0 :: R') inp) R2
      (.body none ds (Ast.ofList (xs.toList ++ ys.toList)))
  | [], inp, hs, h => by
    cases h with
    | prologueEnd h1 h2 h3 =>
      exact .prologueEnd (notDirective_join hJ h1) (stringNoDivision_join hJ h2)
        (glue_modItems hJ hL hy xs hs h3)
  | d :: ds, inp, hs, h => by
    cases h with
    | directive h1 h2 h3 h4 h5 =>
      rw [join_cons (by ne0)]
      exact .directive h1 (notContinues_join hJ h2) (term_join hJ h3) trivial
        (glue_modPrologue hJ hL hy ds (hs.tail.of h3.suffix) h5)

theorem glue_modBody (hJ : Fresh t0) (hL : ∀ i r l, L i r l → StartsBefore l (t0 :: R'))
    {xs ys : Ast (.list .modItem)}
    (hy : Derives anyLoc env .modItems (t0 :: R') R2 ys) {l : Loc} {ds : List Dir} {inp : List Token}
    (hs : LetSafe t0 inp) (h : Derives L env (.body .modItems) inp rest (.body l ds xs)) :
    Derives anyLoc env (.body .modItems) (join (t0 :: R') inp) R2
      (.body l ds (Ast.ofList (xs.toList ++ ys.toList))) := by
  cases h with
  | body h1 h2 => exact .body (glue_modPrologue hJ hL hy ds hs h1) trivial

/-- What starts with a token other than a string has no directives. -/
theorem no_directives {c : Cat} {nt : NT (.list c)} {l : Loc} {ds : List Dir}
    {ys : Ast (.list c)} (hJ : ∀ s, t0.value ≠ .string s)
    (h : Derives L env (.body nt) (t0 :: R') rest (.body l ds ys)) :
    ds = [] ∧ Derives L env nt (t0 :: R') rest ys := by
  cases h with
  | body h1 _ =>
    cases h1 with
    | directive h2 => exact absurd h2 (hJ _)
    | prologueEnd _ _ h3 => exact ⟨rfl, h3⟩

theorem items_first {ys : Ast (.list .sitem)} (h : Derives L env .items (t0 :: R') rest ys)
    (he : NextIs rest .eof) (hn : t0.value ≠ .eof) : stmtStart t0.value = true := by
  cases h with
  | itemsNil h =>
    obtain ⟨t, r, h1, h2⟩ := he
    cases h1
    exact absurd h2 hn
  | itemsCons h _ =>
    obtain ⟨t, r, h1, h2⟩ := h.first
    cases h1
    exact h2

theorem modItems_first {ys : Ast (.list .modItem)} (h : Derives L env .modItems (t0 :: R') rest ys)
    (hn : t0.value ≠ .eof) : stmtStart t0.value = true := by
  cases h with
  | modItemsNil h => exact absurd h hn
  | modItemsCons h _ =>
    obtain ⟨t, r, h1, h2⟩ := h.first
    cases h1
    exact h2

private theorem start_slash {v : TokenData} (h : stmtStart v = true) : v ≠ .slash ∧ v ≠ .slashAssign := by
  constructor <;> rintro rfl <;> revert h <;> decide

/-- A script does not begin with a division. -/
theorem body_slash {y : Ast (.body .sitem)} (h : Derives L env (.body .items) (t0 :: R') rest y)
    (he : NextIs rest .eof) : t0.value ≠ .slash ∧ t0.value ≠ .slashAssign := by
  cases h with
  | body h1 _ =>
    cases h1 with
    | directive h2 => exact ⟨by rw [h2]; nofun, by rw [h2]; nofun⟩
    | prologueEnd _ _ h3 =>
      by_cases hn : t0.value = .eof
      · exact ⟨by rw [hn]; nofun, by rw [hn]; nofun⟩
      · exact start_slash (items_first h3 he hn)

/-- Neither does a module. -/
theorem modBody_slash {y : Ast (.body .modItem)} (h : Derives L env (.body .modItems) (t0 :: R') rest y) :
    t0.value ≠ .slash ∧ t0.value ≠ .slashAssign := by
  cases h with
  | body h1 _ =>
    cases h1 with
    | directive h2 => exact ⟨by rw [h2]; nofun, by rw [h2]; nofun⟩
    | prologueEnd _ _ h3 =>
      by_cases hn : t0.value = .eof
      · exact ⟨by rw [hn]; nofun, by rw [hn]; nofun⟩
      · exact start_slash (modItems_first h3 hn)

end Glue

end Join

end Esprit
