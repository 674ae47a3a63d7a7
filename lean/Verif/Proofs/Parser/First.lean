import Verif.Proofs.Parser.Forward

/-! What constructs start with, and what follows expressions. -/

set_option linter.unusedSectionVars false
set_option linter.unusedVariables false

namespace Esprit

open Lex ReaderSpec Grammar

/-- The tokens that start a primary expression. -/
def primaryStart : TokenData → Bool
  | .identifier _ | .number _ | .string _ | .regExp _ | .lBrack | .lBrace | .lParen
  | .reserved .null | .reserved .this | .reserved .true | .reserved .false
  | .reserved .function => true
  | _ => false

/-- The tokens that start an operand. -/
def operandStart (v : TokenData) : Bool := primaryStart v || v = .reserved .new

/-- The tokens that start an expression. -/
def exprStart : TokenData → Bool
  | .inc | .dec | .plus | .minus | .tilde | .bang
  | .reserved .delete | .reserved .void | .reserved .typeof => true
  | v => operandStart v

/-- The tokens that start an argument. -/
def argStart (v : TokenData) : Bool := exprStart v || v = .ellipsis

/-- The tokens that start a property. -/
def propStart : TokenData → Bool
  | .identifier _ | .number _ | .string _ | .reserved _ | .star => true
  | _ => false

/-- The identifiers. -/
def isIdent : TokenData → Bool
  | .identifier _ => true
  | _ => false

/-- The tokens that start a statement or a declaration. -/
def stmtStart (v : TokenData) : Bool := exprStart v || decide (v ∈ statementStarts)

/-- The first tokens of the nonterminals that do not derive the empty sequence. -/
def Grammar.NT.first : {c : Cat} → NT c → Option (TokenData → Bool)
  | _, .primary => some primaryStart
  | _, .lhs _ | _, .newBase _ | _, .new _ | _, .postfix => some operandStart
  | _, .unary | _, .binary _ | _, .cond | _, .assign | _, .expr | _, .exprs => some exprStart
  | _, .arg | _, .args => some argStart
  | _, .prop => some propStart
  | _, .name | _, .pattern | _, .dtor | _, .dtors | _, .constDtor | _, .constDtors
  | _, .headDtor | _, .headDtors => some isIdent
  | _, .params => some (· = .lParen)
  | _, .func _ => some (· = .reserved .function)
  | _, .functionBody | _, .block => some (· = .lBrace)
  | _, .item _ | _, .decl | _, .stmt => some stmtStart
  | _, .items => some fun v => stmtStart v || decide (v ∈ followsItems)
  | _, .modItems => some fun v => stmtStart v || v = .eof
  | _, .case => some fun v => v = .reserved .case || v = .reserved .default
  | _, _ => none

/-- There is a next token, and it satisfies `p`. -/
def NextSat (p : Option (TokenData → Bool)) (inp : List Token) : Prop :=
  match p with
  | some p => ∃ t r, inp = t :: r ∧ p t.value = true
  | none => True

theorem NextSat.mono {p q : TokenData → Bool} {inp : List Token} (h : NextSat (some p) inp)
    (hpq : ∀ v, p v = true → q v = true) : NextSat (some q) inp := by
  obtain ⟨t, r, h1, h2⟩ := h
  exact ⟨t, r, h1, hpq _ h2⟩

theorem NextSat.of {p : TokenData → Bool} {t : Token} {r : List Token} {v : TokenData}
    (h : t.value = v) (hp : p v = true) : NextSat (some p) (t :: r) := ⟨t, r, rfl, by rw [h]; exact hp⟩

theorem operand_of_primary (v : TokenData) (h : primaryStart v = true) : operandStart v = true := by
  simp [operandStart, h]

theorem expr_of_operand (v : TokenData) (h : operandStart v = true) : exprStart v = true := by
  unfold exprStart
  split <;> first | rfl | exact h

theorem arg_of_expr (v : TokenData) (h : exprStart v = true) : argStart v = true := by
  simp [argStart, h]

theorem stmt_of_expr (v : TokenData) (h : exprStart v = true) : stmtStart v = true := by
  simp [stmtStart, h]

section

variable {S : Str} {L : LocSpec} {env : Scope} {t : Token}

theorem Grammar.Ident.value {b : Bool} {i : Id} (h : Ident env b t i) :
    ∃ n, t.value = .identifier n ∧ i = ⟨some t.location, n⟩ ∧ env.IdOk b n := by
  cases h with
  | mk h1 h2 => exact ⟨_, h1, rfl, h2⟩

theorem Grammar.Ident.first {b : Bool} {i : Id} (h : Ident env b t i) (r : List Token)
    {p : TokenData → Bool} (hp : ∀ n, p (.identifier n) = true) : NextSat (some p) (t :: r) := by
  obtain ⟨n, h1, -, -⟩ := h.value
  exact .of h1 (hp n)

theorem Grammar.PropName.first {k : PropKey} (h : PropName t k) (r : List Token) :
    NextSat (some propStart) (t :: r) := by
  cases h <;> rename_i h <;> exact .of h rfl

theorem Grammar.IsUnop.start {op : Op UnopTag} (h : IsUnop t op) : exprStart t.value = true := by
  have := unopTag_of h
  unfold P.unopTag at this
  split at this <;> first | (rename_i hv; rw [hv]; rfl) | cases this

set_option maxHeartbeats 1000000 in
theorem Grammar.Derives.first {c : Cat} {nt : NT c} {inp rest : List Token} {x : Ast c}
    (h : Derives L env nt inp rest x) : NextSat nt.first inp := by
  induction h
  case identifier h => exact h.first _ (fun _ => rfl)
  case name h => exact h.first _ (fun _ => rfl)
  case pattern h => exact h.first _ (fun _ => rfl)
  case dtorNone h _ => exact h.first _ (fun _ => rfl)
  case dtorInit h _ _ _ _ => exact h.first _ (fun _ => rfl)
  case headDtorNone h => exact h.first _ (fun _ => rfl)
  case headDtorInit h _ _ _ => exact h.first _ (fun _ => rfl)
  case labelStmt h _ _ _ => exact h.first _ (fun _ => rfl)
  case propInit h _ _ _ => exact h.first _
  case propMethod h _ _ _ _ => exact h.first _
  case unop h _ _ => exact ⟨_, _, rfl, h.start⟩
  case function ih => exact ih.mono (by intro v hv; cases of_decide_eq_true hv; rfl)
  case declFun ih => exact ih.mono (by intro v hv; cases of_decide_eq_true hv; rfl)
  case blockStmt ih => exact ih.mono (by intro v hv; cases of_decide_eq_true hv; rfl)
  case lhsPrimary ih => exact ih.mono operand_of_primary
  case unaryPostfix ih => exact ih.mono expr_of_operand
  case argExpr ih => exact ih.mono arg_of_expr
  case exprStmt ih => exact ih.mono stmt_of_expr
  case itemsNil h => exact ⟨_, _, rfl, by simp [h]⟩
  case itemsCons ih _ => exact ih.mono (by intro v hv; simp [hv])
  case modItemsCons ih _ => exact ih.mono (by intro v hv; simp [hv])
  all_goals first
    | trivial
    | assumption
    | (refine NextSat.of (by assumption) ?_; first | rfl | decide)

/-! ### What follows an expression -/

/-- The next token is one that is read in the same way everywhere. -/
def Soft (inp : List Token) : Prop :=
  ∃ t r, inp = t :: r ∧ t.value.inMode false = true ∧ t.value.inMode true = true

/-- The next token may follow an expression. -/
def OpNext (inp : List Token) : Prop := ∃ t r, inp = t :: r ∧ t.value.inMode true = true

theorem Soft.op {inp : List Token} (h : Soft inp) : OpNext inp := by
  obtain ⟨t, r, h1, -, h2⟩ := h
  exact ⟨t, r, h1, h2⟩

theorem inMode_true {v : TokenData} (h : ∀ x, v ≠ .regExp x) : v.inMode true = true := by
  cases v <;> first | rfl | exact (h _ rfl).elim

theorem inMode_false {v : TokenData} (h1 : v ≠ .slash) (h2 : v ≠ .slashAssign) :
    v.inMode false = true := by
  cases v <;> first | rfl | exact (h1 rfl).elim | exact (h2 rfl).elim

theorem Grammar.NoDivision.inMode {r : List Token} (h : NoDivision (t :: r)) : t.value.inMode false = true :=
  inMode_false (h t r rfl).1 (h t r rfl).2

theorem Grammar.NoRegExp.inMode {r : List Token} (h : NoRegExp (t :: r)) : t.value.inMode true = true :=
  inMode_true (h t r rfl)

theorem Soft.noDivision {inp : List Token} (h : Soft inp) : NoDivision inp := by
  obtain ⟨t, r, rfl, h1, -⟩ := h
  intro t' r' he
  obtain ⟨rfl, rfl⟩ := List.cons.inj he
  constructor <;> intro hv <;> rw [hv] at h1 <;> cases h1

theorem Grammar.IsBinop.inMode {op : Op BinopTag} (h : IsBinop env t op) :
    t.value.inMode true = true := by
  refine inMode_true fun x hx => ?_
  have := toBinop_of h
  rw [Token.toBinop, hx] at this
  cases this

theorem Grammar.IsLogop.inMode {op : Op LogopTag} (h : IsLogop t op) :
    t.value.inMode true = true := by
  refine inMode_true fun x hx => ?_
  have := toLogop_of h
  rw [Token.toLogop, hx] at this
  cases this

theorem Grammar.IsAssop.inMode {op : Op AssopTag} (h : IsAssop t op) :
    t.value.inMode true = true := by
  refine inMode_true fun x hx => ?_
  have := toAssop_of h
  rw [Token.toAssop, hx] at this
  cases this

/-- The nonterminals that must not be followed by a division. -/
def Grammar.NT.softEnd : {c : Cat} → NT c → Bool
  | _, .assign | _, .expr | _, .exprs | _, .arg | _, .args | _, .constDtor | _, .constDtors => true
  | _, _ => false

/-- What follows the nonterminals. -/
def FollowedBy {c : Cat} (nt : NT c) (rest : List Token) : Prop :=
  match c, nt with
  | _, .cond => ∃ t r, rest = t :: r ∧ t.value ≠ .slash ∧ t.value.inMode true = true
  | _, nt => nt.softEnd = true → Soft rest

theorem slash_isBinop (h : t.value = .slash) : ∃ op, IsBinop env t op :=
  ⟨⟨some t.location, .div⟩, rfl, by rw [h]; unfold IsSymbol; show (BinopTag.div.display, _) ∈ _; decide +kernel, nofun⟩

theorem slashAssign_isAssop (h : t.value = .slashAssign) : ∃ op, IsAssop t op :=
  ⟨⟨some t.location, .divEq⟩, rfl, by rw [h]; unfold IsSymbol; show (AssopTag.divEq.display, _) ∈ _; decide +kernel⟩

set_option maxHeartbeats 1000000 in
theorem Grammar.Derives.follow {c : Cat} {nt : NT c} {inp rest : List Token} {x : Ast c}
    (h : Derives L env nt inp rest x) : env.plain = true → FollowedBy nt rest := by
  induction h
  case condNone h1 h2 h3 h4 ih =>
    intro hp
    obtain ⟨t, r, rfl, h5, h6⟩ := h2
    refine ⟨t, r, rfl, fun hv => ?_, NoRegExp.inMode h1⟩
    obtain ⟨op, ho⟩ := slash_isBinop hv
    exact h5 op ho
  case cond ih =>
    intro hp
    obtain ⟨t, r, rfl, h1, h2⟩ := ih hp rfl
    exact ⟨t, r, rfl, (by intro hv; rw [hv] at h1; cases h1), h2⟩
  case assignNone h1 h2 ih =>
    intro hp _
    obtain ⟨t, r, rfl, h3, h4⟩ := ih hp
    obtain ⟨t', r', he, h5, h6⟩ := h1
    obtain ⟨rfl, rfl⟩ := List.cons.inj he
    refine ⟨t, r, rfl, inMode_false h3 fun hv => ?_, h4⟩
    obtain ⟨op, ho⟩ := slashAssign_isAssop hv
    exact h6 op ho
  all_goals first
    | assumption
    | (intro hp _; rename_i ih; exact ih hp rfl)
    | (intro hp _; rename_i ih _; exact ih hp rfl)
    | (intro hp h; exact absurd h (by simp [Grammar.NT.softEnd]))

/-- The nonterminals for expressions, and whether what follows them is fixed. -/
def Grammar.NT.operand : {c : Cat} → NT c → Option Bool
  | _, .primary | _, .lhs _ | _, .newBase _ | _, .new _ | _, .postfix | _, .unary
  | _, .binary _ => some true
  | _, .cond | _, .assign | _, .expr | _, .exprs => some false
  | _, _ => none

/-- The token is an identifier or a string. -/
def isWord : TokenData → Bool
  | .identifier _ | .string _ => true
  | _ => false

/-- What follows the identifier or string that an expression starts with. -/
def SecondIs (o : Option Bool) (r rest : List Token) : Prop :=
  match o with
  | some true => r = rest ∨ OpNext r
  | some false => OpNext r
  | none => True

theorem SecondIs.step {r rest rest' : List Token} (h : SecondIs (some true) r rest)
    (hr : OpNext rest) : SecondIs (some true) r rest' := by
  rcases h with rfl | h
  · exact .inr hr
  · exact .inr h

theorem SecondIs.full {r rest : List Token} (h : SecondIs (some true) r rest)
    (hr : OpNext rest) : OpNext r := by
  rcases h with rfl | h
  · exact hr
  · exact h

theorem OpNext.of {v : TokenData} {r : List Token} (h : t.value = v) (hp : v.inMode true = true) :
    OpNext (t :: r) := ⟨t, r, rfl, by rw [h]; exact hp⟩

set_option maxHeartbeats 1000000 in
theorem Grammar.Derives.second {c : Cat} {nt : NT c} {inp rest : List Token} {x : Ast c}
    (h : Derives L env nt inp rest x) : env.plain = true → ∀ t r, inp = t :: r →
      isWord t.value = true → SecondIs nt.operand r rest := by
  induction h
  case identifier => intro _ t r he _; exact .inl (List.cons.inj he).2.symm
  case string => intro _ t r he _; exact .inl (List.cons.inj he).2.symm
  case function h _ =>
    intro hp t r he hw
    obtain ⟨t', r', rfl, hv⟩ := h.first
    obtain ⟨rfl, rfl⟩ := List.cons.inj he
    rw [of_decide_eq_true hv] at hw
    cases hw
  case dot hv _ ih => intro hp t r he hw; exact (ih hp t r he hw).step (.of hv rfl)
  case brack hv _ _ ih _ => intro hp t r he hw; exact (ih hp t r he hw).step (.of hv rfl)
  case call hv _ _ ih _ => intro hp t r he hw; exact (ih hp t r he hw).step (.of hv rfl)
  case postInc hv _ ih => intro hp t r he hw; exact (ih hp t r he hw).step (.of hv rfl)
  case postDec hv _ ih => intro hp t r he hw; exact (ih hp t r he hw).step (.of hv rfl)
  case unop h _ _ =>
    intro hp t r he hw
    obtain ⟨rfl, rfl⟩ := List.cons.inj he
    have := unopTag_of h
    unfold P.unopTag at this
    split at this <;> first | cases this | (rename_i hv; rw [hv] at hw; cases hw)
  case binop hv _ ih _ =>
    intro hp t r he hw; exact (ih hp t r he hw).step ⟨_, _, rfl, hv.inMode⟩
  case logop hv _ ih _ =>
    intro hp t r he hw; exact (ih hp t r he hw).step ⟨_, _, rfl, hv.inMode⟩
  case condNone h1 h2 h3 h4 ih =>
    intro hp t r he hw
    obtain ⟨t', r', rfl, h5, h6⟩ := h2
    exact (ih hp t r he hw).full ⟨_, _, rfl, NoRegExp.inMode h1⟩
  case cond hv _ _ _ ih _ _ =>
    intro hp t r he hw
    exact (ih hp t r he hw).full (.of hv rfl)
  all_goals first
    | assumption
    | (intro _ _ _ _ _; trivial)
    | (rename_i ih _; exact ih)
    | (intro hp t r he hw
       obtain ⟨rfl, rfl⟩ := List.cons.inj he
       first
         | (rename_i hv; rw [hv] at hw; cases hw)
         | (rename_i hv _; rw [hv] at hw; cases hw)
         | (rename_i hv _ _; rw [hv] at hw; cases hw)
         | (rename_i hv _ _ _; rw [hv] at hw; cases hw)
         | (rename_i hv _ _ _ _; rw [hv] at hw; cases hw)
         | (rename_i hv _ _ _ _ _; rw [hv] at hw; cases hw)
         | (rename_i hv _ _ _ _ _ _; rw [hv] at hw; cases hw))

end

end Esprit
