import Verif.Props.Tree

/-!
Two places where the parser does not follow the grammar of ECMAScript: nested
`new` (C47) and `for (let ...` (C48).
-/

set_option linter.unusedSectionVars false

namespace Esprit

open Lex ReaderSpec Grammar

section Theorems

variable [Env] [LawfulEnv] {s : Str} {st mo : Bool} {tree : Node} {v : Place}

/-- How a `new` expression is written: `new`, then its callee, then an argument list
in parentheses, or, if there are no arguments, no opening parenthesis.  The callee is
a member expression without calls, or another `new` expression; then that one has
arguments if this one has. -/
def NewWritten (S : Str) (T : List Token) (e : Expr) (as : Ast (.opt (.list .item))) : Prop :=
  ∃ env t i r, t :: i <:+ T ∧ t.value = .reserved .new ∧
    (Derives (Located S) env (.lhs false) i r e ∨ NextIs i (.reserved .new) ∧
      ∃ b l e' as', e = .eNew l e' as' ∧ Derives (Located S) env (.new b) i r e ∧
        (as' = .none → as = .none)) ∧
    match as with
    | .none => NextIsNot r .lParen
    | .some xs => ∃ t2 i2 t3 r2, r = t2 :: i2 ∧ t2.value = .lParen ∧
        Derives (Located S) (env.withIn true) .argList i2 (t3 :: r2) xs ∧ t3.value = .rParen

/-- The claim about what is derived. -/
def NewClaim (S : Str) (T : List Token) : {c : Cat} → Ast c → Prop
  | .expr, .eNew _ e as => NewWritten S T e as
  | _, _ => True

theorem NewClaim.cons {S : Str} {T : List Token} {t : Token} {e : Expr} (h : NewClaim S T e) :
    NewClaim S (t :: T) e := by
  cases e with
  | eNew l c as =>
    obtain ⟨env, t, i, r, h1, h2⟩ := h
    exact ⟨env, t, i, r, h1.trans (List.suffix_cons _ _), h2⟩
  | _ => exact trivial

theorem newBase_member {S : Str} {env : Scope} {b : Bool} {i r : List Token} {e : Expr}
    {as : Ast (.opt (.list .item))} (h : Derives (Located S) env (.newBase b) i r e)
    (hb : b = false → as = .none) :
    Derives (Located S) env (.lhs false) i r e ∨ NextIs i (.reserved .new) ∧
      ∃ b l e' as', e = .eNew l e' as' ∧ Derives (Located S) env (.new b) i r e ∧
        (as' = .none → as = .none) := by
  cases h with
  | newBaseMember _ h => exact .inl h
  | newBaseArgs h =>
    refine .inr ?_
    cases h with
    | newArgs h1 h2 h3 h4 h5 =>
      exact ⟨⟨_, _, rfl, h1⟩, true, _, _, _, rfl, .newArgs h1 h2 h3 h4 h5, by intro h; cases h⟩
  | newBaseNoArgs h =>
    refine .inr ?_
    cases h with
    | newNoArgs h1 h2 h3 =>
      exact ⟨⟨_, _, rfl, h1⟩, false, _, _, _, rfl, .newNoArgs h1 h2 h3, fun _ => hb rfl⟩

theorem Grammar.Derives.newClaim {S : Str} {env : Scope} {i r : List Token} {c : Cat} {nt : NT c}
    {x : Ast c} (h : Derives (Located S) env nt i r x) : NewClaim S i x := by
  induction h
  case paren h => exact NewClaim.cons h
  case newArgs h1 h2 h3 h4 h5 _ _ =>
    exact ⟨_, _, _, _, List.suffix_refl _, h1, newBase_member h2 (by intro h; cases h), _, _, _, _, rfl, h3, h4, h5⟩
  case newNoArgs h1 h2 h3 _ =>
    exact ⟨_, _, _, _, List.suffix_refl _, h1, newBase_member h2 (fun _ => rfl), h3⟩
  all_goals first
    | exact trivial
    | assumption

/-- The callee of a `new` is a member expression without calls or another `new`, and
its arguments are the argument list that directly follows the callee, so that nested
`new`s pair with argument lists from the inside out.  Missing: the accessors after
the arguments of an inner `new` are not part of the callee of the outer `new` (see
`C47_fails`). -/
theorem C47_pairs_partial {l : Loc} {e : Expr} {as : Ast (.opt (.list .item))}
    (h : Returned s st mo tree) (ho : Occurs .top tree v ⟨.expr, .eNew l e as⟩) :
    ∃ ops ts k, Tokens s 0 true ops ts k ∧ NewWritten s ts e as := by
  obtain ⟨ops, ts, k, ht, env, nt, i, r, hi, -, -, -, hd⟩ := returned_derived h ho (by decide)
  obtain ⟨env, t, i1, r1, h1, h2⟩ := hd.newClaim
  exact ⟨ops, ts, k, ht, env, t, i1, r1, h1.trans hi, h2⟩

/-! ### C48: `for (let` -/

/-- What follows the identifier at the beginning of an expression is the end of the
expression or a token that operator mode accepts. -/
def AfterName (inp rest : List Token) : Prop :=
  ∀ t n i, inp = t :: i → t.value = .identifier n →
    rest = i ∨ ∃ t2 r, i = t2 :: r ∧ ∀ x, t2.value ≠ .regExp x

theorem AfterName.no {t : Token} {v : TokenData} {i rest : List Token} (hv : t.value = v)
    (h : ∀ n, v ≠ .identifier n) : AfterName (t :: i) rest := by
  intro t' n i' he hn
  obtain ⟨rfl, rfl⟩ := List.cons.inj he
  exact absurd (hv.symm.trans hn) (h n)

theorem AfterName.next {t : Token} {inp i rest : List Token} (h : AfterName inp (t :: i))
    (hv : ∀ x, t.value ≠ .regExp x) : AfterName inp rest := by
  intro t' n i' he hn
  rcases h t' n i' he hn with h | h
  · exact .inr ⟨t, i, h.symm, hv⟩
  · exact .inr h

theorem Grammar.IsSymbol.noName {y : Str} {v : TokenData} (h : IsSymbol y v) (n : Name) :
    v ≠ .identifier n := by
  intro hv
  have : ∀ p ∈ Lex.punctuators ++ Lex.reservedWords.map fun p => (p.1, TokenData.reserved p.2),
      (match p.2 with | .identifier _ => false | _ => true) = true := by decide
  have := this _ h
  rw [hv] at this
  cases this

theorem Grammar.IsSymbol.noRegExp {y : Str} {v : TokenData} (h : IsSymbol y v) (x : RegExpLiteral) :
    v ≠ .regExp x := by
  intro hv
  have : ∀ p ∈ Lex.punctuators ++ Lex.reservedWords.map fun p => (p.1, TokenData.reserved p.2),
      (match p.2 with | .regExp _ => false | _ => true) = true := by decide
  have := this _ h
  rw [hv] at this
  cases this

/-- The nonterminals for which `AfterName` holds. -/
def Grammar.NT.startsExpr : {c : Cat} → NT c → Bool
  | _, .primary | _, .lhs _ | _, .new _ | _, .newBase _ | _, .postfix | _, .unary | _, .binary _
  | _, .cond | _, .assign | _, .exprs | _, .expr | _, .func _ => true
  | _, _ => false

theorem Grammar.Derives.afterName {S : Str} {env : Scope} {i r : List Token} {c : Cat} {nt : NT c}
    {x : Ast c} (h : Derives (Located S) env nt i r x) : nt.startsExpr = true → AfterName i r := by
  induction h
  case identifier => intro _ t n i he _; exact .inl (List.cons.inj he).2
  case unop h _ _ =>
    intro _ t n i he hn
    obtain ⟨rfl, rfl⟩ := List.cons.inj he
    obtain ⟨-, y, -, hy⟩ := h
    exact (hy.noName n hn).elim
  case binop _ h _ ih _ => intro _; exact (ih rfl).next h.2.1.noRegExp
  case logop _ h _ ih _ => intro _; exact (ih rfl).next h.2.noRegExp
  case binAssign _ h _ ih _ => intro _; exact (ih rfl).next h.2.noRegExp
  case dot _ hv _ ih => intro _; exact (ih rfl).next (by rw [hv]; nofun)
  case brack _ hv _ _ ih _ => intro _; exact (ih rfl).next (by rw [hv]; nofun)
  case call _ hv _ _ ih _ => intro _; exact (ih rfl).next (by rw [hv]; nofun)
  case postInc _ hv _ ih => intro _; exact (ih rfl).next (by rw [hv]; nofun)
  case postDec _ hv _ ih => intro _; exact (ih rfl).next (by rw [hv]; nofun)
  case cond _ hv _ _ _ ih _ _ => intro _; exact (ih rfl).next (by rw [hv]; nofun)
  case assign _ _ _ hv _ ih _ => intro _; exact (ih rfl).next (by rw [hv]; nofun)
  case exprsCons _ hv _ ih _ => intro _; exact (ih rfl).next (by rw [hv]; nofun)
  all_goals first
    | (intro h; cases h; done)
    | (intro _; exact AfterName.no (by assumption) (fun _ h => by cases h))
    | (rename_i ih; intro _; exact ih rfl)
    | (rename_i ih _; intro _; exact ih rfl)

theorem Lex.Lexeme.operator {op : Bool} {x y : Str} {v : TokenData} (h : Lexeme op x y v)
    (hv : ∀ r, v ≠ .regExp r) : Lexeme true x y v := by
  cases h with
  | eof => exact .eof
  | punctuator h1 h2 h3 h4 => exact .punctuator h1 h2 (fun _ => rfl) h4
  | word h1 h2 h3 h4 => exact .word h1 h2 h3 h4
  | string h1 h2 => exact .string h1 h2
  | number h1 h2 h3 => exact .number h1 h2 h3
  | regexp => exact absurd rfl (hv _)

theorem Lex.TokenAt.endOffset {k k' : Nat} {e op : Bool} {t : Token} (h : TokenAt s k e op t k') :
    t.location.end.offset = k' := by
  obtain ⟨w, x, y, e', -, -, -, -, -, -, h, rfl⟩ := h
  exact h.offset

theorem Lex.TokenAt.operator {k k' : Nat} {e op : Bool} {t : Token} (h : TokenAt s k e op t k')
    (hv : ∀ r, t.value ≠ .regExp r) : TokenAt s k e true t k' := by
  obtain ⟨w, x, y, e', h1, h2, h3, h4, h5⟩ := h
  exact ⟨w, x, y, e', h1, h2, h3, h4.operator hv, h5⟩

theorem Lex.Tokens.operator {k k' : Nat} {e : Bool} {ops : List Bool} {ts i : List Token}
    {t t2 : Token} (h : Tokens s k e ops ts k') (hs : (t :: t2 :: i) <:+ ts)
    (hv : ∀ r, t2.value ≠ .regExp r) :
    ∃ k1, TokenAt s t.location.end.offset false true t2 k1 := by
  induction h with
  | nil => obtain ⟨m, hm⟩ := hs; cases m <;> cases hm
  | @cons k k1 k2 e op ops t0 ts h1 h2 ih =>
    rcases List.suffix_cons_iff.1 hs with hs | hs
    · obtain ⟨rfl, rfl⟩ := List.cons.inj hs
      rw [h1.endOffset]
      cases h2 with
      | cons h3 h4 => exact ⟨_, h3.operator hv⟩
    · exact ih hs

/-- The expression `e` is the beginning of the head of a `for` statement, before a
token `stop`; if it starts with `let`, the next token is the one that is found after
`let` in operator mode, as after any other identifier. -/
def HeadWritten (S : Str) (T : List Token) (stop : TokenData) (e : Expr) : Prop :=
  ∃ env t1 t2 i t3 r, t1 :: t2 :: i <:+ T ∧ t1.value = .reserved .for ∧ t2.value = .lParen ∧
    Derives (Located S) env .expr i (t3 :: r) e ∧ t3.value = stop ∧
    ∀ t i1, i = t :: i1 → t.value = .identifier (.atom .«let») →
      ∃ t4 i2 k, i1 = t4 :: i2 ∧ TokenAt S t.location.end.offset false true t4 k

theorem headWritten {ops : List Bool} {ts i r : List Token} {k : Nat} {env : Scope} {e : Expr}
    {t1 t2 t3 : Token} {stop : TokenData} (ht : Tokens s 0 true ops ts k)
    (hs : t1 :: t2 :: i <:+ ts) (h1 : t1.value = .reserved .for) (h2 : t2.value = .lParen)
    (hd : Derives (Located s) env .expr i (t3 :: r) e) (h3 : t3.value = stop) (h4 : ∀ x, stop ≠ .regExp x) :
    HeadWritten s ts stop e := by
  refine ⟨env, t1, t2, i, t3, r, hs, h1, h2, hd, h3, ?_⟩
  rintro t i1 rfl hl
  obtain ⟨t4, i2, rfl, hx⟩ : ∃ t4 i2, i1 = t4 :: i2 ∧ ∀ x, t4.value ≠ .regExp x := by
    rcases hd.afterName rfl t _ i1 rfl hl with h | h
    · exact ⟨_, _, h.symm, by rw [h3]; exact h4⟩
    · exact h
  obtain ⟨k1, h⟩ := ht.operator
    (((List.suffix_cons _ _).trans (List.suffix_cons _ _)).trans hs) hx
  exact ⟨t4, i2, k1, rfl, h⟩

/-- In a source that is accepted, what follows a `let` at the beginning of the head of
a `for (...;...;...)` that is an expression is read as an operator.  Missing: a head
`let / ...` is rejected (see `C48_fails`). -/
theorem C48_for_partial {l hl : Loc} {e : Expr} {test update : Ast (.opt .expr)} {b : Stmt}
    (h : Returned s st mo tree)
    (ho : Occurs .top tree v ⟨.stmt, .sFor l (.some (.fhExpr hl e)) test update b⟩) :
    ∃ ops ts k, Tokens s 0 true ops ts k ∧ HeadWritten s ts .semi e := by
  obtain ⟨ops, ts, k, ht, env, nt, i, r, hi, -, -, -, hd⟩ := returned_derived h ho (by decide)
  refine ⟨ops, ts, k, ht, ?_⟩
  cases hd with
  | forStmt h1 h2 h3 =>
    cases h3 with
    | forHeadExpr _ _ h4 h5 => exact headWritten ht hi h1 h2 h4 h5 nofun

/-- In a source that is accepted, what follows a `let` at the beginning of the head of
a `for (... in ...)` that is an assignment target is read as an operator.  Missing as in
`C48_for_partial`. -/
theorem C48_forIn_partial {l : Loc} {p : PattTarget} {e : Expr} {b : Stmt} (h : Returned s st mo tree)
    (ho : Occurs .top tree v ⟨.stmt, .sForIn l (.fiPatt p) e b⟩) :
    ∃ ops ts k, Tokens s 0 true ops ts k ∧
      HeadWritten s ts (.reserved .«in») (Patt.sourceExpr p) := by
  obtain ⟨ops, ts, k, ht, env, nt, i, r, hi, -, -, -, hd⟩ := returned_derived h ho (by decide)
  refine ⟨ops, ts, k, ht, ?_⟩
  cases hd with
  | forInStmt h1 h2 h3 h6 =>
    cases h3 with
    | forInPatt _ _ _ _ h4 => exact headWritten ht hi h1 h2 h4 h6 nofun

/-- In a source that is accepted, what follows a `let` at the beginning of the head of
a `for (... of ...)` that is an assignment target is read as an operator.  Missing as in
`C48_for_partial`. -/
theorem C48_forOf_partial {l : Loc} {p : PattTarget} {e : Expr} {b : Stmt} (h : Returned s st mo tree)
    (ho : Occurs .top tree v ⟨.stmt, .sForOf l (.foPatt p) e b⟩) :
    ∃ ops ts k, Tokens s 0 true ops ts k ∧
      HeadWritten s ts (.identifier (.atom .of)) (Patt.sourceExpr p) := by
  obtain ⟨ops, ts, k, ht, env, nt, i, r, hi, -, -, -, hd⟩ := returned_derived h ho (by decide)
  refine ⟨ops, ts, k, ht, ?_⟩
  cases hd with
  | forOfStmt h1 h2 h3 h6 =>
    cases h3 with
    | forOfPatt _ _ _ _ h4 => exact headWritten ht hi h1 h2 h4 h6 nofun

end Theorems

section Examples

local instance gapsEnv : Env := asciiEnv true

/-- C47 is false: in `new new a(x).b(y)` the second argument list is not the
argument of the outer `new` but of a call, and `.b` is a member of the outer `new`
instead of the inner one. -/
theorem C47_fails :
    (match script c!"new new a(x).b(y)" with
    | .ok (.body _ _ (.cons (.siStmt (.sExpr _
        (.eCall _ (.eDot _
          (.eNew _ (.eNew _ (.eId a) (.some (.cons (.iExpr (.eId x)) .nil))) .none) b)
          (.cons (.iExpr (.eId y)) .nil)) _)) .nil)) =>
      decide (a.name = .string c!"a" ∧ x.name = .string c!"x" ∧ b.value = c!"b" ∧
        y.name = .string c!"y")
    | _ => false) = true := by
  decide +kernel

/-- C48 is false: `let` at the beginning of a `for` head is an identifier here, as
the other heads show, but the slash after it is read as the start of a regular
expression instead of a division. -/
theorem C48_fails : (script c!"for (let/2/1;;);").isErr = true ∧
    (script c!"for (let*2/1;;);").isOk = true ∧ (script c!"for (lex/2/1;;);").isOk = true := by
  decide +kernel

/-- The hypotheses of `C47_pairs_partial` are met, with and without arguments. -/
example : ∃ tree v y, Returned c!"new a.b(c).d; new a.b" true false tree ∧
    Occurs .top tree v y ∧
    (match y with
      | ⟨.expr, .eNew _ (.eDot ..) (.some _)⟩ => true
      | _ => false) = true :=
  occursIn_spec (by decide +kernel)
example : ∃ tree v y, Returned c!"new a.b(c).d; new a.b" true false tree ∧
    Occurs .top tree v y ∧
    (match y with
      | ⟨.expr, .eNew _ (.eDot ..) .none⟩ => true
      | _ => false) = true :=
  occursIn_spec (by decide +kernel)
example : ∃ tree v y, Returned c!"new new a(b)(c)" true false tree ∧
    Occurs .top tree v y ∧
    (match y with
      | ⟨.expr, .eNew _ (.eNew _ (.eId _) (.some _)) (.some _)⟩ => true
      | _ => false) = true :=
  occursIn_spec (by decide +kernel)

/-- The hypotheses of the theorems on C48 are met, with heads that start with `let`. -/
example : ∃ tree v y, Returned c!"for (let + 1; let; let) ;" false false tree ∧
    Occurs .top tree v y ∧
    (match y with
      | ⟨.stmt, .sFor _ (.some (.fhExpr _ (.eBinop _ _ (.eId ⟨_, .atom .«let»⟩) _))) _ _ _⟩ => true
      | _ => false) = true := by
  have h : (match script c!"for (let + 1; let; let) ;" with
      | .ok t => (nodesTo 40 .top ⟨_, t⟩).any fun k => (match k.2 with
        | ⟨.stmt, .sFor _ (.some (.fhExpr _ (.eBinop _ _ (.eId ⟨_, .atom .«let»⟩) _))) _ _ _⟩ => true
        | _ => false)
      | _ => false) = true := by decide +kernel
  split at h
  · rename_i t ht
    obtain ⟨k, hk, hp⟩ := List.any_eq_true.1 h
    exact ⟨_, _, _, .script ht, nodesTo_occurs k hk, hp⟩
  · cases h
example : ∃ tree v y, Returned c!"for (let.x in a) ; for (let.x of a) ;" false false tree ∧
    Occurs .top tree v y ∧
    (match y with
      | ⟨.stmt, .sForIn _ (.fiPatt _) _ _⟩ => true
      | _ => false) = true := by
  have h : (match script c!"for (let.x in a) ; for (let.x of a) ;" with
      | .ok t => (nodesTo 40 .top ⟨_, t⟩).any fun k => (match k.2 with
        | ⟨.stmt, .sForIn _ (.fiPatt _) _ _⟩ => true
        | _ => false)
      | _ => false) = true := by decide +kernel
  split at h
  · rename_i t ht
    obtain ⟨k, hk, hp⟩ := List.any_eq_true.1 h
    exact ⟨_, _, _, .script ht, nodesTo_occurs k hk, hp⟩
  · cases h
example : ∃ tree v y, Returned c!"for (let.x in a) ; for (let.x of a) ;" false false tree ∧
    Occurs .top tree v y ∧
    (match y with
      | ⟨.stmt, .sForOf _ (.foPatt _) _ _⟩ => true
      | _ => false) = true := by
  have h : (match script c!"for (let.x in a) ; for (let.x of a) ;" with
      | .ok t => (nodesTo 40 .top ⟨_, t⟩).any fun k => (match k.2 with
        | ⟨.stmt, .sForOf _ (.foPatt _) _ _⟩ => true
        | _ => false)
      | _ => false) = true := by decide +kernel
  split at h
  · rename_i t ht
    obtain ⟨k, hk, hp⟩ := List.any_eq_true.1 h
    exact ⟨_, _, _, .script ht, nodesTo_occurs k hk, hp⟩
  · cases h

end Examples

end Esprit
