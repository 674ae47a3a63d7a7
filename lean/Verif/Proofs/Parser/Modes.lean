import Verif.Proofs.Parser.SimFns
import Verif.Proofs.Cover

/-!
The entry points compared: `program` is `script` in a mode of its own, that
stops only at the end of the source.
-/

set_option linter.unusedSectionVars false

namespace Esprit

open Lex ReaderSpec Grammar

section Eval

variable [Env] {α β σ : Type}

theorem P.bind_apply (p : P α) (f : α → P β) (s : PState) :
    (p >>= f) s = match p s with
      | .ok (a, s') => f a s'
      | .err e => .err e
      | .panic q => .panic q
      | .fuel => .fuel := rfl

theorem P.bind_ok {p : P α} {f : α → P β} {s s' : PState} {a : α} (h : p s = .ok (a, s')) :
    (p >>= f) s = f a s' := by rw [P.bind_apply, h]

theorem P.bind_err {p : P α} {f : α → P β} {s : PState} {e : PError} (h : p s = .err e) :
    (p >>= f) s = .err e := by rw [P.bind_apply, h]

theorem P.bind_panic {p : P α} {f : α → P β} {s : PState} {e : Panic} (h : p s = .panic e) :
    (p >>= f) s = .panic e := by rw [P.bind_apply, h]

/-! ### Tokens that start no statement -/

/-- The tokens that start no statement, but do not end the source. -/
def strayTokens : List TokenData := [.rBrace, .reserved .case, .reserved .default]

/-- These end a script, and must not occur in a program. -/
def strayWords : List TokenData := [.reserved .import, .reserved .export]

/-- An unexpected token, or a violated assertion. -/
def Unexpected (t : Token) (x : Res PError α) : Prop :=
  x = .err (.unexpectedToken t) ∨ x = .panic .debugAssert

theorem Unexpected.bind {t : Token} {p : P α} {f : α → P β} {s : PState}
    (h : Unexpected t (p s)) : Unexpected t ((p >>= f) s) := by
  rcases h with h | h
  · exact .inl (P.bind_err h)
  · exact .inr (P.bind_panic h)

theorem Unexpected.ne_ok {t : Token} {a : α} (h : Unexpected t (Res.ok a : Res PError α)) : False := by
  rcases h with h | h <;> cases h

section Stray

variable {s : PState} {t : Token} {tl : List Token}

/-- The state without its first buffered token. -/
def PState.pop (s : PState) (tl : List Token) : PState :=
  { s with lexer := { s.lexer with lookahead := tl } }

theorem PState.pop_eq (hl : s.la = t :: tl) : s.pop (t :: tl) = s := by
  obtain ⟨_, _, _, ⟨_, _, _⟩, _⟩ := s
  simp only [PState.la] at hl
  subst hl
  rfl

theorem peek_la (hl : s.la = t :: tl) : P.peek s = .ok (t, s) := by
  unfold P.peek P.lex Lexer.peekToken
  simp only [hl]

theorem peekOp_la (hl : s.la = t :: tl) : P.peekOp s = .ok (t, s) := by
  unfold P.peekOp P.lex Lexer.peekToken
  simp only [hl]

theorem read_la (hl : s.la = t :: tl) : P.read s = .ok (t, s.pop tl) := by
  unfold P.read P.lex Lexer.readToken
  simp only [hl]
  rfl

theorem unread_la (hl : s.la = t :: tl) :
    P.unread t (s.pop tl) = .ok ((), s) ∨ P.unread t (s.pop tl) = .panic .debugAssert := by
  by_cases h : tl.length < 2
  · left
    have : P.unread t (s.pop tl) = .ok ((), (s.pop tl).pop (t :: tl)) := by
      unfold P.unread P.lex Lexer.unreadToken
      simp only [PState.pop, h, if_true]
    rw [this]
    exact congrArg (fun x => Res.ok ((), x)) (s.pop_eq hl)
  · right
    unfold P.unread P.lex Lexer.unreadToken
    simp only [PState.pop, h, if_false]

end Stray

/-- Outcome `a` in the same state, or a violated assertion. -/
def Stays (s : PState) (a : α) (x : Res PError (α × PState)) : Prop :=
  x = .ok (a, s) ∨ x = .panic .debugAssert

theorem Stays.bind {s : PState} {a : α} {p : P α} {f : α → P β} {b : β}
    (h : Stays s a (p s)) (hf : Stays s b (f a s)) : Stays s b ((p >>= f) s) := by
  rcases h with h | h
  · rw [P.bind_ok h]; exact hf
  · exact .inr (P.bind_panic h)

theorem Stays.bindU {s : PState} {a : α} {p : P α} {f : α → P β} {t : Token}
    (h : Stays s a (p s)) (hf : Unexpected t (f a s)) : Unexpected t ((p >>= f) s) := by
  rcases h with h | h
  · rw [P.bind_ok h]; exact hf
  · exact .inr (P.bind_panic h)

theorem Stays.loop {s : PState} {b : β} {step : σ → P (σ ⊕ β)} {a : σ}
    (h : Stays s (.inr b) (step a s)) : Stays s b (P.loop step a s) := by
  unfold P.loop
  simp only [P.loopN]
  rcases h with h | h <;> rw [h]
  · exact .inl rfl
  · exact .inr rfl

variable {s : PState} {t : Token} {tl : List Token}

theorem stray_matchPrefix (hl : s.la = t :: tl) (ht : t.value ∈ strayTokens ++ strayWords) :
    Stays s none (P.matchPrefix s) := by
  have key : Stays s none ((P.unread t >>= fun _ => P.matchUnop >>= fun op =>
      Pure.pure (op.map Prefix.unop)) (s.pop tl)) := by
    rcases unread_la hl with h | h
    · rw [P.bind_ok h]
      unfold P.matchUnop
      rw [P.bind_apply, P.bind_ok (read_la hl)]
      have : P.unopTag t.value = none := by
        simp only [strayTokens, strayWords, List.cons_append, List.nil_append, List.mem_cons,
          List.not_mem_nil, or_false] at ht
        rcases ht with h | h | h | h | h <;> rw [h] <;> rfl
      simp only [this]
      rcases unread_la hl with h | h
      · rw [P.bind_ok h]; exact .inl rfl
      · rw [P.bind_panic h]; exact .inr rfl
    · exact .inr (P.bind_panic h)
  unfold P.matchPrefix
  rw [P.bind_ok (read_la hl)]
  simp only [strayTokens, strayWords, List.cons_append, List.nil_append, List.mem_cons,
    List.not_mem_nil, or_false] at ht
  rcases ht with h | h | h | h | h <;> rw [h] <;> exact key

theorem stray_unary (r : Rec) (hl : s.la = t :: tl) (ht : t.value ∈ strayTokens ++ strayWords) :
    Unexpected t (P.unaryExpression r s) := by
  unfold P.unaryExpression
  refine Stays.bindU (a := []) ?_ ?_
  · refine Stays.loop ?_
    unfold P.prefixStep
    exact (stray_matchPrefix hl ht).bind (.inl rfl)
  · refine Unexpected.bind ?_
    unfold P.lhsExpression
    refine Stays.bindU (a := []) ?_ ?_
    · refine Stays.loop ?_
      unfold P.newsStep
      refine .inl ?_
      rw [P.bind_ok (peek_la hl)]
      have : t.value.eqv (.reserved .new) = false := by
        simp only [strayTokens, strayWords, List.cons_append, List.nil_append, List.mem_cons,
          List.not_mem_nil, or_false] at ht
        rcases ht with h | h | h | h | h <;> rw [h] <;> decide
      rw [this]
      rfl
    · simp only [List.length_nil, gt_iff_lt, Nat.lt_irrefl, if_false]
      unfold P.callExpression
      refine Unexpected.bind ?_
      unfold P.primaryExpression
      rw [P.bind_ok (read_la hl)]
      simp only [strayTokens, strayWords, List.cons_append, List.nil_append, List.mem_cons,
        List.not_mem_nil, or_false] at ht
      rcases ht with h | h | h | h | h <;> rw [h] <;> exact .inl rfl

/-- A statement cannot start with a stray token. -/
theorem stray_item (n : Nat) (hl : s.la = t :: tl) (ht : t.value ∈ strayTokens ++ strayWords) :
    Unexpected t ((P.recOf (n + 2)).item true s) := by
  show Unexpected t (P.stmtListItem (P.recOf (n + 1)) true s)
  have key : Unexpected t (P.asItem (P.expressionStatement (P.recOf (n + 1))) s) := by
    unfold P.asItem
    refine Unexpected.bind ?_
    unfold P.expressionStatement
    refine Stays.bindU (.inl rfl) ?_
    refine Unexpected.bind ?_
    unfold P.allowIn
    refine Stays.bindU (.inl rfl) ?_
    show Unexpected t ((P.expression (P.recOf (n + 1)) >>= _) _)
    refine Unexpected.bind ?_
    unfold P.expression
    refine Unexpected.bind ?_
    show Unexpected t (P.assignmentExpression (P.recOf n) _)
    unfold P.assignmentExpression
    refine Unexpected.bind ?_
    unfold P.conditionalExpression
    refine Unexpected.bind ?_
    exact stray_unary _ hl ht
  unfold P.stmtListItem
  rw [P.bind_ok (peek_la hl)]
  simp only [strayTokens, strayWords, List.cons_append, List.nil_append, List.mem_cons,
    List.not_mem_nil, or_false] at ht
  rcases ht with h | h | h | h | h <;> rw [h] <;> exact key

/-! ### The loops over the items -/

theorem peek_ok {s s1 : PState} {t : Token} (h : P.peek s = .ok (t, s1)) : ∃ tl, s1.la = t :: tl := by
  unfold P.peek P.lex Lexer.peekToken at h
  cases hl : s.lexer.lookahead with
  | nil =>
    simp only [hl] at h
    cases hn : s.lexer.readNextToken false with
    | ok v =>
      obtain ⟨t', l⟩ := v
      rw [hn] at h
      cases h
      exact ⟨[], rfl⟩
    | err e => rw [hn] at h; cases h
    | panic p => rw [hn] at h; cases h
    | fuel => rw [hn] at h; cases h
  | cons t' tl =>
    simp only [hl] at h
    cases h
    exact ⟨tl, hl⟩

/-- What the next token is for the loops. -/
theorem token_cases (v : TokenData) : v = .eof ∨ v ∈ strayTokens ∨ v ∈ strayWords ∨
    (v ≠ .eof ∧ v ∉ strayTokens ∧ v ∉ strayWords) := by
  by_cases h1 : v = .eof
  · exact .inl h1
  · by_cases h2 : v ∈ strayTokens
    · exact .inr (.inl h2)
    · by_cases h3 : v ∈ strayWords
      · exact .inr (.inr (.inl h3))
      · exact .inr (.inr (.inr ⟨h1, h2, h3⟩))

section Loops

variable {n : Nat} {s1 : PState} (r : Rec)

theorem listStep_end (acc : List StmtListItem) (h : P.peek s = .ok (t, s1))
    (ht : t.value = .eof ∨ t.value ∈ strayTokens) :
    P.statementListStep r acc s = .ok (.inr acc, s1) := by
  unfold P.statementListStep
  rw [P.bind_ok h]
  have : t.followStatementList = true := by
    simp only [strayTokens, List.mem_cons, List.not_mem_nil, or_false] at ht
    rcases ht with h | h | h | h <;> unfold Token.followStatementList <;> rw [h]
  simp only [this, Bool.not_true, Bool.false_eq_true, if_false]
  rfl

theorem listStep_item (acc : List StmtListItem) (h : P.peek s = .ok (t, s1))
    (h1 : t.value ≠ .eof) (h2 : t.value ∉ strayTokens) :
    P.statementListStep r acc s = (r.item true >>= fun i => Pure.pure (.inl (acc ++ [i]))) s1 := by
  unfold P.statementListStep
  rw [P.bind_ok h]
  have : t.followStatementList = false := by
    unfold Token.followStatementList
    split
    all_goals first | rfl | (rename_i hv; simp_all [strayTokens])
  simp only [this, Bool.not_false, if_true]

theorem progStep_eof (acc : List StmtListItem) (h : P.peek s = .ok (t, s1))
    (ht : t.value = .eof) : P.programItemsStep r acc s = .ok (.inr (.script acc), s1) := by
  unfold P.programItemsStep
  rw [P.bind_ok h, ht]
  rfl

theorem progStep_item (acc : List StmtListItem) (h : P.peek s = .ok (t, s1))
    (h1 : t.value ≠ .eof) (h2 : t.value ∉ strayWords) :
    P.programItemsStep r acc s = (r.item true >>= fun i => Pure.pure (.inl (acc ++ [i]))) s1 := by
  unfold P.programItemsStep
  rw [P.bind_ok h]
  simp only [strayWords, List.mem_cons, List.not_mem_nil, or_false, not_or] at h2
  refine congrFun ?_ s1
  split
  · rename_i hv; exact absurd hv h1
  · rename_i hv; exact absurd hv h2.1
  · rename_i hv; exact absurd hv h2.2
  · rfl

theorem modStep_word (acc : List (Ast .modItem)) (h : P.peek s = .ok (t, s1))
    (h2 : t.value ∈ strayWords) : P.moduleItemsStep r acc s = .panic .unimplemented := by
  unfold P.moduleItemsStep
  rw [P.bind_ok h]
  simp only [strayWords, List.mem_cons, List.not_mem_nil, or_false] at h2
  rcases h2 with h | h <;> rw [h] <;> rfl

theorem force_la {s s' : PState} (h : P.forceDeferredModuleValidation s = .ok ((), s')) :
    s'.la = s.la := by
  unfold P.forceDeferredModuleValidation at h
  have h : (if !s.validate then Pure.pure () else P.takeDeferred >>= fun deferred =>
    match P.firstFailing true deferred with
    | some e => P.throw e
    | none => Pure.pure () : P Unit) s = .ok ((), s') := h
  split at h
  · cases h; rfl
  · have h : (match P.firstFailing true s.deferred with
      | some e => P.throw e
      | none => Pure.pure () : P Unit) { s with deferred := [] } = .ok ((), s') := h
    cases hf : P.firstFailing true s.deferred with
    | none => rw [hf] at h; cases h; rfl
    | some e => rw [hf] at h; cases h

theorem progStep_word (acc : List StmtListItem) (h : P.peek s = .ok (t, s1))
    (h2 : t.value ∈ strayWords) :
    P.programItemsStep r acc s = .panic .unimplemented ∨
      ∃ e ∈ P.firstFailing true s1.deferred, P.programItemsStep r acc s = .err e := by
  obtain ⟨tl, hl⟩ := peek_ok h
  have key : (P.forceDeferredModuleValidation >>= fun _ =>
      P.moreModuleItems r (acc.map Ast.miItem) >>= fun items =>
        Pure.pure (Sum.inr (ProgramItems.module items)) : P (List StmtListItem ⊕ ProgramItems)) s1 =
      .panic .unimplemented ∨
      ∃ e ∈ P.firstFailing true s1.deferred, (P.forceDeferredModuleValidation >>= fun _ =>
      P.moreModuleItems r (acc.map Ast.miItem) >>= fun items =>
        Pure.pure (Sum.inr (ProgramItems.module items)) : P (List StmtListItem ⊕ ProgramItems)) s1 = .err e := by
    have hp : ∀ s2 : PState, s2.la = t :: tl → (P.moreModuleItems r (acc.map Ast.miItem) >>= fun items =>
        Pure.pure (Sum.inr (ProgramItems.module items)) : P (List StmtListItem ⊕ ProgramItems)) s2 =
        .panic .unimplemented := by
      intro s2 hs2
      refine P.bind_panic ?_
      unfold P.moreModuleItems P.loop
      simp only [P.loopN]
      rw [modStep_word r _ (peek_la hs2) h2]
    cases hf : P.forceDeferredModuleValidation s1 with
    | ok v =>
      obtain ⟨⟨⟩, s2⟩ := v
      rw [P.bind_ok hf]
      exact .inl (hp s2 (by rw [force_la hf, hl]))
    | err e =>
      right
      rw [P.bind_err hf]
      refine ⟨e, ?_, rfl⟩
      have hf : (if !s1.validate then Pure.pure () else P.takeDeferred >>= fun deferred =>
        match P.firstFailing true deferred with
        | some e => P.throw e
        | none => Pure.pure () : P Unit) s1 = .err e := hf
      split at hf
      · cases hf
      · have hf : (match P.firstFailing true s1.deferred with
          | some e => P.throw e
          | none => Pure.pure () : P Unit) { s1 with deferred := [] } = .err e := hf
        cases hx : P.firstFailing true s1.deferred with
        | none => rw [hx] at hf; cases hf
        | some e => rw [hx] at hf; cases hf; rfl
    | panic p =>
      have hf : (if !s1.validate then Pure.pure () else P.takeDeferred >>= fun deferred =>
        match P.firstFailing true deferred with
        | some e => P.throw e
        | none => Pure.pure () : P Unit) s1 = .panic p := hf
      split at hf
      · cases hf
      · have hf : (match P.firstFailing true s1.deferred with
          | some e => P.throw e
          | none => Pure.pure () : P Unit) { s1 with deferred := [] } = .panic p := hf
        cases hx : P.firstFailing true s1.deferred with
        | none => rw [hx] at hf; cases hf
        | some e => rw [hx] at hf; cases hf
    | fuel =>
      have hf : (if !s1.validate then Pure.pure () else P.takeDeferred >>= fun deferred =>
        match P.firstFailing true deferred with
        | some e => P.throw e
        | none => Pure.pure () : P Unit) s1 = .fuel := hf
      split at hf
      · cases hf
      · have hf : (match P.firstFailing true s1.deferred with
          | some e => P.throw e
          | none => Pure.pure () : P Unit) { s1 with deferred := [] } = .fuel := hf
        cases hx : P.firstFailing true s1.deferred with
        | none => rw [hx] at hf; cases hf
        | some e => rw [hx] at hf; cases hf
  unfold P.programItemsStep
  rw [P.bind_ok h]
  simp only [strayWords, List.mem_cons, List.not_mem_nil, or_false] at h2
  rcases h2 with h | h <;> rw [h] <;> exact key

theorem modStep_eof (acc : List (Ast .modItem)) (h : P.peek s = .ok (t, s1))
    (ht : t.value = .eof) : P.moduleItemsStep r acc s = .ok (.inr acc, s1) := by
  unfold P.moduleItemsStep
  rw [P.bind_ok h, ht]
  rfl

theorem modStep_item (acc : List (Ast .modItem)) (h : P.peek s = .ok (t, s1))
    (h1 : t.value ≠ .eof) (h2 : t.value ∉ strayWords) :
    P.moduleItemsStep r acc s = (r.item true >>= fun i => Pure.pure (.inl (acc ++ [.miItem i]))) s1 := by
  unfold P.moduleItemsStep
  rw [P.bind_ok h]
  simp only [strayWords, List.mem_cons, List.not_mem_nil, or_false, not_or] at h2
  refine congrFun ?_ s1
  split
  · rename_i hv; exact absurd hv h1
  · rename_i hv; exact absurd hv h2.1
  · rename_i hv; exact absurd hv h2.2
  · rfl

/-! The outcomes of the loops, one step unfolded. -/

theorem loopN_succ {step : σ → P (σ ⊕ β)} (n : Nat) (a : σ) (s : PState) :
    P.loopN step (n + 1) a s = match step a s with
      | .ok (.inl a', s') => P.loopN step n a' s'
      | .ok (.inr b, s') => .ok (b, s')
      | .err e => .err e
      | .panic p => .panic p
      | .fuel => .fuel := rfl

variable (k : Nat)

/-- The loops of `script` and `program` from the same state. -/
theorem items_script (n : Nat) : ∀ (acc : List StmtListItem) (s : PState),
    match P.loopN (P.statementListStep (P.recOf (k + 2))) n acc s with
    | .ok (items, t) =>
      P.loopN (P.programItemsStep (P.recOf (k + 2))) n acc s = .ok (.script items, t) ∨
      ∃ tok, tok.value ∈ strayTokens ∧ (∃ tl, t.la = tok :: tl) ∧
        Unexpected tok (P.loopN (P.programItemsStep (P.recOf (k + 2))) n acc s)
    | .err e => P.loopN (P.programItemsStep (P.recOf (k + 2))) n acc s = .err e ∨
      ∃ tok, tok.value ∈ strayWords ∧ e = .unexpectedToken tok ∧
        ∀ v, P.loopN (P.programItemsStep (P.recOf (k + 2))) n acc s ≠ .ok v
    | .panic p => P.loopN (P.programItemsStep (P.recOf (k + 2))) n acc s = .panic p ∨
      p = .debugAssert
    | .fuel => P.loopN (P.programItemsStep (P.recOf (k + 2))) n acc s = .fuel := by
  induction n with
  | zero => intro acc s; rfl
  | succ n ih =>
    intro acc s
    rw [loopN_succ, loopN_succ]
    cases hp : P.peek s with
    | ok v =>
      obtain ⟨t, s1⟩ := v
      obtain ⟨tl, hl⟩ := peek_ok hp
      rcases token_cases t.value with h | h | h | ⟨h1, h2, h3⟩
      · rw [listStep_end _ _ hp (.inl h), progStep_eof _ _ hp h]
        exact .inl rfl
      · rw [listStep_end _ _ hp (.inr h),
          progStep_item _ _ hp (by rintro h'; rw [h'] at h; simp [strayTokens] at h)
            (by intro h'
                simp only [strayTokens, strayWords, List.mem_cons, List.not_mem_nil, or_false] at h h'
                rcases h with h | h | h <;> rw [h] at h' <;> simp at h')]
        refine .inr ⟨t, h, ⟨tl, hl⟩, ?_⟩
        have := stray_item k hl (List.mem_append.2 (.inl h))
        rcases this with h | h
        · rw [P.bind_err h]; exact .inl rfl
        · rw [P.bind_panic h]; exact .inr rfl
      · rw [listStep_item _ _ hp (by rintro h'; rw [h'] at h; simp [strayWords] at h)
            (by intro h'
                simp only [strayTokens, strayWords, List.mem_cons, List.not_mem_nil, or_false] at h h'
                rcases h with h | h <;> rw [h] at h' <;> simp at h')]
        have hprog := progStep_word (P.recOf (k + 2)) acc hp h
        have := stray_item k hl (List.mem_append.2 (.inr h))
        rcases this with hi | hi
        · rw [P.bind_err hi]
          refine .inr ⟨t, h, rfl, ?_⟩
          rcases hprog with h | ⟨e, -, h⟩ <;> rw [h] <;> intro v hv <;> cases hv
        · rw [P.bind_panic hi]
          exact .inr rfl
      · rw [listStep_item _ _ hp h1 h2, progStep_item _ _ hp h1 h3]
        cases hi : (P.recOf (k + 2)).item true s1 with
        | ok v =>
          obtain ⟨i, s2⟩ := v
          rw [P.bind_ok hi, P.bind_ok hi]
          exact ih (acc ++ [i]) s2
        | err e => rw [P.bind_err hi, P.bind_err hi]; exact .inl rfl
        | panic e => rw [P.bind_panic hi, P.bind_panic hi]; exact .inl rfl
        | fuel =>
          have : ∀ {β : Type} (f : StmtListItem → P β), ((P.recOf (k + 2)).item true >>= f) s1 = .fuel :=
            fun f => by rw [P.bind_apply, hi]
          rw [this, this]
    | err e =>
      have h1 : P.statementListStep (P.recOf (k + 2)) acc s = .err e := P.bind_err hp
      have h2 : P.programItemsStep (P.recOf (k + 2)) acc s = .err e := P.bind_err hp
      rw [h1, h2]; exact .inl rfl
    | panic e =>
      have h1 : P.statementListStep (P.recOf (k + 2)) acc s = .panic e := P.bind_panic hp
      have h2 : P.programItemsStep (P.recOf (k + 2)) acc s = .panic e := P.bind_panic hp
      rw [h1, h2]; exact .inl rfl
    | fuel =>
      have h1 : P.statementListStep (P.recOf (k + 2)) acc s = .fuel := by
        unfold P.statementListStep; rw [P.bind_apply, hp]
      have h2 : P.programItemsStep (P.recOf (k + 2)) acc s = .fuel := by
        unfold P.programItemsStep; rw [P.bind_apply, hp]
      rw [h1, h2]

/-- The loops of `module` and `program` from the same state. -/
theorem items_module (n : Nat) : ∀ (acc : List StmtListItem) (s : PState),
    match P.loopN (P.moduleItemsStep (P.recOf (k + 2))) n (acc.map .miItem) s with
    | .ok (items, t) => ∃ xs, items = xs.map .miItem ∧
      P.loopN (P.programItemsStep (P.recOf (k + 2))) n acc s = .ok (.script xs, t)
    | .err e => P.loopN (P.programItemsStep (P.recOf (k + 2))) n acc s = .err e
    | .panic p => ∀ v, P.loopN (P.programItemsStep (P.recOf (k + 2))) n acc s ≠ .ok v
    | .fuel => P.loopN (P.programItemsStep (P.recOf (k + 2))) n acc s = .fuel := by
  induction n with
  | zero => intro acc s; rfl
  | succ n ih =>
    intro acc s
    rw [loopN_succ, loopN_succ]
    cases hp : P.peek s with
    | ok v =>
      obtain ⟨t, s1⟩ := v
      by_cases h1 : t.value = .eof
      · rw [modStep_eof _ _ hp h1, progStep_eof _ _ hp h1]
        exact ⟨acc, rfl, rfl⟩
      · by_cases h2 : t.value ∈ strayWords
        · rw [modStep_word _ _ hp h2]
          rcases progStep_word (P.recOf (k + 2)) acc hp h2 with h | ⟨e, -, h⟩ <;> rw [h] <;>
            intro v hv <;> cases hv
        · rw [modStep_item _ _ hp h1 h2, progStep_item _ _ hp h1 h2]
          cases hi : (P.recOf (k + 2)).item true s1 with
          | ok v =>
            obtain ⟨i, s2⟩ := v
            rw [P.bind_ok hi, P.bind_ok hi]
            have := ih (acc ++ [i]) s2
            rw [List.map_append] at this
            exact this
          | err e => rw [P.bind_err hi, P.bind_err hi]
          | panic e => rw [P.bind_panic hi, P.bind_panic hi]; intro v hv; cases hv
          | fuel =>
            have : ∀ {β : Type} (f : StmtListItem → P β), ((P.recOf (k + 2)).item true >>= f) s1 = .fuel :=
              fun f => by rw [P.bind_apply, hi]
            rw [this, this]
    | err e =>
      have h1 : P.moduleItemsStep (P.recOf (k + 2)) (acc.map .miItem) s = .err e := P.bind_err hp
      have h2 : P.programItemsStep (P.recOf (k + 2)) acc s = .err e := P.bind_err hp
      rw [h1, h2]
    | panic e =>
      have h1 : P.moduleItemsStep (P.recOf (k + 2)) (acc.map .miItem) s = .panic e := P.bind_panic hp
      have h2 : P.programItemsStep (P.recOf (k + 2)) acc s = .panic e := P.bind_panic hp
      rw [h1, h2]; intro v hv; cases hv
    | fuel =>
      have h1 : P.moduleItemsStep (P.recOf (k + 2)) (acc.map .miItem) s = .fuel := by
        unfold P.moduleItemsStep; rw [P.bind_apply, hp]
      have h2 : P.programItemsStep (P.recOf (k + 2)) acc s = .fuel := by
        unfold P.programItemsStep; rw [P.bind_apply, hp]
      rw [h1, h2]

end Loops

/-! ### The entry points -/

/-- parser.rs:193-198: the body of `Parser::module`. -/
def moduleBody (r : Rec) : P Module := P.span do
  let dirs ← P.bodyDirectives
  let items ← P.moreModuleItems r []
  pure (.body none dirs (.ofList items))

variable (k : Nat)

/-- The loops over the items, and the end of `program`. -/
theorem program_of_script (hg : s.goal = .unknown) :
    match P.scriptBody (P.recOf (k + 2)) s with
    | .ok (tree, t) =>
      (∃ t', P.parseProgram (P.recOf (k + 2)) s = .ok (.ambiguous t.deferred tree, t')) ∨
      ∃ tok, tok.value ∈ strayTokens ∧ (∃ tl, t.la = tok :: tl) ∧
        Unexpected tok (P.parseProgram (P.recOf (k + 2)) s)
    | .err e => P.parseProgram (P.recOf (k + 2)) s = .err e ∨
      ∃ tok, tok.value ∈ strayWords ∧ e = .unexpectedToken tok ∧
        ∀ v, P.parseProgram (P.recOf (k + 2)) s ≠ .ok v
    | .panic p => P.parseProgram (P.recOf (k + 2)) s = .panic p ∨ p = .debugAssert
    | .fuel => P.parseProgram (P.recOf (k + 2)) s = .fuel := by
  have hP : P.parseProgram (P.recOf (k + 2)) s = P.span (do
      let dirs ← P.bodyDirectives
      match ← P.programItems (P.recOf (k + 2)) with
      | .script items => do
        let checks ← P.takeDeferred
        pure (Program.ambiguous checks (.body none dirs (.ofList items)))
      | .module items => pure (Program.moduleCode (.body none dirs (.ofList items)))) s := by
    unfold P.parseProgram
    refine P.bind_ok (a := ()) (s' := s) ?_
    unfold P.assertGoalUnknown
    rw [P.bind_ok (show P.get s = .ok (s, s) from rfl), if_pos hg]
    rfl
  rw [hP]
  unfold P.scriptBody P.span
  rw [P.bind_ok (show P.posn s = .ok (s.lexer.reader.posn, s) from rfl),
    P.bind_ok (show P.posn s = .ok (s.lexer.reader.posn, s) from rfl)]
  cases hb : P.bodyDirectives s with
  | err e =>
    rw [P.bind_err (P.bind_err hb), P.bind_err (P.bind_err hb)]
    exact .inl rfl
  | panic e =>
    rw [P.bind_panic (P.bind_panic hb), P.bind_panic (P.bind_panic hb)]
    exact .inl rfl
  | fuel =>
    have : ∀ {α β : Type} (f : List Dir → P α) (g : α → P β), ((P.bodyDirectives >>= f) >>= g) s = .fuel :=
      fun f g => by rw [P.bind_apply, P.bind_apply, hb]
    rw [this, this]
  | ok v =>
    obtain ⟨dirs, s1⟩ := v
    have e1 : ∀ {α β : Type} (f : List Dir → P α) (g : α → P β),
        ((P.bodyDirectives >>= f) >>= g) s = (f dirs >>= g) s1 :=
      fun f g => by rw [P.bind_apply, P.bind_ok hb]; rfl
    rw [e1, e1]
    have h := items_script k (s1.lexer.reader.rest.length + s1.lexer.lookahead.length + 1) [] s1
    have d1 : P.statementList (P.recOf (k + 2)) s1 = P.loopN (P.statementListStep (P.recOf (k + 2)))
      (s1.lexer.reader.rest.length + s1.lexer.lookahead.length + 1) [] s1 := rfl
    have d2 : P.programItems (P.recOf (k + 2)) s1 = P.loopN (P.programItemsStep (P.recOf (k + 2)))
      (s1.lexer.reader.rest.length + s1.lexer.lookahead.length + 1) [] s1 := rfl
    rw [← d1, ← d2] at h
    cases hl : P.statementList (P.recOf (k + 2)) s1 with
    | ok v =>
      obtain ⟨items, s2⟩ := v
      rw [hl] at h
      have e2 : ∀ {α β : Type} (f : List StmtListItem → P α) (g : α → P β),
          ((P.statementList (P.recOf (k + 2)) >>= f) >>= g) s1 = (f items >>= g) s2 :=
        fun f g => by rw [P.bind_apply, P.bind_ok hl]; rfl
      rw [e2]
      rcases h with h | ⟨tok, h1, h0, h2⟩
      · left
        have e3 : ∀ {α β : Type} (f : ProgramItems → P α) (g : α → P β),
            ((P.programItems (P.recOf (k + 2)) >>= f) >>= g) s1 = (f (.script items) >>= g) s2 :=
          fun f g => by rw [P.bind_apply, P.bind_ok h]; rfl
        rw [e3]
        exact ⟨_, rfl⟩
      · exact .inr ⟨tok, h1, h0, Unexpected.bind (Unexpected.bind h2)⟩
    | err e =>
      rw [hl] at h
      rw [P.bind_err (P.bind_err hl)]
      rcases h with h | ⟨tok, h1, h2, h3⟩
      · exact .inl (P.bind_err (P.bind_err h))
      · refine .inr ⟨tok, h1, h2, fun v hv => ?_⟩
        cases hq : P.programItems (P.recOf (k + 2)) s1 with
        | ok v => exact h3 _ hq
        | err e => rw [P.bind_err (P.bind_err hq)] at hv; cases hv
        | panic e => rw [P.bind_panic (P.bind_panic hq)] at hv; cases hv
        | fuel => rw [P.bind_apply, P.bind_apply, hq] at hv; cases hv
    | panic e =>
      rw [hl] at h
      rw [P.bind_panic (P.bind_panic hl)]
      rcases h with h | h
      · exact .inl (P.bind_panic (P.bind_panic h))
      · exact .inr h
    | fuel =>
      rw [hl] at h
      have h : P.programItems (P.recOf (k + 2)) s1 = .fuel := h
      rw [P.bind_apply, P.bind_apply, hl]
      show _ = _
      rw [P.bind_apply, P.bind_apply, h]

theorem program_of_module (hg : s.goal = .unknown) :
    match moduleBody (P.recOf (k + 2)) s with
    | .ok (tree, t) => ∃ t' tree', tree = Program.scriptToModule tree' ∧
        P.parseProgram (P.recOf (k + 2)) s = .ok (.ambiguous t.deferred tree', t')
    | .err e => P.parseProgram (P.recOf (k + 2)) s = .err e
    | .panic p => ∀ v, P.parseProgram (P.recOf (k + 2)) s ≠ .ok v
    | .fuel => P.parseProgram (P.recOf (k + 2)) s = .fuel := by
  have hP : P.parseProgram (P.recOf (k + 2)) s = P.span (do
      let dirs ← P.bodyDirectives
      match ← P.programItems (P.recOf (k + 2)) with
      | .script items => do
        let checks ← P.takeDeferred
        pure (Program.ambiguous checks (.body none dirs (.ofList items)))
      | .module items => pure (Program.moduleCode (.body none dirs (.ofList items)))) s := by
    unfold P.parseProgram
    refine P.bind_ok (a := ()) (s' := s) ?_
    unfold P.assertGoalUnknown
    rw [P.bind_ok (show P.get s = .ok (s, s) from rfl), if_pos hg]
    rfl
  rw [hP]
  unfold moduleBody P.span
  rw [P.bind_ok (show P.posn s = .ok (s.lexer.reader.posn, s) from rfl),
    P.bind_ok (show P.posn s = .ok (s.lexer.reader.posn, s) from rfl)]
  cases hb : P.bodyDirectives s with
  | err e => rw [P.bind_err (P.bind_err hb), P.bind_err (P.bind_err hb)]
  | panic e =>
    rw [P.bind_panic (P.bind_panic hb), P.bind_panic (P.bind_panic hb)]
    intro v hv; cases hv
  | fuel =>
    have : ∀ {α β : Type} (f : List Dir → P α) (g : α → P β), ((P.bodyDirectives >>= f) >>= g) s = .fuel :=
      fun f g => by rw [P.bind_apply, P.bind_apply, hb]
    rw [this, this]
  | ok v =>
    obtain ⟨dirs, s1⟩ := v
    have e1 : ∀ {α β : Type} (f : List Dir → P α) (g : α → P β),
        ((P.bodyDirectives >>= f) >>= g) s = (f dirs >>= g) s1 :=
      fun f g => by rw [P.bind_apply, P.bind_ok hb]; rfl
    rw [e1, e1]
    have h := items_module k (s1.lexer.reader.rest.length + s1.lexer.lookahead.length + 1) [] s1
    have d1 : P.moreModuleItems (P.recOf (k + 2)) [] s1 = P.loopN (P.moduleItemsStep (P.recOf (k + 2)))
      (s1.lexer.reader.rest.length + s1.lexer.lookahead.length + 1) (([] : List StmtListItem).map .miItem) s1 := rfl
    have d2 : P.programItems (P.recOf (k + 2)) s1 = P.loopN (P.programItemsStep (P.recOf (k + 2)))
      (s1.lexer.reader.rest.length + s1.lexer.lookahead.length + 1) [] s1 := rfl
    rw [← d1, ← d2] at h
    cases hl : P.moreModuleItems (P.recOf (k + 2)) [] s1 with
    | ok v =>
      obtain ⟨items, s2⟩ := v
      rw [hl] at h
      have e2 : ∀ {α β : Type} (f : List (Ast .modItem) → P α) (g : α → P β),
          ((P.moreModuleItems (P.recOf (k + 2)) [] >>= f) >>= g) s1 = (f items >>= g) s2 :=
        fun f g => by rw [P.bind_apply, P.bind_ok hl]; rfl
      rw [e2]
      obtain ⟨xs, rfl, h⟩ := h
      have e3 : ∀ {α β : Type} (f : ProgramItems → P α) (g : α → P β),
          ((P.programItems (P.recOf (k + 2)) >>= f) >>= g) s1 = (f (.script xs) >>= g) s2 :=
        fun f g => by rw [P.bind_apply, P.bind_ok h]; rfl
      rw [e3]
      refine ⟨_, _, ?_, rfl⟩
      show Ast.body _ dirs (.ofList (xs.map .miItem)) = Ast.body _ dirs (.ofList _)
      rw [Ast.toList_ofList]
      rfl
    | err e =>
      rw [hl] at h
      rw [P.bind_err (P.bind_err hl)]
      exact P.bind_err (P.bind_err h)
    | panic e =>
      rw [hl] at h
      rw [P.bind_panic (P.bind_panic hl)]
      intro v hv
      cases hq : P.programItems (P.recOf (k + 2)) s1 with
      | ok v => exact h _ hq
      | err e => rw [P.bind_err (P.bind_err hq)] at hv; cases hv
      | panic e => rw [P.bind_panic (P.bind_panic hq)] at hv; cases hv
      | fuel => rw [P.bind_apply, P.bind_apply, hq] at hv; cases hv
    | fuel =>
      rw [hl] at h
      have h : P.programItems (P.recOf (k + 2)) s1 = .fuel := h
      rw [P.bind_apply, P.bind_apply, hl]
      show _ = _
      rw [P.bind_apply, P.bind_apply, h]

end Eval

section Entry

variable [Env] [LawfulEnv]

open Sim

theorem sim_moduleBody {S : Str} {m : Mode} {r : Rec} (hr : SimRec S m r) :
    Sim S m (fun _ => True) (moduleBody r) := by
  unfold moduleBody P.moreModuleItems P.moduleItemsStep
  sim

theorem prog_fromChars (s : Str) : Prog s (PState.fromChars s) :=
  ⟨rfl, rfl, rfl, ⟨0, true, Lexer.At.new s⟩, fun _ h => by cases h⟩

theorem recFuel_eq (s : Str) : recFuel s = (2 * s.length + 2) + 2 := rfl

/-- The run of the body of a script in `program` mode. -/
abbrev bodyRun (s : Str) : Res PError (Script × PState) :=
  P.scriptBody (P.recOf (recFuel s)) (.fromChars s)

theorem script_eq (s : Str) :
    script s = outcome (P.scriptBody (P.recOf (recFuel s)) (Mode.script.of (.fromChars s))) := rfl

theorem strict_eq (s : Str) :
    strict s = outcome (P.scriptBody (P.recOf (recFuel s)) (Mode.strict.of (.fromChars s))) := rfl

theorem module_eq (s : Str) :
    parseModule s = outcome (moduleBody (P.recOf (recFuel s)) (Mode.module.of (.fromChars s))) := rfl

theorem body_sim (s : Str) (m : Mode) : SimRes s m (fun _ => True) (PState.fromChars s) (bodyRun s)
    (P.scriptBody (P.recOf (recFuel s)) (m.of (.fromChars s))) :=
  sim_scriptBody (simRec _) _ (prog_fromChars s)

theorem module_sim (s : Str) (m : Mode) : SimRes s m (fun _ => True) (PState.fromChars s)
    (moduleBody (P.recOf (recFuel s)) (.fromChars s))
    (moduleBody (P.recOf (recFuel s)) (m.of (.fromChars s))) :=
  sim_moduleBody (simRec _) _ (prog_fromChars s)

end Entry

end Esprit
