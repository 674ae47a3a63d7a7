import Verif.Proofs.Parser.Knot

/-!
A forward calculus for the parser: `P.cp m s Q` says that running `m` in the
state `s` succeeds with a result and a state that satisfy `Q`, up to what the
calculus of `Wp.lean` excludes (failed assertions, exhausted budgets).
-/

set_option linter.unusedSectionVars false
set_option linter.unusedVariables false

namespace Esprit

open Lex ReaderSpec Grammar

/-- `m` does not end in an error, nor in a panic that `P.wp` allows. -/
def P.cp {α : Type} (m : P α) (s : PState) (Q : α → PState → Prop) : Prop :=
  match m s with
  | .ok (a, s') => Q a s'
  | .err _ => False
  | .panic p => p ≠ .readPastEnd ∧ p ≠ .overflow ∧ p ≠ .unimplemented
  | .fuel => True

namespace P

variable {u : Bool} {α β σ : Type} {s : PState}

theorem cp.bind {m : P α} {f : α → P β} {Q : β → PState → Prop}
    (h : cp m s (fun a s' => cp (f a) s' Q)) : cp (m >>= f) s Q := by
  unfold cp at h ⊢
  have e : (m >>= f) s = P.bind m f s := rfl
  rw [e]
  unfold P.bind
  cases hm : m s with
  | ok v => rw [hm] at h; exact h
  | err e => rw [hm] at h; exact h
  | panic p => rw [hm] at h; exact h
  | fuel => trivial

theorem cp.mono {m : P α} {Q Q' : α → PState → Prop}
    (h : cp m s Q) (hf : ∀ a s', Q a s' → Q' a s') : cp m s Q' := by
  unfold cp at h ⊢
  cases hm : m s with
  | ok v => rw [hm] at h; exact hf _ _ h
  | err e => rw [hm] at h; exact h
  | panic p => rw [hm] at h; exact h
  | fuel => trivial

theorem cp.then {m : P α} {f : α → P β} {Q : α → PState → Prop} {Q' : β → PState → Prop}
    (h : cp m s Q) (hf : ∀ a s', Q a s' → cp (f a) s' Q') : cp (m >>= f) s Q' :=
  .bind (h.mono hf)

theorem cp.pure {a : α} {Q : α → PState → Prop} (h : Q a s) : cp (pure a : P α) s Q := h

theorem cp.pure_bind {a : α} {f : α → P β} {Q : β → PState → Prop}
    (h : cp (f a) s Q) : cp (Pure.pure a >>= f) s Q := h

theorem cp.get_bind {f : PState → P β} {Q : β → PState → Prop} (h : cp (f s) s Q) :
    cp (P.get >>= f) s Q := h

theorem cp.posn_bind {f : Posn → P β} {Q : β → PState → Prop}
    (h : cp (f s.lexer.reader.posn) s Q) : cp (P.posn >>= f) s Q := h

theorem cp.modify_bind {g : PState → PState} {f : Unit → P β} {Q : β → PState → Prop}
    (h : cp (f ()) (g s) Q) : cp (P.modify g >>= f) s Q := h

/-- Running both calculi. -/
theorem cp.ok {m : P α} {Q Q' : α → PState → Prop} (h : cp m s Q) (h' : wp false m s Q') :
    ∃ a s', m s = .ok (a, s') ∧ Q a s' ∧ Q' a s' := by
  unfold cp at h
  unfold wp at h'
  cases hm : m s with
  | ok v =>
    rw [hm] at h h'
    exact ⟨v.1, v.2, rfl, h, h'⟩
  | err e => rw [hm] at h; exact h.elim
  | panic p =>
    rw [hm] at h h'
    obtain ⟨h1, h2, h3⟩ := h
    rcases h' with h' | h' | ⟨h', _⟩
    · exact (h1 h').elim
    · exact (h2 h').elim
    · cases h'
  | fuel => rw [hm] at h'; exact h'.elim

theorem cp.loopN {step : σ → P (σ ⊕ β)} {a : σ} {Q : β → PState → Prop} {N : Nat}
    (h : ∀ M, N = M + 1 → cp (step a) s fun x s' =>
      match x with | .inl a' => cp (P.loopN step M a') s' Q | .inr b => Q b s') :
    cp (P.loopN step N a) s Q := by
  cases N with
  | zero => trivial
  | succ M =>
    have h := h M rfl
    unfold cp at h ⊢
    simp only [P.loopN]
    cases hm : step a s with
    | ok v =>
      obtain ⟨x, s'⟩ := v
      rw [hm] at h
      cases x with
      | inl a' => exact h
      | inr b => exact h
    | err e => rw [hm] at h; exact h
    | panic p => rw [hm] at h; exact h
    | fuel => trivial

theorem cp.loop {step : σ → P (σ ⊕ β)} {a : σ} {Q : β → PState → Prop}
    (h : ∀ N, cp (P.loopN step N a) s Q) : cp (P.loop step a) s Q := h _

end P

/-! ### Reading known tokens -/

/-- May the token be found where no operator is expected (`op = false`), or where
one is? -/
def TokenData.inMode (op : Bool) : TokenData → Bool
  | .slash => op
  | .slashAssign => op
  | .regExp _ => !op
  | _ => true

/-- String tokens have their source, with its quotes. -/
def StrOk (t : Token) : Prop := ∀ lit, t.value = .string lit → ∃ x, lit.source = some x ∧
    (x.head? = some '"' ∨ x.head? = some '\'')

/-- The state fits the surroundings. -/
structure Fits (env : Scope) (s : PState) : Prop where
  strict : s.ctx.strict = .ofBool env.strict
  module : env.module = false → s.goal = .script
  function : s.ctx.function = env.function
  iteration : s.ctx.iteration = env.iteration
  switch : s.ctx.switch = env.switch
  allowIn : s.ctx.allowIn = env.allowIn
  labels : ∀ n b, (n, b) ∈ env.labels →
    s.ctx.labels.get n = some (if b then .iteration else .statement)

section Ahead

variable [Env] {S : Str} {s s1 s2 s' : PState} {t : Token} {ts : List Token} {env : Scope}

/-- The tokens `ts` are ahead. -/
structure Ahead (S : Str) (env : Scope) (s : PState) (ts : List Token) : Prop where
  rem : Rem S s ts
  str : ∀ t ∈ ts, StrOk t
  fits : Fits env s

omit [Env] in
theorem slash_punctuators : ∀ p ∈ punctuators, p.1.head? = some '/' →
    p.2 = .slash ∨ p.2 = .slashAssign := by decide +kernel

theorem Lex.Lexeme.inMode {op op' : Bool} {x y : Str} {v : TokenData} (h : Lexeme op x y v)
    (hv : v.inMode op' = true) : Lexeme op' x y v := by
  cases h with
  | eof => exact .eof
  | @punctuator x y v h1 h2 h3 h4 =>
    refine .punctuator h1 h2 (fun hx => ?_) h4
    rcases slash_punctuators _ h1 hx with rfl | rfl <;> exact hv
  | word h1 h2 h3 h4 => exact .word h1 h2 h3 h4
  | string h1 h2 => exact .string h1 h2
  | number h1 h2 h3 => exact .number h1 h2 h3
  | regexp h1 h2 h3 h4 =>
    refine .regexp ?_ h2 h3 h4
    cases op' with
    | false => rfl
    | true => cases hv

theorem Lex.TokenAt.inMode {op op' : Bool} {k k' : Nat} {e : Bool} (h : TokenAt S k e op t k')
    (hv : t.value.inMode op' = true) : TokenAt S k e op' t k' := by
  obtain ⟨w, x, y, e', a1, a2, a3, a4, a5⟩ := h
  exact ⟨w, x, y, e', a1, a2, a3, a4.inMode hv, a5⟩

/-- The state apart from the lexer. -/
def SameCtx (s s' : PState) : Prop := s'.goal = s.goal ∧ s'.ctx = s.ctx

theorem Fits.same (h : Fits env s) (hs : SameCtx s s') : Fits env s' := by
  obtain ⟨h1, h2⟩ := hs
  obtain ⟨a1, a2, a3, a4, a5, a6, a7⟩ := h
  exact ⟨by rw [h2, a1], fun h => by rw [h1, a2 h], by rw [h2, a3], by rw [h2, a4],
    by rw [h2, a5], by rw [h2, a6], by rw [h2]; exact a7⟩

/-- A change of the context. -/
theorem Ahead.change {env' : Scope} (h : Ahead S env s ts) (hl : s'.lexer = s.lexer)
    (hf : Fits env' s') : Ahead S env' s' ts :=
  ⟨(Rem.congr hl).2 h.rem, h.str, hf⟩

namespace P

variable [LawfulEnv] {α β : Type}

theorem cp.readMode {op : Bool} {Q : Token → PState → Prop} (h : Ahead S env s (t :: ts))
    (hv : t.value.inMode op = true ∨ s.la ≠ [])
    (hq : ∀ s', StrOk t → Ahead S env s' ts → Q t s') :
    cp (P.lex (Lexer.readToken op)) s Q := by
  obtain ⟨⟨k, e, ops, new, k', h1, h2, h3⟩, hs, hf⟩ := h
  unfold cp P.lex Lexer.readToken
  cases hla : s.la with
  | cons t' la =>
    rw [PState.la] at hla
    rw [PState.la, hla] at h3
    rw [hla]
    simp only [List.cons_append, List.cons.injEq] at h3
    obtain ⟨rfl, rfl⟩ := h3
    exact hq _ (hs _ (List.mem_cons_self ..))
      ⟨⟨k, e, ops, new, k', ⟨h1.rest, h1.posn, h1.empty⟩, h2, rfl⟩,
        fun t ht => hs t (List.mem_cons_of_mem _ ht), hf.same ⟨rfl, rfl⟩⟩
  | nil =>
    rw [PState.la] at hla
    rw [PState.la, hla, List.nil_append] at h3
    subst h3
    rw [hla]
    cases h2 with
    | @cons _ k1 _ _ op' ops _ _ a1 a2 =>
      have hv : t.value.inMode op = true := by
        rcases hv with hv | hv
        · exact hv
        · exact (hv hla).elim
      obtain ⟨l', b1, b2, b3⟩ := readNextToken_eval h1 (a1.inMode hv)
      simp only [b1]
      refine hq _ (hs _ (List.mem_cons_self ..))
        ⟨⟨k1, false, ops, ts, k', b2, a2, ?_⟩,
          fun t ht => hs t (List.mem_cons_of_mem _ ht), hf.same ⟨rfl, rfl⟩⟩
      simp only [PState.la, b3, hla, List.nil_append]

theorem cp.peekMode {op : Bool} {Q : Token → PState → Prop} (h : Ahead S env s (t :: ts))
    (hv : t.value.inMode op = true ∨ s.la ≠ [])
    (hq : ∀ s', s'.la ≠ [] → Ahead S env s' (t :: ts) → Q t s') :
    cp (P.lex (Lexer.peekToken op)) s Q := by
  obtain ⟨⟨k, e, ops, new, k', h1, h2, h3⟩, hs, hf⟩ := h
  unfold cp P.lex Lexer.peekToken
  cases hla : s.la with
  | cons t' la =>
    have hla' := hla
    rw [PState.la] at hla
    rw [PState.la, hla] at h3
    rw [hla]
    simp only [List.cons_append, List.cons.injEq] at h3
    obtain ⟨rfl, rfl⟩ := h3
    refine hq _ (by rw [PState.la, hla]; exact nofun) ⟨⟨k, e, ops, new, k', h1, h2, ?_⟩, hs, hf⟩
    rw [PState.la, hla, List.cons_append]
  | nil =>
    rw [PState.la] at hla
    rw [PState.la, hla, List.nil_append] at h3
    subst h3
    rw [hla]
    cases h2 with
    | @cons _ k1 _ _ op' ops _ _ a1 a2 =>
      have hv : t.value.inMode op = true := by
        rcases hv with hv | hv
        · exact hv
        · exact (hv hla).elim
      obtain ⟨l', b1, b2, b3⟩ := readNextToken_eval h1 (a1.inMode hv)
      simp only [b1, Res.bind]
      exact hq _ nofun
        ⟨⟨k1, false, ops, ts, k', ⟨b2.rest, b2.posn, b2.empty⟩, a2, rfl⟩, hs, hf.same ⟨rfl, rfl⟩⟩

theorem cp.read {Q : Token → PState → Prop} (h : Ahead S env s (t :: ts))
    (hv : t.value.inMode false = true ∨ s.la ≠ [])
    (hq : ∀ s', StrOk t → Ahead S env s' ts → Q t s') : cp P.read s Q := cp.readMode h hv hq

theorem cp.readOp {Q : Token → PState → Prop} (h : Ahead S env s (t :: ts))
    (hv : t.value.inMode true = true ∨ s.la ≠ [])
    (hq : ∀ s', StrOk t → Ahead S env s' ts → Q t s') : cp P.readOp s Q := cp.readMode h hv hq

theorem cp.peek {Q : Token → PState → Prop} (h : Ahead S env s (t :: ts))
    (hv : t.value.inMode false = true ∨ s.la ≠ [])
    (hq : ∀ s', s'.la ≠ [] → Ahead S env s' (t :: ts) → Q t s') : cp P.peek s Q :=
  cp.peekMode h hv hq

theorem cp.peekOp {Q : Token → PState → Prop} (h : Ahead S env s (t :: ts))
    (hv : t.value.inMode true = true ∨ s.la ≠ [])
    (hq : ∀ s', s'.la ≠ [] → Ahead S env s' (t :: ts) → Q t s') : cp P.peekOp s Q :=
  cp.peekMode h hv hq

theorem cp.unread {Q : Unit → PState → Prop} (h : Ahead S env s ts) (ht : StrOk t)
    (hq : ∀ s', s'.la ≠ [] → Ahead S env s' (t :: ts) → Q () s') : cp (P.unread t) s Q := by
  obtain ⟨⟨k, e, ops, new, k', h1, h2, h3⟩, hs, hf⟩ := h
  by_cases hl : s.lexer.lookahead.length < 2
  · have e1 : P.unread t s =
        .ok ((), { s with lexer := { s.lexer with lookahead := t :: s.lexer.lookahead } }) := by
      unfold P.unread P.lex Lexer.unreadToken
      rw [if_pos hl]
    unfold cp
    rw [e1]
    refine hq _ nofun ⟨⟨k, e, ops, new, k', ⟨h1.rest, h1.posn, h1.empty⟩, h2, ?_⟩, ?_,
      hf.same ⟨rfl, rfl⟩⟩
    · rw [h3]; rfl
    · intro t' ht'
      rcases List.mem_cons.1 ht' with rfl | ht'
      · exact ht
      · exact hs t' ht'
  · have e1 : P.unread t s = .panic .debugAssert := by
      unfold P.unread P.lex Lexer.unreadToken
      rw [if_neg hl]
    unfold cp
    rw [e1]
    exact ⟨nofun, nofun, nofun⟩

theorem cp.rereadToken {Q : Token → PState → Prop} (h : Ahead S env s (t :: ts))
    (hq : ∀ s', StrOk t → Ahead S env s' ts → Q t s') : cp P.rereadToken s Q := by
  by_cases hla : s.la = []
  · unfold cp P.rereadToken P.lex Lexer.rereadToken
    rw [PState.la] at hla
    rw [hla]
    exact ⟨nofun, nofun, nofun⟩
  · have h1 := cp.readMode (op := false) h (.inr hla) hq
    unfold cp P.lex Lexer.readToken at h1
    unfold cp P.rereadToken P.lex Lexer.rereadToken
    cases hl : s.la with
    | nil => exact (hla hl).elim
    | cons t' la =>
      rw [PState.la] at hl
      rw [hl] at h1 ⊢
      exact h1

theorem cp.reread {v : TokenData} {Q : Token → PState → Prop} (h : Ahead S env s (t :: ts))
    (hq : ∀ s', StrOk t → Ahead S env s' ts → Q t s') : cp (P.reread v) s Q := by
  unfold P.reread
  refine .bind ?_
  unfold cp P.lex Lexer.repeekToken
  cases hl : s.la with
  | nil =>
    rw [PState.la] at hl
    rw [hl]
    exact ⟨nofun, nofun, nofun⟩
  | cons t' la =>
    rw [PState.la] at hl
    rw [hl]
    show cp _ s Q
    split
    · exact ⟨nofun, nofun, nofun⟩
    · exact cp.rereadToken h hq

theorem eqv_true {v w : TokenData} (hp : P.plain w = true) : v.eqv w = true ↔ v = w :=
  eqv_iff hp

theorem cp.expect {v : TokenData} {Q : Token → PState → Prop} (h : Ahead S env s (t :: ts))
    (ht : t.value = v) (hq : ∀ s', Ahead S env s' ts → Q t s')
    (hp : P.plain v = true := by rfl) (hm : v.inMode false = true := by rfl) :
    cp (P.expect v) s Q := by
  unfold P.expect
  refine .bind (.read h (.inl (by rw [ht]; exact hm)) fun s' hs h' => ?_)
  rw [if_neg (by simp [(eqv_true hp).2 ht])]
  exact hq s' h'

theorem cp.matchesYes {v : TokenData} {Q : Bool → PState → Prop} (h : Ahead S env s (t :: ts))
    (ht : t.value = v) (hq : ∀ s', Ahead S env s' ts → Q true s')
    (hp : P.plain v = true := by rfl) (hm : v.inMode false = true := by rfl) :
    cp (P.matches v) s Q := by
  unfold P.matches
  refine .bind (.read h (.inl (by rw [ht]; exact hm)) fun s' hs h' => ?_)
  rw [if_neg (by simp [(eqv_true hp).2 ht])]
  exact hq s' h'

theorem cp.matchesNo {v : TokenData} {Q : Bool → PState → Prop} (h : Ahead S env s (t :: ts))
    (ht : t.value ≠ v) (hm : t.value.inMode false = true ∨ s.la ≠ [])
    (hq : ∀ s', s'.la ≠ [] → Ahead S env s' (t :: ts) → Q false s')
    (hp : P.plain v = true := by rfl) :
    cp (P.matches v) s Q := by
  unfold P.matches
  refine .bind (.read h hm fun s' hs h' => ?_)
  rw [if_pos (by simpa using fun hh => ht ((eqv_true hp).1 hh))]
  exact .bind (.unread h' hs fun s2 hl h2 => hq s2 hl h2)

theorem cp.matchesOpYes {v : TokenData} {Q : Bool → PState → Prop} (h : Ahead S env s (t :: ts))
    (ht : t.value = v) (hq : ∀ s', Ahead S env s' ts → Q true s')
    (hp : P.plain v = true := by rfl) (hm : v.inMode true = true := by rfl) :
    cp (P.matchesOp v) s Q := by
  unfold P.matchesOp
  refine .bind (.readOp h (.inl (by rw [ht]; exact hm)) fun s' hs h' => ?_)
  rw [if_neg (by simp [(eqv_true hp).2 ht])]
  exact hq s' h'

theorem cp.matchesOpNo {v : TokenData} {Q : Bool → PState → Prop} (h : Ahead S env s (t :: ts))
    (ht : t.value ≠ v) (hm : t.value.inMode true = true ∨ s.la ≠ [])
    (hq : ∀ s', s'.la ≠ [] → Ahead S env s' (t :: ts) → Q false s')
    (hp : P.plain v = true := by rfl) :
    cp (P.matchesOp v) s Q := by
  unfold P.matchesOp
  refine .bind (.readOp h hm fun s' hs h' => ?_)
  rw [if_pos (by simpa using fun hh => ht ((eqv_true hp).1 hh))]
  exact .bind (.unread h' hs fun s2 hl h2 => hq s2 hl h2)

theorem cp.span [Tracking α] {p : P α} {Q : α → PState → Prop}
    (h : cp p s (fun a s' => ∀ l, Q (Tracking.setLoc l a) s')) : cp (P.span p) s Q := by
  unfold P.span
  exact .posn_bind (.bind (h.mono fun a s' h => .posn_bind (h _)))

theorem cp.allowIn {p : P α} {b : Bool} {Q : α → PState → Prop} (h : Ahead S env s ts)
    (hp : ∀ s1, s1.la = s.la → Ahead S (env.withIn b) s1 ts →
      cp p s1 (fun a s' => ∃ ts', Ahead S (env.withIn b) s' ts' ∧
        ∀ s2, Ahead S env s2 ts' → Q a s2)) :
    cp (P.allowIn b p) s Q := by
  unfold P.allowIn
  refine .get_bind (.modify_bind (.bind ((hp _ ?_ (h.change ?_ ?_)).mono fun a s' h' => ?_)))
  · rfl
  · rfl
  · obtain ⟨a1, a2, a3, a4, a5, a6, a7⟩ := h.fits
    exact ⟨a1, a2, a3, a4, a5, rfl, a7⟩
  · obtain ⟨ts', h1, h2⟩ := h'
    refine .modify_bind (.pure (h2 _ (h1.change ?_ ?_)))
    · rfl
    · obtain ⟨a1, a2, a3, a4, a5, a6, a7⟩ := h1.fits
      exact ⟨a1, a2, a3, a4, a5, h.fits.allowIn, a7⟩

/-- Automatic semicolon insertion. -/
theorem cp.endWithAutoSemi [Tracking α] {cons : Semi → α} {nl : Newline} {start : Posn}
    {rest : List Token} {semi : Semi} {Q : α → PState → Prop}
    (h : Ahead S env s ts) (ht : Term (decide (nl = .optional)) ts rest semi)
    (hd : ts = rest → NoDivision rest)
    (hq : ∀ l semi s', Ahead S env s' rest → Q (Tracking.setLoc l (cons semi)) s') :
    cp (endWithAutoSemi start nl cons) s Q := by
  unfold P.endWithAutoSemi
  refine .posn_bind ?_
  cases ht with
  | @explicit t _ hv =>
    refine .bind (.peek h (.inl (by rw [hv]; rfl)) fun s1 _ h1 => ?_)
    rw [hv]
    exact .bind (.reread h1 fun s2 _ h2 => .posn_bind (hq _ _ _ h2))
  | @inserted t r hv hc =>
    have hm : t.value.inMode false = true := by
      obtain ⟨d1, d2⟩ := hd rfl t r rfl
      cases hh : t.value <;> simp_all [TokenData.inMode]
    refine .bind (.peek h (.inl hm) fun s1 _ h1 => ?_)
    split
    · rename_i hh; exact (hv hh).elim
    · exact hq _ _ _ h1
    · exact hq _ _ _ h1
    · rename_i e1 e2 e3
      rw [if_neg ?_]
      · exact hq _ _ _ h1
      · rcases hc with hc | hc | hc | hc
        · exact (e2 hc).elim
        · exact (e3 hc).elim
        · simp [hc]
        · have : nl = .optional := by simpa using hc
          simp [this]

/-- Strict mode checks. -/
theorem cp.strictCheckPure {c : Option Check} {Q : Unit → PState → Prop} (h : Ahead S env s ts)
    (h1 : env.strict = true → ∀ e, c ≠ some (.strict e))
    (h2 : env.module = true → ∀ e, c ≠ some (.module e))
    (hq : ∀ s', s'.la = s.la → Ahead S env s' ts → Q () s') :
    cp (strictCheck (Pure.pure c)) s Q := by
  have hsame : ∀ d, Ahead S env { s with deferred := d } ts := fun d =>
    h.change rfl (h.fits.same ⟨rfl, rfl⟩)
  unfold P.strictCheck
  refine .get_bind ?_
  split
  · rename_i hne
    refine .pure_bind ?_
    have hst : env.strict = true := by
      have := h.fits.strict
      cases he : env.strict with
      | true => rfl
      | false => rw [he] at this; exact (hne this).elim
    split
    · exact ((h1 hst _) rfl).elim
    · rename_i e
      split
      · rename_i hg
        have hm : env.module = false := by
          cases hm : env.module with
          | false => rfl
          | true => exact ((h2 hm e) rfl).elim
        rw [h.fits.module hm] at hg
        simp at hg
      · split
        · exact hq _ rfl (hsame _)
        · exact hq _ rfl h
    · exact hq _ rfl h
  · exact hq _ rfl h

theorem newIdCheck_sound (b : Bool) (name : Name) (l : Span) :
    ∃ c, newIdCheck b name l = Pure.pure c ∧
      (∀ e, c = some (.strict e) → (b = true ∧ (name = .atom .eval ∨ name = .atom .arguments)) ∨
        ∃ a ∈ strictReserved, name = .atom a) ∧
      (∀ e, c = some (.module e) → name = .atom .await) := by
  have key : ∀ a : Atom, ((Name.atom a).isIllegalStrictBinding = true → a = .eval ∨ a = .arguments) ∧
      ((Name.atom a).isStrictReserved = .yes → a ∈ strictReserved) ∧
      ((Name.atom a).isStrictReserved = .unknown → a = .await) := by
    intro a
    cases a <;> decide
  unfold newIdCheck
  cases name with
  | string x =>
    refine ⟨none, ?_, (by intro _ h; cases h), (by intro _ h; cases h)⟩
    simp [Name.isIllegalStrictBinding, Name.isStrictReserved]
  | atom a =>
    obtain ⟨k1, k2, k3⟩ := key a
    by_cases h1 : (b && (Name.atom a).isIllegalStrictBinding) = true
    · rw [if_pos h1]
      rw [Bool.and_eq_true] at h1
      refine ⟨_, rfl, fun e _ => .inl ⟨h1.1, ?_⟩, (by intro _ h; cases h)⟩
      rcases k1 h1.2 with rfl | rfl
      · exact .inl rfl
      · exact .inr rfl
    · rw [if_neg h1]
      by_cases h2 : (Name.atom a).isStrictReserved ≠ .no
      · rw [if_pos h2]
        refine ⟨_, rfl, ?_, ?_⟩
        · intro e he
          split at he
          · rename_i hy
            exact .inr ⟨a, k2 hy, rfl⟩
          · cases he
        · intro e he
          split at he
          · cases he
          · rename_i hy
            have : (Name.atom a).isStrictReserved = .unknown := by
              cases hh : (Name.atom a).isStrictReserved
              · exact (hy hh).elim
              · exact (h2 hh).elim
              · rfl
            rw [k3 this]
      · rw [if_neg h2]
        exact ⟨none, rfl, (by intro _ h; cases h), (by intro _ h; cases h)⟩

theorem cp.newId {b : Bool} {name : Name} {l : Span} {Q : Id → PState → Prop}
    (h : Ahead S env s ts) (hid : env.IdOk b name)
    (hq : ∀ s', s'.la = s.la → Ahead S env s' ts → Q ⟨some l, name⟩ s') :
    cp (newId b name l) s Q := by
  obtain ⟨c, hc, c1, c2⟩ := newIdCheck_sound b name l
  unfold P.newId
  rw [hc]
  refine .bind (.strictCheckPure h (fun hs e he => ?_) (fun hm e he => ?_) hq)
  · obtain ⟨i1, i2⟩ := hid.1 hs
    rcases c1 e he with ⟨hb, hn | hn⟩ | ⟨a, ha, hn⟩
    · exact (i2 hb).1 hn
    · exact (i2 hb).2 hn
    · exact i1 a ha hn
  · exact hid.2 hm (c2 e he)

end P

end Ahead

end Esprit
