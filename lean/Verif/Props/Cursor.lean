import Verif.Spec.Cursor
import Verif.Spec.Env

/-!
Push-back of tokens (C15).
-/

namespace Esprit

section Theorems

variable [Env]

theorem readNextToken_lookahead {l l' : Lexer} {op : Bool} {t : Token} (la : List Token)
    (h : l.readNextToken op = .ok (t, l')) :
    ({ l with lookahead := la } : Lexer).readNextToken op = .ok (t, { l' with lookahead := la }) ∧
      l'.lookahead = l.lookahead := by
  unfold Lexer.readNextToken at h ⊢
  simp only at h ⊢
  cases h1 : L.triviaLoop (l.reader.rest.length + 1) l.emptyLine false l.reader with
  | ok v =>
    rw [h1] at h
    simp only [Res.bind] at h ⊢
    cases h2 : L.readTokenBody op v.2 with
    | ok w => rw [h2] at h; cases h; exact ⟨rfl, rfl⟩
    | _ => rw [h2] at h; cases h
  | _ => rw [h1] at h; cases h

theorem readAll_append {ops : List Bool} {ts : List Token} {l l1 l2 : Lexer} {op : Bool} {t : Token}
    (h : l.readAll ops = .ok (ts, l1)) (h' : l1.readToken op = .ok (t, l2)) :
    l.readAll (ops ++ [op]) = .ok (ts ++ [t], l2) := by
  induction ops generalizing l ts with
  | nil =>
    cases h
    show (l1.readToken op).bind _ = _
    rw [h']; rfl
  | cons o ops ih =>
    unfold Lexer.readAll at h
    cases hm : l.readToken o with
    | ok v =>
      obtain ⟨u, l3⟩ := v
      rw [hm] at h
      simp only [Res.bind] at h
      cases hm2 : l3.readAll ops with
      | ok v2 =>
        obtain ⟨us, l4⟩ := v2
        rw [hm2] at h
        simp only [Res.ok.injEq, Prod.mk.injEq] at h
        obtain ⟨rfl, rfl⟩ := h
        have := ih hm2
        simp only [List.cons_append]
        unfold Lexer.readAll
        rw [hm]
        simp only [Res.bind]
        rw [this]
      | _ => rw [hm2] at h; cases h
    | _ => rw [hm] at h; cases h

/-- The tokens found so far: those read, then those buffered. -/
structure Buffered (s : Str) (modes : List Bool) (ts : List Token) (r : TokenRun) : Prop where
  tokens : readTokens s modes = .ok (ts, { r.lexer with lookahead := [] })
  split : ts = r.history.reverse ++ r.lexer.lookahead

theorem Buffered.next {s : Str} {modes : List Bool} {ts : List Token} {r : TokenRun}
    (h : Buffered s modes ts r) {op : Bool} {t : Token} {l : Lexer}
    (hr : r.lexer.readNextToken op = .ok (t, l)) :
    readTokens s (modes ++ [op]) = .ok (ts ++ [t], { l with lookahead := [] }) := by
  refine readAll_append h.tokens ?_
  show ({ r.lexer with lookahead := [] } : Lexer).readNextToken op = _
  exact (readNextToken_lookahead [] hr).1

theorem getElem?_history {r : TokenRun} {ts la : List Token} {t : Token}
    (h : ts = r.history.reverse ++ t :: la) : ts[r.history.length]? = some t := by
  subst h; simp

theorem step_buffered {s : Str} {modes : List Bool} {ts : List Token} {r r' : TokenRun}
    {o : TokenOp} {out : Option Token} (h : Buffered s modes ts r)
    (hr : o.run r = .ok (out, r')) :
    ∃ modes' ts', Buffered s (modes ++ modes') (ts ++ ts') r' ∧
      ∀ more, o.cursor (ts ++ ts' ++ more) r.history.length = (out, r'.history.length) := by
  have hsplit := h.split
  cases o with
  | read op =>
    simp only [TokenOp.run, Lexer.readToken] at hr
    cases hla : r.lexer.lookahead with
    | cons t la =>
      rw [hla] at hr hsplit
      cases hr
      refine ⟨[], [], ⟨by simpa using h.tokens, by simp [hsplit]⟩, fun more => ?_⟩
      simp only [TokenOp.cursor, List.append_nil, List.length_cons, Prod.mk.injEq, and_true]
      simp [hsplit]
    | nil =>
      rw [hla] at hr hsplit
      simp only at hr
      cases hn : r.lexer.readNextToken op with
      | ok v =>
        obtain ⟨t, l⟩ := v
        rw [hn] at hr
        cases hr
        have h2 := (readNextToken_lookahead [] hn).2
        refine ⟨[op], [t], ⟨h.next hn, ?_⟩, fun more => ?_⟩
        · simp [hsplit, h2, hla]
        · simp only [TokenOp.cursor, List.length_cons, Prod.mk.injEq, and_true]
          simp [hsplit]
      | _ => rw [hn] at hr; cases hr
  | peek op =>
    simp only [TokenOp.run, Lexer.peekToken] at hr
    cases hla : r.lexer.lookahead with
    | cons t la =>
      rw [hla] at hr hsplit
      cases hr
      refine ⟨[], [], ⟨by simpa using h.tokens, by simp [hsplit, hla]⟩, fun more => ?_⟩
      simp only [TokenOp.cursor, List.append_nil, Prod.mk.injEq, and_true]
      simp [hsplit]
    | nil =>
      rw [hla] at hr hsplit
      simp only at hr
      cases hn : r.lexer.readNextToken op with
      | ok v =>
        obtain ⟨t, l⟩ := v
        rw [hn] at hr
        cases hr
        have h3 := h.next hn
        refine ⟨[op], [t], ⟨h3, ?_⟩, fun more => ?_⟩
        · simp [hsplit]
        · simp only [TokenOp.cursor, Prod.mk.injEq, and_true]
          simp [hsplit]
      | _ => rw [hn] at hr; cases hr
  | reread =>
    simp only [TokenOp.run, Lexer.rereadToken] at hr
    cases hla : r.lexer.lookahead with
    | cons t la =>
      rw [hla] at hr hsplit
      cases hr
      refine ⟨[], [], ⟨by simpa using h.tokens, by simp [hsplit]⟩, fun more => ?_⟩
      simp only [TokenOp.cursor, List.append_nil, List.length_cons, Prod.mk.injEq, and_true]
      simp [hsplit]
    | nil => rw [hla] at hr; cases hr
  | repeek =>
    simp only [TokenOp.run, Lexer.repeekToken] at hr
    cases hla : r.lexer.lookahead with
    | cons t la =>
      rw [hla] at hr hsplit
      cases hr
      refine ⟨[], [], ⟨by simpa using h.tokens, by simp [hsplit, hla]⟩, fun more => ?_⟩
      simp only [TokenOp.cursor, List.append_nil, Prod.mk.injEq, and_true]
      simp [hsplit]
    | nil => rw [hla] at hr; cases hr
  | unread =>
    simp only [TokenOp.run, Lexer.unreadToken] at hr
    cases hh : r.history with
    | nil =>
      rw [hh] at hr
      cases hr
      refine ⟨[], [], ⟨by simpa using h.tokens, by simpa using h.split⟩, fun more => ?_⟩
      simp [TokenOp.cursor, hh]
    | cons t us =>
      rw [hh] at hr
      simp only at hr
      split at hr
      · cases hr
        refine ⟨[], [], ⟨by simpa using h.tokens, by simp [hsplit, hh]⟩, fun more => ?_⟩
        simp [TokenOp.cursor]
      · cases hr

theorem runAll_buffered {s : Str} {os : List TokenOp} : ∀ {modes : List Bool} {ts : List Token}
    {r r' : TokenRun} {outs : List (Option Token)}, Buffered s modes ts r →
    TokenOp.runAll os r = .ok (outs, r') →
    ∃ modes' ts', Buffered s (modes ++ modes') (ts ++ ts') r' ∧
      TokenOp.cursorAll (ts ++ ts') os r.history.length = (outs, r'.history.length) := by
  induction os with
  | nil =>
    intro modes ts r r' outs h hr
    cases hr
    exact ⟨[], [], by simpa using h, rfl⟩
  | cons o os ih =>
    intro modes ts r r' outs h hr
    unfold TokenOp.runAll at hr
    cases h1 : o.run r with
    | ok v =>
      obtain ⟨out, r1⟩ := v
      rw [h1] at hr
      simp only [Res.bind] at hr
      cases h2 : TokenOp.runAll os r1 with
      | ok v2 =>
        obtain ⟨outs2, r2⟩ := v2
        rw [h2] at hr
        cases hr
        obtain ⟨m1, t1, b1, c1⟩ := step_buffered h h1
        obtain ⟨m2, t2, b2, c2⟩ := ih b1 h2
        refine ⟨m1 ++ m2, t1 ++ t2, by simpa [List.append_assoc] using b2, ?_⟩
        unfold TokenOp.cursorAll
        rw [← List.append_assoc, c1 t2]
        simp only
        rw [c2]
      | _ => rw [h2] at hr; cases hr
    | _ => rw [h1] at hr; cases hr

/-- C15.  Whatever the sequence of reading, peeking and putting back, the tokens
returned are those of a cursor on one fixed sequence of tokens of the source,
each found once. -/
theorem C15_cursor (s : Str) (os : List TokenOp) (outs : List (Option Token)) (r : TokenRun)
    (h : TokenOp.runAll os ⟨Lexer.new s, []⟩ = .ok (outs, r)) :
    ∃ modes ts l, readTokens s modes = .ok (ts, l) ∧
      TokenOp.cursorAll ts os 0 = (outs, r.history.length) ∧
      ts = r.history.reverse ++ r.lexer.lookahead := by
  have h0 : Buffered s [] [] ⟨Lexer.new s, []⟩ := ⟨rfl, rfl⟩
  obtain ⟨m, ts, b, c⟩ := runAll_buffered h0 h
  simp only [List.nil_append] at b c
  exact ⟨m, ts, _, b.tokens, c, b.split⟩

theorem step_lookahead {o : TokenOp} {r r' : TokenRun} {out : Option Token}
    (h : r.lexer.lookahead.length ≤ 2) (hr : o.run r = .ok (out, r')) :
    r'.lexer.lookahead.length ≤ 2 := by
  cases o with
  | read op =>
    simp only [TokenOp.run, Lexer.readToken] at hr
    cases hla : r.lexer.lookahead with
    | cons t la =>
      rw [hla] at hr h
      cases hr
      simp only [List.length_cons] at h
      simp only
      omega
    | nil =>
      rw [hla] at hr
      simp only at hr
      cases hn : r.lexer.readNextToken op with
      | ok v =>
        obtain ⟨t, l⟩ := v
        rw [hn] at hr
        cases hr
        simp only
        rw [(readNextToken_lookahead [] hn).2, hla]
        simp
      | _ => rw [hn] at hr; cases hr
  | peek op =>
    simp only [TokenOp.run, Lexer.peekToken] at hr
    cases hla : r.lexer.lookahead with
    | cons t la =>
      rw [hla] at hr
      cases hr
      exact h
    | nil =>
      rw [hla] at hr
      simp only at hr
      cases hn : r.lexer.readNextToken op with
      | ok v => rw [hn] at hr; cases hr; simp
      | _ => rw [hn] at hr; cases hr
  | reread =>
    simp only [TokenOp.run, Lexer.rereadToken] at hr
    cases hla : r.lexer.lookahead with
    | cons t la =>
      rw [hla] at hr h
      cases hr
      simp only [List.length_cons] at h
      simp only
      omega
    | nil => rw [hla] at hr; cases hr
  | repeek =>
    simp only [TokenOp.run, Lexer.repeekToken] at hr
    cases hla : r.lexer.lookahead with
    | cons t la => rw [hla] at hr; cases hr; exact h
    | nil => rw [hla] at hr; cases hr
  | unread =>
    simp only [TokenOp.run, Lexer.unreadToken] at hr
    cases hh : r.history with
    | nil => rw [hh] at hr; cases hr; exact h
    | cons t us =>
      rw [hh] at hr
      simp only at hr
      split at hr
      · cases hr; simp only [List.length_cons]; omega
      · cases hr

/-- C15.  At most two tokens are buffered (otherwise the assertion of
`unread_token` fails, which never happens while parsing: C24). -/
theorem C15_lookahead (s : Str) (os : List TokenOp) (outs : List (Option Token)) (r : TokenRun)
    (h : TokenOp.runAll os ⟨Lexer.new s, []⟩ = .ok (outs, r)) : r.lexer.lookahead.length ≤ 2 := by
  have H : ∀ (os : List TokenOp) (r r' : TokenRun) (outs : List (Option Token)),
      r.lexer.lookahead.length ≤ 2 → TokenOp.runAll os r = .ok (outs, r') →
      r'.lexer.lookahead.length ≤ 2 := by
    intro os
    induction os with
    | nil => intro r r' outs h hr; cases hr; exact h
    | cons o os ih =>
      intro r r' outs h hr
      unfold TokenOp.runAll at hr
      cases h1 : o.run r with
      | ok v =>
        obtain ⟨out, r1⟩ := v
        rw [h1] at hr
        simp only [Res.bind] at hr
        cases h2 : TokenOp.runAll os r1 with
        | ok v2 =>
          obtain ⟨outs2, r2⟩ := v2
          rw [h2] at hr
          cases hr
          exact ih r1 _ _ (step_lookahead h h1) h2
        | _ => rw [h2] at hr; cases hr
      | _ => rw [h1] at hr; cases hr
  exact H os _ _ _ (Nat.zero_le _) h

/-- C15, the laws: reading after peeking in the same mode is reading; putting back
what was read and reading again, in whatever mode, changes nothing. -/
theorem C15_laws (l : Lexer) (op : Bool) (t : Token) :
    (∀ l1, l.peekToken op = .ok (t, l1) →
      ∃ l2, l.readToken op = .ok (t, l2) ∧ ∀ op', l1.readToken op' = .ok (t, l2)) ∧
    (∀ l1 l2, l.readToken op = .ok (t, l1) → l1.unreadToken t = .ok ((), l2) →
      ∀ op', l2.readToken op' = .ok (t, l1) ∧ l2.peekToken op' = .ok (t, l2)) := by
  constructor
  · intro l1 h
    unfold Lexer.peekToken at h
    cases hla : l.lookahead with
    | cons u la =>
      rw [hla] at h
      cases h
      refine ⟨_, by unfold Lexer.readToken; rw [hla], fun op' => by unfold Lexer.readToken; rw [hla]⟩
    | nil =>
      rw [hla] at h
      simp only at h
      cases hn : l.readNextToken op with
      | ok v =>
        obtain ⟨u, l2⟩ := v
        rw [hn] at h
        cases h
        have h2 := (readNextToken_lookahead [] hn).2
        refine ⟨l2, by unfold Lexer.readToken; rw [hla]; exact hn, fun op' => ?_⟩
        unfold Lexer.readToken
        simp only [Res.ok.injEq, Prod.mk.injEq, true_and]
        cases l2
        simp only [Lexer.mk.injEq, true_and, and_true]
        rw [hla] at h2
        exact h2.symm
      | _ => rw [hn] at h; cases h
  · intro l1 l2 h1 h2 op'
    unfold Lexer.unreadToken at h2
    split at h2
    · cases h2; exact ⟨rfl, rfl⟩
    · cases h2

end Theorems

section Examples

local instance cursorEnv : Env := asciiEnv true

/-- Peeking, reading, putting back two tokens and reading again succeeds; putting
back a third does not. -/
example : (match TokenOp.runAll [.peek false, .read false, .read true, .unread, .unread, .repeek,
      .reread, .read false, .read false] ⟨Lexer.new c!"a / b", []⟩ with
    | .ok (outs, r) => decide (outs.length = 9 ∧ r.history.length = 3)
    | _ => false) = true := by decide +kernel
example : (match TokenOp.runAll [.read false, .read true, .read false, .unread, .unread, .unread]
      ⟨Lexer.new c!"a / b", []⟩ with
    | .panic .debugAssert => true
    | _ => false) = true := by decide +kernel

end Examples

end Esprit
