import Verif.Proofs.LexToken
import Verif.Spec.Tokens

/-! Sequences of tokens. -/

namespace Esprit

open Lex ReaderSpec

/-- The lexer has consumed `k` characters of `s` and holds no lookahead. -/
structure Lexer.At (s : Str) (k : Nat) (e : Bool) (l : Lexer) : Prop where
  rest : l.reader.rest = s.drop k
  posn : PosnAt s k l.reader.posn
  empty : l.emptyLine = e

theorem Lexer.At.new (s : Str) : Lexer.At s 0 true (Lexer.new s) :=
  ⟨rfl, PosnAt.origin s, rfl⟩

variable [Env]

/-- Outcomes of reading one token. -/
def NextSpec (s : Str) (k : Nat) (e op : Bool) (l : Lexer) :
    Res LexError (Token × Lexer) → Prop
  | .ok (t, l') => ∃ k', TokenAt s k e op t k' ∧ l'.At s k' false ∧ l'.lookahead = l.lookahead
  | .err _ => True
  | .panic p => ∃ w z e', s.drop k = w ++ z ∧ Trivia e w z e' ∧ TokenPanic op z p
  | .fuel => False

theorem readNextToken_spec [LawfulEnv] {s : Str} {k : Nat} {e : Bool} {l : Lexer}
    (h : l.At s k e) (op : Bool) : NextSpec s k e op l (l.readNextToken op) := by
  unfold Lexer.readNextToken
  have h1 := L.triviaLoop_spec (l.reader.rest.length + 1) l.emptyLine false l.reader
    (Nat.lt_succ_self _)
  unfold L.Spec at h1
  cases hm : L.triviaLoop (l.reader.rest.length + 1) l.emptyLine false l.reader with
  | err e => exact trivial
  | panic p => rw [hm] at h1; exact h1.elim
  | fuel => rw [hm] at h1; exact h1.elim
  | ok v =>
    obtain ⟨⟨nl, e'⟩, r⟩ := v
    rw [hm] at h1
    obtain ⟨w, a1, a2, a3, a4⟩ := h1
    simp only at a1 a2 a3 a4
    rw [h.empty] at a2
    have b := a1.posnAt h.rest h.posn
    have hd : s.drop k = w ++ r.rest := by rw [← h.rest, a1.rest]
    simp only [Res.bind]
    have h2 := L.readTokenBody_spec op r
    unfold L.Spec at h2
    cases hb : L.readTokenBody op r with
    | err e => exact trivial
    | fuel => rw [hb] at h2; exact h2.elim
    | panic p =>
      rw [hb] at h2
      exact ⟨w, r.rest, e', hd, a2, h2⟩
    | ok v =>
      obtain ⟨t, r'⟩ := v
      rw [hb] at h2
      obtain ⟨x, c1, c2, c3⟩ := h2
      have d := c1.posnAt b.1 b.2
      refine ⟨k + w.length + x.length, ⟨w, x, r'.rest, e', ?_, ?_, ?_, c2, ?_, ?_, ?_, rfl⟩,
        ⟨d.1, d.2, rfl⟩, rfl⟩
      · rw [hd, c1.rest]
      · rw [← c1.rest]; exact a2
      · rw [← c1.rest]; exact a3
      · simpa using a4
      · rw [c3]; exact b.2
      · rw [c3]; exact d.2

theorem readNextToken_eval [LawfulEnv] {s : Str} {k k' : Nat} {e op : Bool} {l : Lexer} {t : Token}
    (h : l.At s k e) (ht : TokenAt s k e op t k') :
    ∃ l', l.readNextToken op = .ok (t, l') ∧ l'.At s k' false ∧ l'.lookahead = l.lookahead := by
  obtain ⟨w, x, y, e', a1, a2, a3, a4, a5, a6, a7, rfl⟩ := ht
  have hr : l.reader.rest = w ++ (x ++ y) := by rw [h.rest, a1]
  have hl : l.reader = ⟨w ++ (x ++ y), l.reader.posn⟩ := by
    cases hh : l.reader; simp_all
  have ht : L.triviaLoop (l.reader.rest.length + 1) l.emptyLine false l.reader =
      .ok ((hasNewline w, e'), ⟨x ++ y, pos l.reader.posn w (x ++ y)⟩) := by
    have := L.triviaLoop_eval (l.reader.rest.length + 1) l.emptyLine false e' w (x ++ y)
      l.reader.posn (by rw [hr]; exact Nat.lt_succ_self _) (by rw [h.empty]; exact a2) a3
    rw [hl]
    simpa [hr] using this
  have adv : Adv l.reader w ⟨x ++ y, pos l.reader.posn w (x ++ y)⟩ := ⟨hr, rfl⟩
  have b := adv.posnAt h.rest h.posn
  obtain ⟨r', c1, c2⟩ := L.readTokenBody_eval (r := ⟨x ++ y, pos l.reader.posn w (x ++ y)⟩) a4 rfl
  have d := c2.2.posnAt b.1 b.2
  have e1 := a6.unique b.2
  have e2 := a7.unique d.2
  refine ⟨{ l with reader := r', emptyLine := false }, ?_, ⟨d.1, d.2, rfl⟩, rfl⟩
  unfold Lexer.readNextToken
  rw [ht]
  simp only [Res.bind]
  rw [c2.1]
  simp only [Token.new] at e1 ⊢
  rw [← e1, ← e2, ← a5]

theorem readAll_sound [LawfulEnv] {s : Str} : ∀ {ops : List Bool} {k : Nat} {e : Bool} {l l' : Lexer}
    {ts : List Token}, l.At s k e → l.lookahead = [] → l.readAll ops = .ok (ts, l') →
    ∃ k', Tokens s k e ops ts k' ∧ l'.At s k' (if ops = [] then e else false) ∧ l'.lookahead = []
  | [], k, e, l, l', ts, h, hla, hr => by
    simp only [Lexer.readAll, Res.ok.injEq, Prod.mk.injEq] at hr
    obtain ⟨rfl, rfl⟩ := hr
    exact ⟨k, .nil, h, hla⟩
  | op :: ops, k, e, l, l', ts, h, hla, hr => by
    have h1 := readNextToken_spec h op
    unfold Lexer.readAll Lexer.readToken at hr
    rw [hla] at hr
    simp only at hr
    cases hm : l.readNextToken op with
    | err => rw [hm] at hr; simp [Res.bind] at hr
    | panic => rw [hm] at hr; simp [Res.bind] at hr
    | fuel => rw [hm] at hr; simp [Res.bind] at hr
    | ok v =>
      obtain ⟨t, l1⟩ := v
      rw [hm] at hr h1
      obtain ⟨k1, a1, a2, a3⟩ := h1
      simp only [Res.bind] at hr
      cases hm2 : l1.readAll ops with
      | err => rw [hm2] at hr; simp at hr
      | panic => rw [hm2] at hr; simp at hr
      | fuel => rw [hm2] at hr; simp at hr
      | ok v =>
        obtain ⟨ts1, l2⟩ := v
        rw [hm2] at hr
        simp only [Res.ok.injEq, Prod.mk.injEq] at hr
        obtain ⟨rfl, rfl⟩ := hr
        obtain ⟨k2, b1, b2, b3⟩ := readAll_sound a2 (by rw [a3, hla]) hm2
        refine ⟨k2, .cons a1 b1, ?_, b3⟩
        simpa using b2

theorem readAll_complete [LawfulEnv] {s : Str} {ops : List Bool} {k k' : Nat} {e : Bool}
    {ts : List Token} (ht : Tokens s k e ops ts k') : ∀ {l : Lexer}, l.At s k e →
    l.lookahead = [] → ∃ l', l.readAll ops = .ok (ts, l') := by
  induction ht with
  | nil => intro l h hla; exact ⟨l, rfl⟩
  | cons h1 h2 ih =>
    intro l h hla
    obtain ⟨l1, a1, a2, a3⟩ := readNextToken_eval h h1
    obtain ⟨l2, b1⟩ := ih a2 (by rw [a3, hla])
    refine ⟨l2, ?_⟩
    unfold Lexer.readAll Lexer.readToken
    rw [hla]
    simp only [a1, Res.bind, b1]


/-! ### Tokens by index -/

theorem Lex.TokenAt.end_offset {s : Str} {k k' : Nat} {e op : Bool} {t : Token}
    (h : TokenAt s k e op t k') : t.location.end.offset = k' := by
  obtain ⟨w, x, y, e', a1, a2, a3, a4, a5, a6, a7, rfl⟩ := h
  exact a7.offset

theorem Lex.Tokens.get {s : Str} {k k' : Nat} {e : Bool} {ops : List Bool} {ts : List Token}
    (h : Tokens s k e ops ts k') : ∀ {i : Nat} {t : Token}, ts[i]? = some t →
    ∃ op e1 k1, ops[i]? = some op ∧ TokenAt s k1 e1 op t t.location.end.offset ∧
      k1 = (match i with | 0 => k | i + 1 => prevEnd ts (i + 1)) ∧ (e1 = if i = 0 then e else false) := by
  induction h with
  | nil => intro i t h; simp at h
  | @cons k k1 k2 e op ops t ts h1 h2 ih =>
    intro i t' ht
    cases i with
    | zero =>
      simp only [List.getElem?_cons_zero, Option.some.injEq] at ht
      subst ht
      exact ⟨op, e, k, rfl, by rw [h1.end_offset]; exact h1, rfl, rfl⟩
    | succ i =>
      simp only [List.getElem?_cons_succ] at ht
      obtain ⟨op', e', k', a1, a2, a3, a4⟩ := ih ht
      refine ⟨op', false, k', by simpa using a1, ?_, ?_, rfl⟩
      · have : e' = false := by rw [a4]; split <;> rfl
        rw [← this]
        exact a2
      · rw [a3]
        cases i with
        | zero => simp [prevEnd, h1.end_offset]
        | succ j => simp [prevEnd]

theorem Lex.TokenAt.text {s : Str} {k k' : Nat} {e op : Bool} {t : Token}
    (h : TokenAt s k e op t k') :
    k ≤ t.location.start.offset ∧ t.location.start.offset ≤ t.location.end.offset ∧
    t.location.end.offset = k' ∧ k' ≤ max s.length k ∧
    (∃ e', Trivia e (slice s k t.location.start.offset) (s.drop t.location.start.offset) e' ∧
      NoTrivia e' (s.drop t.location.start.offset)) ∧
    Lexeme op (slice s t.location.start.offset t.location.end.offset)
      (s.drop t.location.end.offset) t.value ∧
    t.newline = hasNewline (slice s k t.location.start.offset) ∧
    PosnAt s t.location.start.offset t.location.start ∧
    PosnAt s t.location.end.offset t.location.end := by
  obtain ⟨w, x, y, e', a1, a2, a3, a4, a5, a6, a7, rfl⟩ := h
  have h1 := a6.offset
  have h2 := a7.offset
  rw [h1, h2]
  have d1 : s.drop (k + w.length) = x ++ y := by
    rw [← List.drop_drop, a1, List.drop_left]
  have d2 : s.drop (k + w.length + x.length) = y := by
    rw [← List.drop_drop, d1, List.drop_left]
  have s1 : slice s k (k + w.length) = w := by
    unfold slice; rw [a1, Nat.add_sub_cancel_left, List.take_left]
  have s2 : slice s (k + w.length) (k + w.length + x.length) = x := by
    unfold slice; rw [d1, Nat.add_sub_cancel_left, List.take_left]
  have hl := congrArg List.length a1
  simp only [List.length_drop, List.length_append] at hl
  refine ⟨by omega, by omega, rfl, ?_, ?_, ?_, ?_, a6, a7⟩
  · omega
  · rw [s1, d1]; exact ⟨e', a2, a3⟩
  · rw [s2, d2]; exact a4
  · rw [s1]; exact a5

theorem Lex.Lexeme.eof_iff {op : Bool} {x y : Str} {v : TokenData} (h : Lexeme op x y v) :
    (v = .eof ↔ x = []) ∧ (x = [] → y = []) := by
  cases h with
  | eof => simp
  | punctuator h1 h2 h3 h4 =>
    have : ∀ p ∈ punctuators, p.1 ≠ [] ∧ p.2 ≠ .eof := by decide +kernel
    have := this _ h1
    simp_all
  | word h1 h2 h3 h4 =>
    have : x ≠ [] := by
      obtain ⟨c, hc, _⟩ := h1
      rintro rfl
      simp at hc
    cases h4 <;> simp [this]
  | string => simp
  | number h1 h2 h3 =>
    have hne : spellNumber ‹_› ≠ [] := by
      cases h1 with
      | decimal g1 => simp [spellNumber, g1.1]
      | @hex cc => cases cc <;> simp [spellNumber]
      | @oct cc => cases cc <;> simp [spellNumber]
      | @bin cc => cases cc <;> simp [spellNumber]
      | legacyOctal g1 => obtain ⟨t, rfl, _⟩ := g1; simp [spellNumber]
      | point g1 => simp [spellNumber]
      | float g1 => simp [spellNumber]
    simp [hne]
  | regexp => simp

end Esprit
