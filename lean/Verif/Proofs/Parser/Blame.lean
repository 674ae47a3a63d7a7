import Verif.Spec.Blame
import Verif.Proofs.Parser.Sim

/-!
A calculus for the errors of the parser: `Blame S st mo Q p` says that the parser
function `p`, run on what is left of the source `S`, reports only errors that are
the fault of something in `S`, and that what it returns satisfies `Q`.
-/

set_option linter.unusedSectionVars false

namespace Esprit

open Lex ReaderSpec Grammar

variable [Env]

/-- The invariant of the parser state. -/
structure BInv (S : Str) (st mo : Bool) (s : PState) : Prop where
  lexer : ∃ ops ts, readTokens S ops = .ok (ts, { s.lexer with lookahead := [] })
  la : ∀ t ∈ s.la, TokenOf S t
  strict : st = false → s.ctx.strict = .no
  goal : mo = false → s.goal = .script
  checks : ∀ c ∈ s.deferred, ∀ m e, c.perform m = some e → e.Blames S st m

/-- What a panic says about the source. -/
def PanicOf (S : Str) (p : Panic) : Prop :=
  (∃ ops, readTokens S ops = .panic p) ∨
  (p = .unimplemented ∧ ∃ t, TokenOf S t ∧
    (t.value = .reserved .import ∨ t.value = .reserved .export)) ∨
  p ∉ [.readPastEnd, .overflow, .unimplemented]

/-- From the state `s`. -/
def BlameAt (S : Str) (st mo : Bool) {α : Type} (Q : α → PState → Prop) (p : P α) (s : PState) :
    Prop :=
  match p s with
  | .ok (a, t) => Q a t ∧ BInv S st mo t
  | .err e => e.Blames S st mo
  | .panic p => PanicOf S p
  | .fuel => True

/-- From every state. -/
def Blame (S : Str) (st mo : Bool) {α : Type} (Q : α → Prop) (p : P α) : Prop :=
  ∀ s, BInv S st mo s → BlameAt S st mo (fun a _ => Q a) p s

variable {S : Str} {st mo : Bool} {α β σ : Type} {Q : α → Prop} {Q' : β → Prop}

namespace Blame

open P

theorem bindAt {p : P α} {f : α → P β} {s : PState} {R : α → PState → Prop}
    {R' : β → PState → Prop} (h : BlameAt S st mo R p s)
    (hf : ∀ a t, R a t → BInv S st mo t → BlameAt S st mo R' (f a) t) :
    BlameAt S st mo R' (p >>= f) s := by
  show BlameAt S st mo R' (P.bind p f) s
  unfold BlameAt at h ⊢
  unfold P.bind
  cases hp : p s with
  | ok v => rw [hp] at h; exact hf _ _ h.1 h.2
  | err e => rw [hp] at h; exact h
  | panic q => rw [hp] at h; exact h
  | fuel => trivial

theorem bind {p : P α} {f : α → P β} (h : Blame S st mo Q p)
    (hf : ∀ a, Q a → Blame S st mo Q' (f a)) : Blame S st mo Q' (p >>= f) :=
  fun s hs => bindAt (h s hs) fun a t ha ht => hf a ha t ht

theorem mono {Q1 : α → Prop} {p : P α} (h : Blame S st mo Q p) (hq : ∀ a, Q a → Q1 a) :
    Blame S st mo Q1 p := by
  intro s hs
  have h := h s hs
  unfold BlameAt at h ⊢
  cases hp : p s with
  | ok v => rw [hp] at h; exact ⟨hq _ h.1, h.2⟩
  | err e => rw [hp] at h; exact h
  | panic q => rw [hp] at h; exact h
  | fuel => trivial

theorem toAt {p : P α} {R : α → PState → Prop} (h : Blame S st mo Q p) (hq : ∀ a, Q a → ∀ s, R a s)
    {s : PState} (hs : BInv S st mo s) : BlameAt S st mo R p s := by
  have h := h s hs
  unfold BlameAt at h ⊢
  cases hp : p s with
  | ok v => rw [hp] at h; exact ⟨hq _ h.1 _, h.2⟩
  | err e => rw [hp] at h; exact h
  | panic q => rw [hp] at h; exact h
  | fuel => trivial

theorem weak {p : P α} (h : Blame S st mo Q p) : Blame S st mo (fun _ => True) p :=
  h.mono fun _ _ => trivial

theorem pure {a : α} (h : Q a) : Blame S st mo Q (Pure.pure a : P α) := fun _ hs => ⟨h, hs⟩

theorem throw {e : PError} (h : e.Blames S st mo) : Blame S st mo Q (P.throw e : P α) :=
  fun _ _ => h

theorem panic {p : Panic} (h : p ∉ [Panic.readPastEnd, .overflow, .unimplemented] := by decide) :
    Blame S st mo Q (P.panic p : P α) := fun _ _ => .inr (.inr h)

theorem panicAt {t : Token} (ht : TokenOf S t)
    (h : t.value = .reserved .import ∨ t.value = .reserved .export) :
    Blame S st mo Q (P.panic .unimplemented : P α) := fun _ _ => .inr (.inl ⟨rfl, t, ht, h⟩)

theorem fuel : Blame S st mo Q (fun _ => .fuel : P α) := fun _ _ => trivial

theorem get {f : PState → P α} (h : ∀ s, BInv S st mo s → Blame S st mo Q (f s)) :
    Blame S st mo Q (P.get >>= f) := fun s hs => h s hs s hs

/-- A change of the context. -/
theorem modify {f : PState → PState} (hf : ∀ s, BInv S st mo s → (f s).goal = s.goal ∧
    (f s).deferred = s.deferred ∧ (f s).lexer = s.lexer ∧
    (st = false → (f s).ctx.strict = .no)) :
    Blame S st mo (fun _ => True) (P.modify f) := by
  intro s hs
  obtain ⟨h1, h2, h3, h4⟩ := hf s hs
  refine ⟨trivial, ?_, ?_, h4, ?_, ?_⟩
  · rw [h3]; exact hs.lexer
  · unfold PState.la; rw [h3]; exact hs.la
  · rw [h1]; exact hs.goal
  · rw [h2]; exact hs.checks

theorem loop {step : σ → P (σ ⊕ β)} {a : σ} (I : σ → Prop) (ha : I a)
    (h : ∀ a, I a → Blame S st mo (fun | .inl a => I a | .inr b => Q' b) (step a)) :
    Blame S st mo Q' (P.loop step a) := by
  have H : ∀ n a, I a → Blame S st mo Q' (fun s => P.loopN step n a s) := by
    intro n
    induction n with
    | zero => exact fun _ _ => fuel
    | succ n ih =>
      intro a ha
      have : (fun s => P.loopN step (n + 1) a s) =
          (step a >>= fun x => match x with
            | .inl a' => (fun s => P.loopN step n a' s)
            | .inr b => Pure.pure b) := by
        funext s
        show _ = P.bind _ _ _
        simp only [P.loopN]
        unfold P.bind
        cases step a s with
        | ok v =>
          obtain ⟨x, t⟩ := v
          cases x <;> rfl
        | err e => rfl
        | panic p => rfl
        | fuel => rfl
      rw [this]
      refine bind (h a ha) fun x hx => ?_
      cases x with
      | inl a' => exact ih a' hx
      | inr b => exact pure hx
  exact fun s hs => H _ a ha s hs

theorem loop' {step : σ → P (σ ⊕ β)} {a : σ}
    (h : ∀ a, Blame S st mo (fun _ => True) (step a)) :
    Blame S st mo (fun _ => True) (P.loop step a) :=
  loop (fun _ => True) trivial fun a _ => (h a).mono fun x _ => by cases x <;> trivial

end Blame

/-! ### Tokens and positions -/

section Tokens

variable [LawfulEnv]

theorem TokenOf.at {t : Token} (h : TokenOf S t) : ∃ k e op k', k ≤ S.length ∧ TokenAt S k e op t k' := by
  obtain ⟨ops, ts, l, h, ht⟩ := h
  obtain ⟨h, -⟩ := readTokens_at h
  have : ∀ {k e ops ts k'}, Tokens S k e ops ts k' → k ≤ S.length → t ∈ ts →
      ∃ k e op k', k ≤ S.length ∧ TokenAt S k e op t k' := by
    intro k e ops ts k' h hk ht
    induction h with
    | nil => cases ht
    | cons h1 h2 ih =>
      rcases List.mem_cons.1 ht with rfl | ht
      · exact ⟨_, _, _, _, hk, h1⟩
      · exact ih (Token.weight_lt h1 hk).2 ht
  exact this h (Nat.zero_le _) ht

theorem TokenOf.placed {t : Token} (h : TokenOf S t) : Placed S (some t.location) := by
  obtain ⟨k, e, op, k', hk, h⟩ := h.at
  obtain ⟨w1, w2⟩ := Token.weight_lt h hk
  obtain ⟨w, x, y, e', h1, h2, h3, h4, h5, h6, h7, rfl⟩ := h
  exact ⟨_, rfl, ⟨_, by omega, h6⟩, _, w2, h7⟩

theorem TokenOf.good {t : Token} (h : TokenOf S t) : Good t := by
  obtain ⟨k, e, op, k', -, h⟩ := h.at
  exact h.good

theorem Placed.span {l r : Loc} (hl : Placed S l) (hr : Placed S r) : Placed S (spanLoc l r) := by
  obtain ⟨a, rfl, h1, h2⟩ := hl
  obtain ⟨b, rfl, h3, h4⟩ := hr
  exact ⟨_, rfl, h1, h4⟩

/-- The position of the reader is one of the source. -/
theorem BInv.posn {s : PState} (h : BInv S st mo s) :
    ∃ k ≤ S.length, PosnAt S k s.lexer.reader.posn := by
  obtain ⟨ops, ts, h⟩ := h.lexer
  obtain ⟨h1, h2, -⟩ := readTokens_at h
  refine ⟨_, ?_, h2.posn⟩
  have : ∀ {k e ops ts k'}, Tokens S k e ops ts k' → k ≤ S.length → k' ≤ S.length := by
    intro k e ops ts k' h hk
    induction h with
    | nil => exact hk
    | cons h1 h2 ih => exact ih (Token.weight_lt h1 hk).2
  exact this h1 (Nat.zero_le _)

namespace Blame

open P

theorem posn : Blame S st mo (fun p => ∃ k ≤ S.length, PosnAt S k p) P.posn :=
  fun _ hs => ⟨hs.posn, hs⟩

/-- The next token of the source. -/
theorem nextToken {s : PState} (hs : BInv S st mo s) (hla : s.lexer.lookahead = []) (op : Bool) :
    match s.lexer.readNextToken op with
    | .ok (t, l) => TokenOf S t ∧ l.lookahead = [] ∧ ∃ ops ts, readTokens S ops = .ok (ts, l)
    | .err e => ∃ ops, readTokens S ops = .err e
    | .panic p => ∃ ops, readTokens S ops = .panic p
    | .fuel => True := by
  obtain ⟨ops, ts, h⟩ := hs.lexer
  have e : ({ s.lexer with lookahead := [] } : Lexer) = s.lexer := by rw [← hla]
  rw [e] at h
  have h2 := readTokens_snoc S ops op
  rw [h] at h2
  simp only [Res.bind] at h2
  unfold Lexer.readToken at h2
  rw [hla] at h2
  simp only at h2
  cases hn : s.lexer.readNextToken op with
  | ok v =>
    obtain ⟨t, l⟩ := v
    rw [hn] at h2
    simp only at h2 ⊢
    obtain ⟨-, -, h3, -⟩ := readTokens_at h2
    exact ⟨⟨_, _, _, h2, by simp⟩, h3, _, _, h2⟩
  | err e => rw [hn] at h2; exact ⟨_, h2⟩
  | panic p => rw [hn] at h2; exact ⟨_, h2⟩
  | fuel => trivial

/-- Replacing the lexer. -/
theorem setLexer {s : PState} (hs : BInv S st mo s) {l : Lexer}
    (hl : ∃ ops ts, readTokens S ops = .ok (ts, { l with lookahead := [] }))
    (hla : ∀ t ∈ l.lookahead, TokenOf S t) : BInv S st mo { s with lexer := l } :=
  ⟨hl, hla, hs.strict, hs.goal, hs.checks⟩

theorem keepLexer {s : PState} (hs : BInv S st mo s) {ts : List Token}
    (hla : ∀ t ∈ ts, TokenOf S t) :
    BInv S st mo { s with lexer := { s.lexer with lookahead := ts } } :=
  setLexer hs hs.lexer hla

theorem noLook {l : Lexer} (h : l.lookahead = []) : ({ l with lookahead := [] } : Lexer) = l := by
  rw [← h]

theorem readToken (op : Bool) : Blame S st mo (TokenOf S) (P.lex (Lexer.readToken op)) := by
  intro s hs
  unfold BlameAt P.lex Lexer.readToken
  cases hla : s.lexer.lookahead with
  | cons t ts =>
    have hl : ∀ t' ∈ t :: ts, TokenOf S t' := fun t' h => hs.la t' (by
      unfold PState.la; rw [hla]; exact h)
    exact ⟨hl t (by simp), keepLexer hs fun t' h => hl t' (by simp [h])⟩
  | nil =>
    have h := nextToken hs hla op
    simp only
    cases hn : s.lexer.readNextToken op with
    | ok v =>
      obtain ⟨t, l⟩ := v
      rw [hn] at h
      obtain ⟨h1, h2, h3⟩ := h
      exact ⟨h1, setLexer hs (by rw [noLook h2]; exact h3) (by rw [h2]; simp)⟩
    | err e => rw [hn] at h; exact h
    | panic p => rw [hn] at h; exact .inl h
    | fuel => trivial

theorem peekTokenAt (op : Bool) {s : PState} (hs : BInv S st mo s) :
    BlameAt S st mo (fun t s' => TokenOf S t ∧ ∃ tl, s'.la = t :: tl)
      (P.lex (Lexer.peekToken op)) s := by
  unfold BlameAt P.lex Lexer.peekToken
  cases hla : s.lexer.lookahead with
  | cons t ts => exact ⟨⟨hs.la t (by unfold PState.la; rw [hla]; simp), ts, hla⟩, hs⟩
  | nil =>
    have h := nextToken hs hla op
    simp only
    cases hn : s.lexer.readNextToken op with
    | ok v =>
      obtain ⟨t, l⟩ := v
      rw [hn] at h
      obtain ⟨h1, h2, h3⟩ := h
      refine ⟨⟨h1, [], rfl⟩, setLexer hs ?_ (by simpa using h1)⟩
      obtain ⟨ops, ts, h3⟩ := h3
      exact ⟨ops, ts, by rw [h3, ← noLook h2]⟩
    | err e => rw [hn] at h; exact h
    | panic p => rw [hn] at h; exact .inl h
    | fuel => trivial

theorem peekToken (op : Bool) : Blame S st mo (TokenOf S) (P.lex (Lexer.peekToken op)) := by
  intro s hs
  have h := peekTokenAt (S := S) op hs
  unfold BlameAt at h ⊢
  cases hp : P.lex (Lexer.peekToken op) s with
  | ok v => rw [hp] at h; exact ⟨h.1.1, h.2⟩
  | err e => rw [hp] at h; exact h
  | panic q => rw [hp] at h; exact h
  | fuel => trivial

theorem read : Blame S st mo (TokenOf S) P.read := readToken false
theorem readOp : Blame S st mo (TokenOf S) P.readOp := readToken true
theorem peek : Blame S st mo (TokenOf S) P.peek := peekToken false
theorem peekOp : Blame S st mo (TokenOf S) P.peekOp := peekToken true

/-- Reading the token that has been looked at. -/
theorem readAt {s : PState} (hs : BInv S st mo s) {t : Token} {tl : List Token}
    (hla : s.la = t :: tl) : BlameAt S st mo (fun t' _ => t' = t) P.read s := by
  unfold BlameAt P.read P.lex Lexer.readToken
  have hla : s.lexer.lookahead = t :: tl := hla
  simp only [hla]
  exact ⟨trivial, keepLexer hs fun t' h => hs.la t' (by unfold PState.la; rw [hla]; simp [h])⟩

/-- Looking again. -/
theorem peekAt {s : PState} (hs : BInv S st mo s) {t : Token} {tl : List Token}
    (hla : s.la = t :: tl) : BlameAt S st mo (fun t' s' => t' = t ∧ s' = s) P.peek s := by
  unfold BlameAt P.peek P.lex Lexer.peekToken
  have hla : s.lexer.lookahead = t :: tl := hla
  simp only [hla]
  exact ⟨⟨trivial, trivial⟩, hs⟩

theorem skip : Blame S st mo (fun _ => True) P.skip := by
  intro s hs
  have h := readToken (S := S) false s hs
  unfold BlameAt P.skip P.lex Lexer.skipToken at *
  cases hn : s.lexer.readToken false with
  | ok v => rw [hn] at h; exact ⟨trivial, h.2⟩
  | err e => rw [hn] at h; exact h
  | panic p => rw [hn] at h; exact h
  | fuel => trivial

theorem unread {t : Token} (ht : TokenOf S t) : Blame S st mo (fun _ => True) (P.unread t) := by
  intro s hs
  unfold BlameAt P.unread P.lex Lexer.unreadToken
  by_cases h : s.lexer.lookahead.length < 2
  · rw [if_pos h]
    exact ⟨trivial, keepLexer hs (List.forall_mem_cons.2 ⟨ht, hs.la⟩)⟩
  · rw [if_neg h]
    exact .inr (.inr (by decide))

theorem rereadToken : Blame S st mo (TokenOf S) P.rereadToken := by
  intro s hs
  unfold BlameAt P.rereadToken P.lex Lexer.rereadToken
  cases hla : s.lexer.lookahead with
  | cons t ts =>
    have hl : ∀ t' ∈ t :: ts, TokenOf S t' := fun t' h => hs.la t' (by
      unfold PState.la; rw [hla]; exact h)
    exact ⟨hl t (by simp), keepLexer hs fun t' h => hl t' (by simp [h])⟩
  | nil => exact .inr (.inr (by decide))

/-- Rereading a token, if it is the expected one. -/
theorem rereadData {v : TokenData} :
    Blame S st mo (fun t => TokenOf S t ∧ t.value.eqv v = true) (P.reread v) := by
  intro s hs
  show BlameAt _ _ _ _ (P.bind _ _) s
  unfold BlameAt P.bind P.lex Lexer.repeekToken
  cases hla : s.lexer.lookahead with
  | cons t ts =>
    have hl : ∀ t' ∈ t :: ts, TokenOf S t' := fun t' h => hs.la t' (by
      unfold PState.la; rw [hla]; exact h)
    simp only
    split
    · rename_i a s' h
      split at h
      · cases h
      · rename_i hv
        unfold P.rereadToken P.lex Lexer.rereadToken at h
        simp only [hla] at h
        cases h
        exact ⟨⟨hl t (by simp), by simpa using hv⟩, keepLexer hs fun t' h => hl t' (by simp [h])⟩
    · rename_i h
      split at h
      · cases h
      · unfold P.rereadToken P.lex Lexer.rereadToken at h
        simp only [hla] at h
        cases h
    · rename_i h
      split at h
      · cases h
        exact .inr (.inr (by decide))
      · unfold P.rereadToken P.lex Lexer.rereadToken at h
        simp only [hla] at h
        cases h
    · trivial
  | nil => exact .inr (.inr (by decide))

theorem throwToken {t : Token} (h : TokenOf S t) :
    Blame S st mo Q (P.throw (.unexpectedToken t) : P α) := throw h

/-- Registered facts. -/
syntax "bleaf" : tactic
macro_rules | `(tactic| bleaf) => `(tactic| fail)
macro_rules | `(tactic| bleaf) => `(tactic| with_reducible first
  | exact read | exact readOp | exact peek | exact peekOp | exact skip | exact rereadToken
  | exact (unread ‹TokenOf _ _›) | exact posn
  | exact pure trivial | exact panic | exact (throwToken ‹TokenOf _ _›))

/-- Combinators. -/
syntax "bcomb" : tactic
macro_rules | `(tactic| bcomb) => `(tactic| fail)

/-- Follow the structure of a parser function. -/
macro "blame" : tactic => `(tactic| repeat' first
  | bleaf
  | with_reducible exact weak (by bleaf)
  | (with_reducible refine get fun s _ => ?_)
  | (with_reducible refine bind (by first | bleaf | assumption) fun _ _ => ?_)
  | ((with_reducible refine modify (fun _ hs => ⟨?_, ?_, ?_, hs.strict⟩)) <;> rfl)
  | ((with_reducible refine bind (modify (fun _ hs => ⟨?_, ?_, ?_, hs.strict⟩)) fun _ _ => ?_)
     iterate 3 (focus rfl))
  | (with_reducible refine bind (Q := fun _ => True) ?_ fun _ _ => ?_)
  | bcomb
  | dsimp only
  | split
  | with_reducible assumption)

theorem expect {v : TokenData} : Blame S st mo (TokenOf S) (P.expect v) := by
  unfold P.expect
  blame
  exact pure ‹TokenOf _ _›

theorem reread {v : TokenData} : Blame S st mo (TokenOf S) (P.reread v) :=
  rereadData.mono fun _ h => h.1

theorem rereadReserved {w : Reserved} :
    Blame S st mo (fun t => TokenOf S t ∧ t.value = .reserved w) (P.reread (.reserved w)) :=
  rereadData.mono fun t h => ⟨h.1, by
    have h := h.2
    cases hv : t.value <;> rw [hv] at h <;> simp [TokenData.eqv] at h
    rw [h]⟩

theorem matchesToken {v : TokenData} :
    Blame S st mo (fun o => ∀ t, o = some t → TokenOf S t) (P.matchesToken v) := by
  unfold P.matchesToken
  refine bind read fun t ht => ?_
  split
  · exact bind (unread ht) fun _ _ => pure fun _ h => by cases h
  · exact pure fun _ h => by cases h; exact ht

theorem «matches» {v : TokenData} : Blame S st mo (fun _ => True) (P.«matches» v) := by
  unfold P.«matches»; blame

theorem matchesOp {v : TokenData} : Blame S st mo (fun _ => True) (P.matchesOp v) := by
  unfold P.matchesOp; blame

theorem unexpected : Blame S st mo Q (P.unexpected : P α) := by
  unfold P.unexpected; blame

macro_rules | `(tactic| bleaf) => `(tactic| with_reducible first
  | exact expect | exact reread | exact matchesToken | exact «matches» | exact matchesOp
  | exact unexpected)

theorem hasArgSameLine : Blame S st mo (fun _ => True) P.hasArgSameLine := by
  unfold P.hasArgSameLine; blame

/-- The location that `span` sets. -/
theorem spanQ [Tracking α] {p : P α} (h : Blame S st mo Q p)
    {Q' : α → Prop}
    (hq : ∀ a l, Q a → Placed S l → Q' (Tracking.setLoc l a)) :
    Blame S st mo Q' (P.span p) := by
  unfold P.span
  refine bind posn fun a ha => bind h fun x hx => bind posn fun b hb => pure ?_
  exact hq _ _ hx ⟨_, rfl, ha, hb⟩

theorem span [Tracking α] {p : P α} (h : Blame S st mo (fun _ => True) p) :
    Blame S st mo (fun _ => True) (P.span p) := by
  unfold P.span; blame

theorem vecSpan {c : Cat} (v : List (Ast c)) (hv : ∀ x ∈ v, Placed S x.loc) :
    Blame S st mo (Placed S) (P.vecSpan v) := by
  unfold P.vecSpan
  split
  · rename_i a b ha hb
    exact pure ((hv a (List.mem_of_head? ha)).span (hv b (List.mem_of_getLast? hb)))
  · exact bind posn fun p hp => pure ⟨_, rfl, hp, hp⟩

theorem endWithAutoSemi' [Tracking α] {start : Posn} {nl : Newline} {cons : Semi → α}
    (hs : ∃ k ≤ S.length, PosnAt S k start)
    (hq : ∀ l s, Placed S l → Q (Tracking.setLoc l (cons s))) :
    Blame S st mo Q (P.endWithAutoSemi start nl cons) := by
  unfold P.endWithAutoSemi
  refine bind posn fun b hb => ?_
  intro s hs'
  refine bindAt (peekTokenAt false hs') fun t s1 ht hs1 => ?_
  have fin : Placed S (some ⟨start, b⟩) := ⟨_, rfl, hs, hb⟩
  obtain ⟨ht, tl, hla⟩ := ht
  split
  · exact bind (reread) (fun _ _ => bind posn fun a ha => pure (hq _ _ ⟨_, rfl, hs, ha⟩)) s1 hs1
  · exact pure (hq _ _ fin) s1 hs1
  · exact pure (hq _ _ fin) s1 hs1
  · rename_i h1 h2 h3
    split
    · rename_i h4
      refine bindAt (readAt hs1 hla) fun t' s2 ht' hs2 => ?_
      subst ht'
      simp only [Bool.and_eq_true, Bool.not_eq_true'] at h4
      have : PError.Blames S st mo (.failedASI t') := ⟨ht, h4.2, by
        simp only [List.mem_cons, List.not_mem_nil, or_false, not_or]
        exact ⟨h1, h2, h3⟩⟩
      exact this
    · exact pure (hq _ _ fin) s1 hs1

theorem endWithAutoSemi [Tracking α] {start : Posn} {nl : Newline} {cons : Semi → α}
    (hs : ∃ k ≤ S.length, PosnAt S k start) :
    Blame S st mo (fun _ => True) (P.endWithAutoSemi start nl cons) :=
  endWithAutoSemi' hs fun _ _ _ => trivial

theorem allowIn {b : Bool} {p : P α} (h : Blame S st mo Q p) :
    Blame S st mo Q (P.allowIn b p) := by
  unfold P.allowIn
  refine get fun s hs => bind (modify fun _ hs => ⟨rfl, rfl, rfl, hs.strict⟩) fun _ _ => ?_
  refine bind h fun a ha => bind (modify fun _ hs => ⟨rfl, rfl, rfl, hs.strict⟩) fun _ _ => pure ha

theorem withLabels {ls : List Id} {ty : LabelType} {p : P Stmt}
    (h : Blame S st mo (fun _ => True) p) :
    Blame S st mo (fun _ => True) (P.withLabels ls ty p) := by
  unfold P.withLabels; blame

theorem strictCheck_eq (c : Option Check) (s : PState) : P.strictCheck (Pure.pure c) s =
    (show P Unit from if s.ctx.strict ≠ .no then
      match c with
      | some (.strict error) =>
        if s.ctx.strict = .yes && s.validate then P.throw error
        else P.modify fun s => { s with deferred := s.deferred ++ [.strict error] }
      | some (.module error) =>
        if s.goal = .module && s.validate then P.throw error
        else if s.goal ≠ .script then
          P.modify fun s => { s with deferred := s.deferred ++ [.module error] }
        else Pure.pure ()
      | none => Pure.pure ()
    else Pure.pure ()) s := by
  unfold P.strictCheck
  show P.bind _ _ _ = _
  unfold P.bind P.get
  simp only
  split
  · cases c with
    | none => rfl
    | some c => cases c <;> rfl
  · rfl

theorem strictCheck {c : Option Check}
    (h : st = true → ∀ c', c = some c' → ∀ m e, c'.perform m = some e → e.Blames S st m) :
    Blame S st mo (fun _ => True) (P.strictCheck (Pure.pure c)) := by
  intro s hs
  cases st with
  | false =>
    unfold P.strictCheck
    have := hs.strict rfl
    refine get (fun s' hs' => ?_) s hs
    rw [if_neg (by simp [hs'.strict rfl])]
    exact pure trivial
  | true =>
    have h := h rfl
    have addc : ∀ c', c = some c' →
        BInv S true mo { s with deferred := s.deferred ++ [c'] } := fun c' e' =>
      ⟨hs.lexer, hs.la, hs.strict, hs.goal, fun c2 h2 => by
        rcases List.mem_append.1 h2 with h2 | h2
        · exact hs.checks c2 h2
        · cases List.mem_singleton.1 h2; exact h c' e'⟩
    unfold BlameAt
    rw [strictCheck_eq]
    show BlameAt S true mo (fun _ _ => True) _ s
    split
    · cases c with
      | none => exact ⟨trivial, hs⟩
      | some c =>
        cases c with
        | strict e =>
          simp only
          split
          · exact h _ rfl _ e rfl
          · exact ⟨trivial, addc _ rfl⟩
        | module e =>
          simp only
          split
          · rename_i hg
            cases mo with
            | true => exact h _ rfl _ e rfl
            | false => simp [hs.goal rfl] at hg
          · split
            · exact ⟨trivial, addc _ rfl⟩
            · exact ⟨trivial, hs⟩
    · exact ⟨trivial, hs⟩

macro_rules | `(tactic| bleaf) => `(tactic| with_reducible first
  | exact hasArgSameLine | exact endWithAutoSemi ‹_›)
macro_rules | `(tactic| bcomb) => `(tactic| with_reducible first
  | refine span ?_ | refine allowIn ?_ | refine withLabels ?_ | refine loop' fun _ => ?_)

end Blame

end Tokens

end Esprit
