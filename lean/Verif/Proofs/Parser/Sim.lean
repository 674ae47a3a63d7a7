import Verif.Proofs.Parser.Wp

/-!
Runs of the parser in different modes.  The parser behind `program` collects in
a list the checks that `script` skips, and that `strict` and `module` perform at
once.  `Sim` relates the run in `program` mode to the run in another mode.
-/

set_option linter.unusedSectionVars false

namespace Esprit

open Lex ReaderSpec Grammar

/-- The modes in which the checks are not deferred. -/
inductive Mode where
  | script | strict | module
  deriving DecidableEq

/-- The goal of the parser. -/
def Mode.goal : Mode → Goal
  | .module => .module
  | _ => .script

/-- The strictness of the context. -/
def Mode.tri : Mode → TriState
  | .script => .no
  | _ => .yes

/-- The first of the checks that fails in the mode. -/
def Mode.fails : Mode → List Check → Option PError
  | .script, _ => none
  | .strict, cs => P.firstFailing false cs
  | .module, cs => P.firstFailing true cs

theorem Mode.fails_nil (m : Mode) : m.fails [] = none := by cases m <;> rfl

theorem Mode.fails_append (m : Mode) (cs ds : List Check) :
    m.fails (cs ++ ds) = (m.fails cs).or (m.fails ds) := by
  cases m <;> simp [Mode.fails, P.firstFailing, List.findSome?_append]

theorem Mode.fails_ne {m : Mode} {cs : List Check} {e : PError} (h : m.fails cs = some e) :
    m ≠ .script := by
  rintro rfl; cases h

/-- The state of the run in the mode that corresponds to a state of the run in
`program` mode. -/
def Mode.of (m : Mode) (s : PState) : PState :=
  { goal := m.goal, validate := true, deferred := [], lexer := s.lexer,
    ctx := { s.ctx with strict := m.tri } }

/-- String literals are tokens with a quote. -/
def Good (t : Token) : Prop := ∀ lit, t.value = .string lit → ∃ x, lit.source = some x ∧
  (x.head? = some '"' ∨ x.head? = some '\'')

variable [Env]

/-- The states of a run in `program` mode. -/
structure Prog (S : Str) (s : PState) : Prop where
  goal : s.goal = .unknown
  validate : s.validate = true
  strict : s.ctx.strict = .unknown
  at_ : ∃ k e, s.lexer.At S k e
  tok : ∀ t ∈ s.la, Good t

/-- The result `x` in `program` mode, starting at `s`, and `x'` in mode `m`. -/
def SimRes (S : Str) (m : Mode) {α : Type} (Q : α → Prop) (s : PState)
    (x x' : Res PError (α × PState)) : Prop :=
  match x with
  | .ok (a, t) => Q a ∧ Prog S t ∧ ∃ new, t.deferred = s.deferred ++ new ∧
      match m.fails new with
      | none => x' = .ok (a, m.of t)
      | some e => x' = .err e
  | .err e => ∃ e', x' = .err e' ∧ (m = .script → e' = e)
  | .panic p => x' = .panic p ∨ m ≠ .script ∧ ∃ e', x' = .err e'
  | .fuel => x' = .fuel ∨ m ≠ .script ∧ ∃ e', x' = .err e'

/-- The parser function `p` in `program` mode behaves like `p'` in mode `m`, up
to the checks. -/
def Sim2 (S : Str) (m : Mode) {α : Type} (Q : α → Prop) (p p' : P α) : Prop :=
  ∀ s, Prog S s → SimRes S m Q s (p s) (p' (m.of s))

/-- The parser function `p` behaves alike in `program` mode and in mode `m`, up
to the checks. -/
def Sim (S : Str) (m : Mode) {α : Type} (Q : α → Prop) (p : P α) : Prop :=
  ∀ s, Prog S s → SimRes S m Q s (p s) (p (m.of s))

variable {S : Str} {m : Mode} {α β σ : Type} {Q : α → Prop} {Q' : β → Prop}

theorem SimRes.eq {s t : PState} {a : α} {x' : Res PError (α × PState)} (hq : Q a)
    (ht : Prog S t) (hd : t.deferred = s.deferred) (hx : x' = .ok (a, m.of t)) :
    SimRes S m Q s (.ok (a, t)) x' :=
  ⟨hq, ht, [], by rw [hd, List.append_nil], by rw [m.fails_nil]; exact hx⟩

namespace Sim

open P

theorem bind2 {p p' : P α} {f f' : α → P β} (h : Sim2 S m Q p p')
    (hf : ∀ a, Q a → Sim2 S m Q' (f a) (f' a)) : Sim2 S m Q' (p >>= f) (p' >>= f') := by
  intro s hs
  have h1 := h s hs
  show SimRes S m Q' s (P.bind p f s) (P.bind p' f' (m.of s))
  unfold P.bind
  cases hp : p s with
  | ok v =>
    obtain ⟨a, t⟩ := v
    rw [hp] at h1
    obtain ⟨hq, ht, new, hn, h1⟩ := h1
    have h2 := hf a hq t ht
    cases hm : m.fails new with
    | none =>
      rw [hm] at h1
      simp only at h1 ⊢
      rw [h1]
      simp only
      unfold SimRes at h2 ⊢
      cases hx : f a t with
      | ok w =>
        obtain ⟨b, u⟩ := w
        rw [hx] at h2
        obtain ⟨hq', hu, new', hn', h2⟩ := h2
        refine ⟨hq', hu, new ++ new', by rw [hn', hn, List.append_assoc], ?_⟩
        rw [m.fails_append, hm]
        exact h2
      | err e => rw [hx] at h2; exact h2
      | panic q => rw [hx] at h2; exact h2
      | fuel => rw [hx] at h2; exact h2
    | some e =>
      rw [hm] at h1
      simp only at h1 ⊢
      rw [h1]
      simp only
      have hne := m.fails_ne hm
      unfold SimRes at h2 ⊢
      cases hx : f a t with
      | ok w =>
        obtain ⟨b, u⟩ := w
        rw [hx] at h2
        obtain ⟨hq', hu, new', hn', h2⟩ := h2
        refine ⟨hq', hu, new ++ new', by rw [hn', hn, List.append_assoc], ?_⟩
        rw [m.fails_append, hm]
        rfl
      | err e => exact ⟨_, rfl, fun h => (hne h).elim⟩
      | panic q => exact .inr ⟨hne, _, rfl⟩
      | fuel => exact .inr ⟨hne, _, rfl⟩
  | err e =>
    rw [hp] at h1
    obtain ⟨e', h1, h2⟩ := h1
    rw [h1]
    exact ⟨e', rfl, h2⟩
  | panic q =>
    rw [hp] at h1
    rcases h1 with h1 | ⟨hm, e', h1⟩
    · rw [h1]; exact .inl rfl
    · rw [h1]; exact .inr ⟨hm, e', rfl⟩
  | fuel =>
    rw [hp] at h1
    rcases h1 with h1 | ⟨hm, e', h1⟩
    · rw [h1]; exact .inl rfl
    · rw [h1]; exact .inr ⟨hm, e', rfl⟩

theorem bind {p : P α} {f : α → P β} (h : Sim S m Q p) (hf : ∀ a, Q a → Sim S m Q' (f a)) :
    Sim S m Q' (p >>= f) := bind2 h hf

theorem mono {Q1 : α → Prop} {p : P α} (h : Sim S m Q p) (hq : ∀ a, Q a → Q1 a) : Sim S m Q1 p := by
  intro s hs
  have h1 := h s hs
  unfold SimRes at h1 ⊢
  cases hp : p s with
  | ok v => rw [hp] at h1; exact ⟨hq _ h1.1, h1.2⟩
  | err e => rw [hp] at h1; exact h1
  | panic q => rw [hp] at h1; exact h1
  | fuel => rw [hp] at h1; exact h1

theorem weak {p : P α} (h : Sim S m Q p) : Sim S m (fun _ => True) p := h.mono fun _ _ => trivial

theorem pure {a : α} (h : Q a) : Sim S m Q (Pure.pure a : P α) :=
  fun s hs => SimRes.eq (s := s) h hs rfl rfl

theorem throw {e : PError} : Sim S m Q (P.throw e : P α) := fun _ _ => ⟨e, rfl, fun _ => rfl⟩

theorem panic {p : Panic} : Sim S m Q (P.panic p : P α) := fun _ _ => .inl rfl

theorem fuel : Sim S m Q (fun _ => .fuel : P α) := fun _ _ => .inl rfl

/-- Reading the state, of which only the parts common to the modes are used. -/
theorem get {f : PState → P α} (hf : ∀ s, f (m.of s) = f s) (h : ∀ s, Sim S m Q (f s)) :
    Sim S m Q (P.get >>= f) := by
  intro s hs
  show SimRes S m Q s (f s s) (f (m.of s) (m.of s))
  rw [hf]
  exact h s s hs

theorem modify {f : PState → PState} (hm : ∀ s, f (m.of s) = m.of (f s))
    (hf : ∀ s, (f s).goal = s.goal ∧ (f s).validate = s.validate ∧ (f s).deferred = s.deferred ∧
      (f s).lexer = s.lexer ∧ (f s).ctx.strict = s.ctx.strict) :
    Sim S m (fun _ => True) (P.modify f) := by
  intro s hs
  obtain ⟨h1, h2, h3, h4, h5⟩ := hf s
  refine SimRes.eq trivial ⟨?_, ?_, ?_, ?_, ?_⟩ h3 (by show _ = _; unfold P.modify; rw [hm])
  · rw [h1, hs.goal]
  · rw [h2, hs.validate]
  · rw [h5, hs.strict]
  · rw [h4]; exact hs.at_
  · unfold PState.la; rw [h4]; exact hs.tok

theorem posn : Sim S m (fun _ => True) P.posn := fun s hs => SimRes.eq (s := s) trivial hs rfl rfl

/-- A call of the lexer. -/
theorem lex {f : Lexer → Res LexError (α × Lexer)}
    (h : ∀ l, (∃ k e, l.At S k e) → (∀ t ∈ l.lookahead, Good t) → ∀ a l', f l = .ok (a, l') →
      Q a ∧ (∃ k e, l'.At S k e) ∧ ∀ t ∈ l'.lookahead, Good t) : Sim S m Q (P.lex f) := by
  intro s hs
  unfold P.lex
  have e : (m.of s).lexer = s.lexer := rfl
  simp only [e]
  cases hf : f s.lexer with
  | ok v =>
    obtain ⟨a, l⟩ := v
    obtain ⟨h1, h2, h3⟩ := h s.lexer hs.at_ hs.tok a l hf
    exact SimRes.eq (t := { s with lexer := l }) h1
      ⟨hs.goal, hs.validate, hs.strict, h2, h3⟩ rfl rfl
  | err e => exact ⟨_, rfl, fun _ => rfl⟩
  | panic p => exact .inl rfl
  | fuel => exact .inl rfl

theorem loop {step : σ → P (σ ⊕ β)} {a : σ} (I : σ → Prop) (ha : I a)
    (h : ∀ a, I a → Sim S m (fun | .inl a => I a | .inr b => Q' b) (step a)) :
    Sim S m Q' (P.loop step a) := by
  have H : ∀ n a, I a → Sim S m Q' (fun s => P.loopN step n a s) := by
    intro n
    induction n with
    | zero => exact fun _ _ => fuel
    | succ n ih =>
      intro a ha
      have : (fun s => P.loopN step (n + 1) a s) =
          (step a >>= fun x => match x with
            | .inl a' => (fun s => P.loopN step n a' s)
            | .inr b => Pure.pure b) := by
        funext s
        show _ = P.bind _ _ _
        simp only [P.loopN]
        unfold P.bind
        cases step a s with
        | ok v =>
          obtain ⟨x, t⟩ := v
          cases x <;> rfl
        | err e => rfl
        | panic p => rfl
        | fuel => rfl
      rw [this]
      refine bind (h a ha) fun x hx => ?_
      cases x with
      | inl a' => exact ih a' hx
      | inr b => exact pure hx
  exact fun s hs => H _ a ha s hs

theorem loop' {step : σ → P (σ ⊕ β)} {a : σ}
    (h : ∀ a, Sim S m (fun _ => True) (step a)) : Sim S m (fun _ => True) (P.loop step a) :=
  loop (fun _ => True) trivial fun a _ => (h a).mono fun x _ => by cases x <;> trivial

end Sim

variable [LawfulEnv]

theorem Lex.TokenAt.good {k k' : Nat} {e op : Bool} {t : Token} (h : TokenAt S k e op t k') :
    Good t := by
  obtain ⟨w, x, y, e', -, -, -, hx, -⟩ := h
  intro lit hl
  rw [hl] at hx
  cases hx with
  | punctuator h => exact absurd h (by simp [punctuators])
  | word _ _ _ h => cases h
  | string hq _ => exact ⟨_, rfl, by simpa using hq⟩

namespace Sim

open P

theorem nextToken {op : Bool} {l l' : Lexer} {t : Token} (h : ∃ k e, l.At S k e)
    (ht : l.readNextToken op = .ok (t, l')) :
    Good t ∧ (∃ k e, l'.At S k e) ∧ l'.lookahead = l.lookahead := by
  obtain ⟨k, e, h⟩ := h
  have := readNextToken_spec h op
  rw [ht] at this
  obtain ⟨k', h1, h2, h3⟩ := this
  exact ⟨h1.good, ⟨_, _, h2⟩, h3⟩

theorem readToken (op : Bool) : Sim S m Good (P.lex (Lexer.readToken op)) := by
  refine lex fun l h1 h2 a l' h => ?_
  unfold Lexer.readToken at h
  split at h
  · rename_i t ts hl
    rw [hl] at h2
    cases h
    obtain ⟨k, e, h1⟩ := h1
    exact ⟨h2 _ (by simp), ⟨k, e, ⟨h1.rest, h1.posn, h1.empty⟩⟩, fun t ht => h2 t (by simp [ht])⟩
  · rename_i hl
    obtain ⟨h3, h4, h5⟩ := nextToken h1 h
    exact ⟨h3, h4, by rw [h5, hl]; simp⟩

theorem peekToken (op : Bool) : Sim S m Good (P.lex (Lexer.peekToken op)) := by
  refine lex fun l h1 h2 a l' h => ?_
  unfold Lexer.peekToken at h
  split at h
  · rename_i t ts hl
    cases h
    exact ⟨h2 _ (by simp [hl]), h1, h2⟩
  · rename_i hl
    cases hn : l.readNextToken op with
    | ok v =>
      obtain ⟨t, l1⟩ := v
      rw [hn] at h
      cases h
      obtain ⟨h3, ⟨k, e, h4⟩, h5⟩ := nextToken h1 hn
      exact ⟨h3, ⟨k, e, ⟨h4.rest, h4.posn, h4.empty⟩⟩, by simpa using h3⟩
    | err e => rw [hn] at h; cases h
    | panic p => rw [hn] at h; cases h
    | fuel => rw [hn] at h; cases h

theorem read : Sim S m Good P.read := readToken false
theorem readOp : Sim S m Good P.readOp := readToken true
theorem peek : Sim S m Good P.peek := peekToken false
theorem peekOp : Sim S m Good P.peekOp := peekToken true

theorem skip : Sim S m (fun _ => True) P.skip := by
  refine lex fun l h1 h2 a l' h => ?_
  unfold Lexer.skipToken Lexer.readToken at h
  split at h
  · rename_i t ts hl
    rw [hl] at h2
    cases h
    obtain ⟨k, e, h1⟩ := h1
    exact ⟨trivial, ⟨k, e, ⟨h1.rest, h1.posn, h1.empty⟩⟩, fun t ht => h2 t (by simp [ht])⟩
  · rename_i hl
    cases hn : l.readNextToken false with
    | ok v =>
      obtain ⟨t, l1⟩ := v
      rw [hn] at h
      cases h
      obtain ⟨h3, h4, h5⟩ := nextToken h1 hn
      exact ⟨trivial, h4, by rw [h5, hl]; simp⟩
    | err e => rw [hn] at h; cases h
    | panic p => rw [hn] at h; cases h
    | fuel => rw [hn] at h; cases h

theorem unread {t : Token} (ht : Good t) : Sim S m (fun _ => True) (P.unread t) := by
  refine lex fun l h1 h2 a l' h => ?_
  unfold Lexer.unreadToken at h
  split at h
  · cases h
    obtain ⟨k, e, h1⟩ := h1
    exact ⟨trivial, ⟨k, e, ⟨h1.rest, h1.posn, h1.empty⟩⟩, List.forall_mem_cons.2 ⟨ht, h2⟩⟩
  · cases h

theorem rereadToken : Sim S m Good P.rereadToken := by
  refine lex fun l h1 h2 a l' h => ?_
  unfold Lexer.rereadToken at h
  split at h
  · rename_i t ts hl
    rw [hl] at h2
    cases h
    obtain ⟨k, e, h1⟩ := h1
    exact ⟨h2 _ (by simp), ⟨k, e, ⟨h1.rest, h1.posn, h1.empty⟩⟩, fun t ht => h2 t (by simp [ht])⟩
  · cases h

theorem repeekToken : Sim S m Good (P.lex Lexer.repeekToken) := by
  refine lex fun l h1 h2 a l' h => ?_
  unfold Lexer.repeekToken at h
  split at h
  · rename_i t ts hl
    cases h
    exact ⟨h2 _ (by simp [hl]), h1, h2⟩
  · cases h

/-- Registered facts. -/
syntax "simleaf" : tactic
macro_rules | `(tactic| simleaf) => `(tactic| fail)
macro_rules | `(tactic| simleaf) => `(tactic| with_reducible first
  | exact read | exact readOp | exact peek | exact peekOp | exact skip | exact rereadToken
  | exact repeekToken | exact (unread ‹Good _›) | exact posn
  | exact pure trivial | exact throw | exact panic)

/-- Combinators. -/
syntax "simcomb" : tactic
macro_rules | `(tactic| simcomb) => `(tactic| fail)

/-- Follow the structure of a parser function. -/
macro "sim" : tactic => `(tactic| repeat' first
  | simleaf
  | with_reducible exact weak (by simleaf)
  | ((with_reducible refine get (fun _ => ?_) fun s => ?_); (focus rfl))
  | (with_reducible refine bind (by first | simleaf | assumption) fun _ _ => ?_)
  | ((with_reducible refine modify (fun _ => ?_) fun _ => ⟨?_, ?_, ?_, ?_, ?_⟩) <;> rfl)
  | ((with_reducible refine bind (modify (fun _ => ?_) fun _ => ⟨?_, ?_, ?_, ?_, ?_⟩) fun _ _ => ?_)
     iterate 6 (focus rfl))
  | (with_reducible refine bind (Q := fun _ => True) ?_ fun _ _ => ?_)
  | simcomb
  | dsimp only
  | split
  | with_reducible assumption)

theorem expect {v : TokenData} : Sim S m Good (P.expect v) := by
  unfold P.expect
  sim
  exact pure ‹_›

theorem reread {v : TokenData} : Sim S m Good (P.reread v) := by
  unfold P.reread
  sim

theorem matchesToken {v : TokenData} : Sim S m (fun _ => True) (P.matchesToken v) := by
  unfold P.matchesToken; sim

theorem «matches» {v : TokenData} : Sim S m (fun _ => True) (P.«matches» v) := by
  unfold P.«matches»; sim

theorem matchesOp {v : TokenData} : Sim S m (fun _ => True) (P.matchesOp v) := by
  unfold P.matchesOp; sim

theorem unexpected : Sim S m Q (P.unexpected : P α) := by
  unfold P.unexpected; sim

macro_rules | `(tactic| simleaf) => `(tactic| with_reducible first
  | exact expect | exact reread | exact matchesToken | exact «matches» | exact matchesOp
  | exact unexpected)

theorem hasArgSameLine : Sim S m (fun _ => True) P.hasArgSameLine := by
  unfold P.hasArgSameLine; sim

theorem span [Tracking α] {p : P α} (h : Sim S m (fun _ => True) p) :
    Sim S m (fun _ => True) (P.span p) := by
  unfold P.span; sim

theorem vecSpan {c : Cat} (v : List (Ast c)) : Sim S m (fun _ => True) (P.vecSpan v) := by
  unfold P.vecSpan; sim

theorem endWithAutoSemi' [Tracking α] {start : Posn} {nl : Newline} {cons : Semi → α}
    (hq : ∀ l s, Q (Tracking.setLoc l (cons s))) :
    Sim S m Q (P.endWithAutoSemi start nl cons) := by
  unfold P.endWithAutoSemi; sim
  all_goals exact pure (hq _ _)

theorem endWithAutoSemi [Tracking α] {start : Posn} {nl : Newline} {cons : Semi → α} :
    Sim S m (fun _ => True) (P.endWithAutoSemi start nl cons) :=
  endWithAutoSemi' fun _ _ => trivial

theorem allowIn {b : Bool} {p : P α} (h : Sim S m (fun _ => True) p) :
    Sim S m (fun _ => True) (P.allowIn b p) := by
  unfold P.allowIn; sim

theorem withLabels {ls : List Id} {ty : LabelType} {p : P Stmt} (h : Sim S m (fun _ => True) p) :
    Sim S m (fun _ => True) (P.withLabels ls ty p) := by
  unfold P.withLabels; sim

theorem strictCheck {c : Option Check} :
    Sim S m (fun _ => True) (P.strictCheck (Pure.pure c)) := by
  intro s hs
  obtain ⟨goal, validate, deferred, lexer, ctx⟩ := s
  obtain ⟨strict, fn, it, sw, ai, ls⟩ := ctx
  have h1 := hs.goal
  have h2 := hs.validate
  have h3 := hs.strict
  cases h1; cases h2; cases h3
  cases c with
  | none => exact SimRes.eq trivial hs rfl (by cases m <;> rfl)
  | some c =>
    cases c with
    | strict e =>
      refine ⟨trivial, ⟨rfl, rfl, rfl, hs.at_, hs.tok⟩, [.strict e], rfl, ?_⟩
      cases m <;> rfl
    | module e =>
      refine ⟨trivial, ⟨rfl, rfl, rfl, hs.at_, hs.tok⟩, [.module e], rfl, ?_⟩
      cases m <;> rfl

macro_rules | `(tactic| simleaf) => `(tactic| with_reducible first
  | exact hasArgSameLine | exact vecSpan _ | exact endWithAutoSemi | exact strictCheck)
macro_rules | `(tactic| simcomb) => `(tactic| with_reducible first
  | refine span ?_ | refine allowIn ?_ | refine withLabels ?_ | refine loop' fun _ => ?_)

end Sim

end Esprit
