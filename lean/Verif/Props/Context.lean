import Verif.Props.Cursor
import Verif.Props.Parser

/-!
Parsing a construct restores the context of the parser (C41).
-/

set_option linter.unusedSectionVars false

namespace Esprit

open Lex ReaderSpec Grammar

section Theorems

variable [Env] [LawfulEnv] {S : Str}

theorem tokens_split {ops : List Bool} {a b : List Token} {k k' : Nat} {e : Bool}
    (h : Tokens S k e ops (a ++ b) k') :
    ∃ ops1 ops2 e1 k1, Tokens S k e ops1 a k1 ∧ Tokens S k1 e1 ops2 b k' := by
  induction a generalizing ops k e with
  | nil => exact ⟨[], ops, e, k, .nil, h⟩
  | cons t a ih =>
    cases h with
    | cons h1 h2 =>
      obtain ⟨o1, o2, e1, k1, h3, h4⟩ := ih h2
      exact ⟨_, o2, e1, k1, .cons h1 h3, h4⟩

theorem tokens_weight {ops : List Bool} {ts : List Token} {k k' : Nat} {e : Bool}
    (h : Tokens S k e ops ts k') (hk : k ≤ S.length) :
    k + (ts.map Token.weight).sum ≤ k' ∧ k' ≤ S.length ∧
      ∀ t ∈ ts, TokOk S t ∧ t.location.end.offset ≤ k' := by
  induction h with
  | nil => exact ⟨by simp, hk, by simp⟩
  | cons h1 h2 ih =>
    obtain ⟨w1, w2⟩ := Token.weight_lt h1 hk
    obtain ⟨w3, w4, w5⟩ := ih w2
    refine ⟨?_, w4, fun t ht => ?_⟩
    · simp only [List.map_cons, List.sum_cons]; omega
    · rcases List.mem_cons.1 ht with rfl | ht
      · refine ⟨.of_tokenAt h1, ?_⟩
        obtain ⟨a1, a2, a3, _⟩ := h1.text
        omega
      · exact w5 t ht

theorem tokens_last {ops : List Bool} {ts : List Token} {k k' : Nat} {e : Bool}
    (h : Tokens S k e ops ts k') : ∀ t, ts.getLast? = some t → PosnAt S k' t.location.end := by
  induction h with
  | nil => intro t ht; cases ht
  | @cons k k1 k2 e op ops t ts h1 h2 ih =>
    intro u hu
    cases h2 with
    | nil =>
      cases hu
      obtain ⟨-, -, a3, -, -, -, -, -, a9⟩ := h1.text
      exact a3 ▸ a9
    | cons h3 h4 => rw [List.getLast?_cons_cons] at hu; exact ih u hu

/-- The lexer is in a state that can be reached on the source by reading, peeking
at and putting back tokens. -/
def Lexer.Reached (S : Str) (l : Lexer) : Prop :=
  ∃ os outs history, TokenOp.runAll os ⟨Lexer.new S, []⟩ = .ok (outs, ⟨l, history⟩)

/-- No regular expression is buffered behind another token.  (The parser puts one there after
`for (let` and `for (const`, where it then reports an error.) -/
def Lexer.Regular (l : Lexer) : Prop := ∀ t ∈ l.lookahead.tail, ∀ x, t.value ≠ .regExp x

theorem inv_of_reached {s : PState} (h : s.lexer.Reached S) (hg : s.lexer.Regular) : Inv S s ∧ s.mu < S.length + 1 := by
  obtain ⟨os, outs, hist, h⟩ := h
  have h0 : Buffered S [] [] ⟨Lexer.new S, []⟩ := ⟨rfl, rfl⟩
  obtain ⟨m, ts, b, c⟩ := runAll_buffered h0 h
  simp only [List.nil_append] at b c
  have hla := C15_lookahead S os outs _ h
  obtain ⟨k, h1, h2, -⟩ := readAll_sound (Lexer.At.new S) rfl b.tokens
  have hs := b.split
  simp only at hs h2 hla
  rw [hs] at h1
  obtain ⟨o1, o2, e1, k1, h3, h4⟩ := tokens_split h1
  obtain ⟨w1, w2, -⟩ := tokens_weight h3 (Nat.zero_le _)
  obtain ⟨w3, w4, w5⟩ := tokens_weight h4 w2
  have ho : s.off = k := h2.posn.offset
  refine ⟨⟨⟨k, _, w4, ⟨h2.rest, h2.posn, h2.empty⟩⟩, hla, fun t ht => ?_,
    fun t ht => h2.posn.unique (tokens_last h4 t ht), hg⟩, ?_⟩
  · rw [ho]; exact w5 t ht
  · have hr : s.lexer.reader.rest = S.drop k := h2.rest
    simp only [PState.mu, hr, List.length_drop]
    omega

/-- The scope that describes the context of a parser state, without strictness. -/
def PState.scope (s : PState) : Scope :=
  ⟨false, false, s.ctx.function, s.ctx.iteration, s.ctx.switch, s.ctx.allowIn,
    s.ctx.labels.map fun p => (p.1, decide (p.2 = .iteration)), false⟩

theorem pre_of_reached {s : PState} (h : s.lexer.Reached S) (hg : s.lexer.Regular) : Pre S s.scope s := by
  refine ⟨(inv_of_reached h hg).1, ⟨fun h => (by cases h), fun h => (by cases h), rfl, rfl, rfl, rfl, ?_, rfl⟩⟩
  intro n t hn
  unfold Labels.get at hn
  obtain ⟨p, hp, rfl⟩ := Option.map_eq_some_iff.1 hn
  have h1 := List.find?_some hp
  have h2 := List.mem_of_find?_eq_some hp
  simp only [decide_eq_true_eq] at h1
  subst h1
  exact List.mem_map.2 ⟨p, h2, rfl⟩

theorem kept_of_wp {α : Type} {m : P α} {s s' : PState} {a : α} {n : Nat} {u : Bool}
    {R : α → List Token → List Token → Prop} (h : P.wp u m s fun a s' => Tr S n s s' (R a))
    (hm : m s = .ok (a, s')) : Kept s s' := by
  unfold P.wp at h
  rw [hm] at h
  exact h.frame

/-- The context is the same, except that labels may have been dropped. -/
structure Restored (s s' : PState) : Prop where
  goal : s'.goal = s.goal
  validate : s'.validate = s.validate
  strict : s'.ctx.strict = s.ctx.strict
  function : s'.ctx.function = s.ctx.function
  iteration : s'.ctx.iteration = s.ctx.iteration
  switch : s'.ctx.switch = s.ctx.switch
  allowIn : s'.ctx.allowIn = s.ctx.allowIn
  labels : ∀ n t, s'.ctx.labels.get n = some t → s.ctx.labels.get n = some t

theorem Kept.restored {s s' : PState} (h : Kept s s') : Restored s s' :=
  ⟨h.goal, h.validate, by rw [h.ctx], by rw [h.ctx], by rw [h.ctx], by rw [h.ctx], by rw [h.ctx],
    h.labels⟩

/-- C41.  Parsing a statement or declaration, from any state of the parser with any
context, restores the context; no label stays in force after its statement. -/
theorem C41_item (s s' : PState) (decl : Bool) (x : StmtListItem) (hs : s.lexer.Reached S)
    (hg : s.lexer.Regular)
    (h : (P.recOf (recFuel S)).item decl s = .ok (x, s')) : Restored s s' :=
  (kept_of_wp ((recOk_fuel true S).item decl s _ (pre_of_reached hs hg) (inv_of_reached hs hg).2) h).restored

/-- C41.  Parsing an assignment expression likewise. -/
theorem C41_assign (s s' : PState) (x : Expr) (hs : s.lexer.Reached S)
    (hg : s.lexer.Regular)
    (h : (P.recOf (recFuel S)).assign s = .ok (x, s')) : Restored s s' :=
  (kept_of_wp ((recOk_fuel true S).assign s _ (pre_of_reached hs hg) (inv_of_reached hs hg).2) h).restored

/-- C41.  So do a list of statements and a whole body. -/
theorem C41_body (s s' : PState) (x : Script) (hs : s.lexer.Reached S)
    (hl : s.lexer.lookahead.length ≤ 1)
    (h : P.scriptBody (P.recOf (recFuel S)) s = .ok (x, s')) : Restored s s' := by
  have hg : s.lexer.Regular := by
    intro t ht
    match hx : s.lexer.lookahead with
    | [] => rw [hx] at ht; cases ht
    | [_] => rw [hx] at ht; cases ht
    | _ :: _ :: _ => rw [hx] at hl; simp at hl
  have hw := P.wp.scriptBody (recOk_fuel true S) (pre_of_reached hs hg) (inv_of_reached hs hg).2 hl
  unfold P.wp at hw
  rw [h] at hw
  exact hw.1.frame.restored

end Theorems

section Examples

local instance contextEnv : Env := asciiEnv true

/-- A state inside a function, a loop and a label, with a token ahead. -/
private def inLoop (src : Str) : PState :=
  { PState.fromChars src with
    ctx := { Ctx.new with function := true, iteration := true, allowIn := false,
                          labels := [(.string c!"x", .iteration)] } }

/-- The hypotheses are met: a labelled loop with a function in it is parsed. -/
example : ((inLoop c!"a: while (b) { function f() { return } break a }").lexer.Reached
      c!"a: while (b) { function f() { return } break a }") ∧
    (inLoop c!"a: while (b) { function f() { return } break a }").lexer.Regular ∧
    (match (P.recOf (recFuel c!"a: while (b) { function f() { return } break a }")).item true
        (inLoop c!"a: while (b) { function f() { return } break a }") with
      | .ok (_, s') => decide (s'.ctx = (inLoop []).ctx)
      | _ => false) = true :=
  ⟨⟨[], [], [], rfl⟩, by rintro t ⟨⟩, by decide +kernel⟩

end Examples

end Esprit
