import Verif.Proofs.Parser.Rules

/-!
Runs of the parser on buffered tokens: an expression that consists of the word
`let` or `const` with a regular expression behind it, both of them buffered.
-/

set_option linter.unusedSectionVars false
set_option linter.unusedVariables false

namespace Esprit

open Lex ReaderSpec Grammar

namespace P

variable [Env] [LawfulEnv] {u : Bool} {s s1 s' : PState} {t t1 t2 : Token} {tl : List Token} {α β σ : Type}

theorem bf.read (hl : s.la = t :: tl) (op : Bool) :
    wp u (lex (Lexer.readToken op)) s (fun t' s' => t = t' ∧ s'.la = tl) := by
  unfold wp P.lex Lexer.readToken
  simp only [PState.la] at hl
  rw [hl]
  exact ⟨rfl, rfl⟩

theorem bf.peek (hl : s.la = t :: tl) (op : Bool) :
    wp u (lex (Lexer.peekToken op)) s (fun t' s' => t = t' ∧ s = s') := by
  unfold wp P.lex Lexer.peekToken
  simp only [PState.la] at hl
  rw [hl]
  exact ⟨rfl, rfl⟩

theorem bf.unread (hl : s.la = tl) (h : tl.length ≤ 1) :
    wp u (P.unread t) s (fun _ s' => s'.la = t :: tl) := by
  refine wp.unread (by rw [hl]; exact h) ?_
  show t :: s.la = _
  rw [hl]

theorem bf.loop {step : σ → P (σ ⊕ β)} {a : σ} {Q : β → PState → Prop}
    (h : wp u (step a) s (fun x s' => ∃ b, x = .inr b ∧ Q b s')) : wp u (P.loop step a) s Q := by
  unfold P.loop wp
  simp only [P.loopN]
  unfold wp at h
  cases hm : step a s with
  | ok v =>
    obtain ⟨x, s1⟩ := v
    rw [hm] at h
    obtain ⟨b, rfl, h⟩ := h
    exact h
  | err e => trivial
  | panic p => rw [hm] at h; exact h
  | fuel => rw [hm] at h; exact h

theorem bf.unexpected {Q : α → PState → Prop} (hl : s.la = t :: tl) :
    wp u (P.unexpected : P α) s Q := by
  unfold P.unexpected
  refine wp.bind (Q := fun _ _ => True) ?_ fun _ _ _ => trivial
  unfold wp P.rereadToken P.lex Lexer.rereadToken
  simp only [PState.la] at hl
  rw [hl]
  trivial

theorem bf.allowIn {p : P α} {b : Bool}
    (h : ∀ s1, s1.la = s.la → s1.mu = s.mu → wp u p s1 (fun _ s' => s'.la = tl)) :
    wp u (P.allowIn b p) s (fun _ s' => s'.la = tl) := by
  unfold P.allowIn
  refine wp.get_bind (wp.modify_bind ?_)
  refine wp.bind (Q := fun _ s' => s'.la = tl) ?_ fun a s' h => wp.modify_bind h
  exact h _ rfl rfl

theorem bf.matchPrefix (h : Odd s t1 t2) :
    wp u P.matchPrefix s (fun o s' => o = none ∧ s'.la = [t1, t2]) := by
  have key : ∀ s1 : PState, s1.la = [t2] → wp u (do
      P.unread t1
      let op ← P.matchUnop
      Pure.pure (op.map Prefix.unop)) s1 (fun o s' => o = none ∧ s'.la = [t1, t2]) := by
    intro s1 h1
    refine (bf.unread h1 (by simp)).bind fun _ s2 h2 => ?_
    refine wp.bind (Q := fun o s' => o = none ∧ s'.la = [t1, t2]) ?_ ?_
    · unfold P.matchUnop
      refine (bf.read h2 false).bind ?_
      rintro _ s3 ⟨rfl, h3⟩
      have : P.unopTag t1.value = none := by
        rcases h.first with ⟨n, h⟩ | h <;> rw [h] <;> rfl
      simp only [this]
      exact (bf.unread h3 (by simp)).bind fun _ s4 h4 => ⟨rfl, h4⟩
    · rintro _ s3 ⟨rfl, h3⟩
      exact ⟨rfl, h3⟩
  unfold P.matchPrefix
  refine (bf.read h.la false).bind ?_
  rintro _ s1 ⟨rfl, h1⟩
  rcases h.first with ⟨n, hf⟩ | hf <;> rw [hf] <;> exact key s1 h1

theorem bf.newId {b : Bool} {name : Name} {l : Span} :
    wp u (P.newId b name l) s (fun _ s' => s'.la = s.la) := by
  obtain ⟨c, hc, -⟩ := newIdCheck_eq b name l
  unfold P.newId
  rw [hc]
  refine wp.strictCheckPure.bind ?_
  rintro _ s' ⟨hs, -⟩
  exact hs.la

theorem bf.lhsExpression {r : Rec} (h : Odd s t1 t2) :
    wp u (P.lhsExpression r) s (fun _ s' => s'.la = [t2]) := by
  unfold P.lhsExpression
  refine wp.bind (Q := fun news s' => news = [] ∧ s'.la = [t1, t2]) ?_ ?_
  · refine bf.loop ?_
    unfold newsStep
    refine (bf.peek h.la false).bind ?_
    rintro _ s1 ⟨rfl, rfl⟩
    have : t1.value.eqv (.reserved .new) = false := by
      rcases h.first with ⟨n, h⟩ | h <;> rw [h] <;> rfl
    rw [this]
    exact ⟨_, rfl, rfl, h.la⟩
  · rintro _ s1 ⟨rfl, h1⟩
    simp only [List.length_nil, gt_iff_lt, Nat.lt_irrefl, if_false]
    unfold P.callExpression
    refine wp.bind (Q := fun _ s' => s'.la = [t2]) ?_ ?_
    · unfold P.primaryExpression
      refine (bf.read h1 false).bind ?_
      rintro _ s2 ⟨rfl, h2⟩
      rcases h.first with ⟨n, hf⟩ | hf
      · rw [hf]
        refine bf.newId.bind fun i s3 h3 => ?_
        exact (h3.trans h2 : s3.la = [t2])
      · rw [hf]; trivial
    · intro e s2 h2
      unfold P.moreSuffixes
      refine bf.loop ?_
      unfold suffixStep P.suffixOpt
      obtain ⟨x, hx⟩ := h.second
      refine wp.bind (Q := fun o s' => o = none ∧ s'.la = [t2]) ?_ ?_
      · refine (bf.peek h2 true).bind ?_
        rintro _ s3 ⟨rfl, rfl⟩
        rw [hx]
        exact ⟨rfl, h2⟩
      · rintro _ s3 ⟨rfl, h3⟩
        exact ⟨_, rfl, h3⟩

theorem bf.conditionalExpression {r : Rec} (h : Odd s t1 t2) :
    wp u (P.conditionalExpression r) s (fun _ s' => s'.la = [t2]) := by
  obtain ⟨x, hx⟩ := h.second
  unfold P.conditionalExpression
  refine wp.bind (Q := fun _ s' => s'.la = [t2]) ?_ fun e s1 h1 => ?_
  · unfold P.unaryExpression
    refine wp.bind (Q := fun ps s' => ps = [] ∧ s'.la = [t1, t2]) ?_ ?_
    · refine bf.loop ?_
      unfold prefixStep
      refine (bf.matchPrefix h).bind ?_
      rintro _ s1 ⟨rfl, h1⟩
      exact ⟨_, rfl, rfl, h1⟩
    · rintro _ s1 ⟨rfl, h1⟩
      refine (bf.lhsExpression ⟨h1, h.first, h.second⟩).bind fun e s2 h2 => ?_
      refine wp.bind (Q := fun o s' => o = none ∧ s'.la = [t2]) ?_ ?_
      · unfold P.matchPostfixOperatorOpt
        refine (bf.read h2 true).bind ?_
        rintro _ s3 ⟨rfl, h3⟩
        have key := (bf.unread (u := u) (t := t2) h3 (by simp)).bind (f := fun _ =>
          Pure.pure (none : Option Postfix)) (Q' := fun o s' => o = none ∧ s'.la = [t2])
          fun _ s4 h4 => ⟨rfl, h4⟩
        refine wp.ite (fun _ => ?_) (fun _ => key)
        rw [hx]
        exact key
      · rintro _ s3 ⟨rfl, h3⟩
        exact h3
  · refine wp.bind (Q := fun _ s' => s'.la = [t2]) ?_ fun e s2 h2 => ?_
    · unfold P.moreInfixExpressions
      refine wp.bind (Q := fun _ s' => s'.la = [t2]) ?_ fun st s2 h2 => h2
      refine bf.loop ?_
      unfold infixStep
      refine wp.bind (Q := fun o s' => o = none ∧ s'.la = [t2]) ?_ ?_
      · unfold P.matchInfix
        refine (bf.read h1 true).bind ?_
        rintro _ s3 ⟨rfl, h3⟩
        refine wp.get_bind ?_
        have e1 : t2.toBinop s3.ctx.allowIn = none := by unfold Token.toBinop; rw [hx]; rfl
        have e2 : t2.toLogop = none := by unfold Token.toLogop; rw [hx]; rfl
        simp only [e1, e2]
        exact (bf.unread h3 (by simp)).bind fun _ s4 h4 => ⟨rfl, h4⟩
      · rintro _ s3 ⟨rfl, h3⟩
        exact ⟨_, rfl, h3⟩
    · unfold P.moreConditional
      refine wp.bind (Q := fun b s' => b = false ∧ s'.la = [t2]) ?_ ?_
      · unfold P.matchesOp
        refine (bf.read h2 true).bind ?_
        rintro _ s3 ⟨rfl, h3⟩
        have : t2.value.eqv .question = false := by rw [hx]; rfl
        rw [this]
        exact (bf.unread h3 (by simp)).bind fun _ s4 h4 => ⟨rfl, h4⟩
      · rintro _ s3 ⟨rfl, h3⟩
        exact h3

theorem bf.assignmentExpression {r : Rec} (h : Odd s t1 t2) :
    wp u (P.assignmentExpression r) s (fun _ s' => s'.la = [t2]) := by
  obtain ⟨x, hx⟩ := h.second
  unfold P.assignmentExpression
  refine (bf.conditionalExpression h).bind fun e s1 h1 => ?_
  unfold P.moreAssignment
  refine (bf.read h1 true).bind ?_
  rintro _ s2 ⟨rfl, h2⟩
  have e1 : t2.value.eqv .assign = false := by rw [hx]; rfl
  have e2 : t2.toAssop = none := by unfold Token.toAssop; rw [hx]; rfl
  rw [e1]
  simp only [e2]
  exact (bf.unread h2 (by simp)).bind fun _ s4 h4 => h4

/-- The head of a `for` statement cannot continue in this way. -/
theorem bf.forExpr {r : Rec} {Q : Stmt → PState → Prop}
    (hr : ∀ s1, Odd s1 t1 t2 → s1.mu = s.mu → wp u r.assign s1 (fun _ s' => s'.la = [t2]))
    (h : Odd s t1 t2) : wp u (P.forExpr r) s Q := by
  obtain ⟨x, hx⟩ := h.second
  unfold P.forExpr
  refine wp.bind (Q := fun _ s' => s'.la = [t2]) ?_ fun e s1 h1 => ?_
  · refine bf.allowIn fun s1 h1 hmu => ?_
    unfold P.expression
    refine (hr s1 ⟨h1.trans h.la, h.first, h.second⟩ hmu).bind fun e s2 h2 => ?_
    unfold P.moreExpressions
    refine (bf.peek h2 false).bind ?_
    rintro _ s3 ⟨rfl, rfl⟩
    have : t2.value.eqv .comma = false := by rw [hx]; rfl
    rw [this]
    exact h2
  · refine (bf.peek h1 false).bind ?_
    rintro _ s3 ⟨rfl, rfl⟩
    rw [hx]
    exact bf.unexpected h1

/-- A word followed by a regular expression is no property. -/
theorem bf.wordProperty {r : Rec} {Q : Ast .prop → PState → Prop} {w : Reserved}
    (hl : s.la = t2 :: tl) (hlen : tl = []) (hv : t1.value = .reserved w) (hx : ∃ x, t2.value = .regExp x) :
    wp u (do
      P.unread t1
      let key ← P.propertyKey
      P.morePropInit r key) s Q := by
  obtain ⟨x, hx⟩ := hx
  subst hlen
  refine (bf.unread hl (by simp)).bind fun _ s1 h1 => ?_
  refine wp.bind (Q := fun _ s' => s'.la = [t2]) ?_ fun k s2 h2 => ?_
  · unfold P.propertyKey P.propertyKeyOpt
    refine wp.bind (Q := fun o s' => (∃ k, o = some k) ∧ s'.la = [t2]) ?_ ?_
    · refine (bf.read h1 false).bind ?_
      rintro _ s3 ⟨rfl, h3⟩
      simp only [hv]
      exact ⟨⟨_, rfl⟩, h3⟩
    · rintro _ s3 ⟨⟨k, rfl⟩, h3⟩
      exact h3
  · unfold P.morePropInit
    refine (bf.peek h2 false).bind ?_
    rintro _ s3 ⟨rfl, rfl⟩
    rw [hx]
    exact bf.unexpected h2

end P

end Esprit
