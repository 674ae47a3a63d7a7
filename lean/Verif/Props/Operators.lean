import Verif.Spec.Operators
import Verif.Props.Tree

/-!
The grouping of binary operators in returned trees (C17).
-/

set_option linter.unusedSectionVars false

namespace Esprit

open Lex ReaderSpec Grammar

section Theorems

variable [Env] [LawfulEnv] {s S : Str} {st mo : Bool} {tree : Node} {v : Place} {env : Scope}
  {i r : List Token} {e : Expr}

theorem infixLevel_lt (op : Infix) : op.level < 10 := by
  rcases op with ⟨l, t⟩ | ⟨l, t⟩ <;> cases t <;> exact Nat.lt_of_sub_pos (Nat.succ_pos _)

theorem unary_paren (h : Derives (Located S) env .unary i r e) {x : Expr × Infix × Expr}
    (he : e.operation = some x) :
    ∃ t i1 t2, i = t :: i1 ∧ t.value = .lParen ∧ t2.value = .rParen ∧
      Derives (Located S) (env.withIn true) .expr i1 (t2 :: r) e := by
  have hn : ∀ {b i r e}, Derives (Located S) env (.new b) i r e → e.operation = none := by
    intro b i r e h; cases h <;> rfl
  have hp : ∀ {i r e}, Derives (Located S) env .primary i r e → e.operation = some x →
      ∃ t i1 t2, i = t :: i1 ∧ t.value = .lParen ∧ t2.value = .rParen ∧
        Derives (Located S) (env.withIn true) .expr i1 (t2 :: r) e := by
    intro i r e h he
    cases h with
    | paren h1 h2 h3 => exact ⟨_, _, _, rfl, h1, h3, h2⟩
    | _ => cases he
  cases h with
  | unaryPostfix h =>
    cases h with
    | postfixNone _ _ h =>
      cases h with
      | lhsPrimary h => exact hp h he
      | lhsNew h => rw [hn h] at he; cases he
      | _ => cases he
    | _ => cases he
  | _ => cases he

theorem binary_stands {n : Nat} (h : Derives (Located S) env (.binary n) i r e) :
    ∃ c, i = c ++ r ∧ MayStand (n ≤ ·) e c := by
  have key : ∀ k n, k + n = 10 → ∀ {i r e}, Derives (Located S) env (.binary n) i r e →
      ∃ c, i = c ++ r ∧ MayStand (n ≤ ·) e c := by
    intro k
    induction k with
    | zero =>
      intro n hn i r e h
      obtain rfl : n = 10 := by omega
      obtain ⟨c, hc⟩ := h.suffix
      refine ⟨c, hc.symm, fun a op b he => ?_⟩
      generalize hm : (10 : Nat) = m at h
      cases h with
      | binaryUnary h =>
        obtain ⟨t, i1, t2, rfl, h1, h2, h3⟩ := unary_paren h he
        obtain ⟨c', rfl, hb⟩ := h3.bal
        refine .inr ⟨t, c', t2, ?_, h1, h2, hb⟩
        have : c ++ r = (t :: c' ++ [t2]) ++ r := by simp [hc]
        exact List.append_cancel_right this
      | binaryUp hlt h => omega
      | binop h1 h2 h3 => cases he; exact .inl (Nat.le_refl _)
      | logop h1 h2 h3 => cases he; exact .inl (Nat.le_refl _)
    | succ k ih =>
      intro n hn i r e h
      cases h with
      | binaryUnary h => omega
      | binaryUp hlt h =>
        obtain ⟨c, hc, hm⟩ := ih _ (by omega) h
        exact ⟨c, hc, fun a op b he => (hm a op b he).imp_left (fun h => by omega)⟩
      | binop h1 h2 h3 =>
        obtain ⟨c1, rfl⟩ := h1.suffix
        obtain ⟨c2, rfl⟩ := h3.suffix
        exact ⟨c1 ++ _ :: c2, by simp only [List.append_assoc, List.cons_append]; rfl, fun a op b he => by cases he; exact .inl (Nat.le_refl _)⟩
      | logop h1 h2 h3 =>
        obtain ⟨c1, rfl⟩ := h1.suffix
        obtain ⟨c2, rfl⟩ := h3.suffix
        exact ⟨c1 ++ _ :: c2, by simp only [List.append_assoc, List.cons_append]; rfl, fun a op b he => by cases he; exact .inl (Nat.le_refl _)⟩
  have hn : n ≤ 10 := by
    cases h with
    | binaryUnary => exact Nat.le_refl _
    | binaryUp hlt => exact Nat.le_of_lt hlt
    | binop => exact Nat.le_of_lt (infixLevel_lt _)
    | logop => exact Nat.le_of_lt (infixLevel_lt _)
  exact key (10 - n) n (by omega) h

/-- How an operation is written. -/
def Written (S : Str) (T : List Token) (a : Expr) (op : Infix) (b : Expr) : Prop :=
  ∃ env i t i1 r, i <:+ T ∧ op.location = some t.location ∧ IsSymbol op.text t.value ∧
    Derives (Located S) env (.binary op.level) i (t :: i1) a ∧
    Derives (Located S) env (.binary (op.level + 1)) i1 r b

/-- The claim about what is derived: operations are written around an operator. -/
def OpClaim (S : Str) (T : List Token) : {c : Cat} → Ast c → Prop
  | .expr, e => ∀ a op b, Ast.operation e = some (a, op, b) → Written S T a op b
  | _, _ => True

theorem OpClaim.mono {T T' : List Token} (h : OpClaim S T e) (hs : T <:+ T') : OpClaim S T' e := by
  intro a op b he
  obtain ⟨env, i, t, i1, r, h1, h2⟩ := h a op b he
  exact ⟨env, i, t, i1, r, h1.trans hs, h2⟩

theorem Grammar.Derives.operation {c : Cat} {nt : NT c} {x : Ast c} (h : Derives (Located S) env nt i r x) :
    OpClaim S i x := by
  induction h
  case paren h => exact OpClaim.mono h (List.suffix_cons _ _)
  case binop h1 h2 h3 _ _ =>
    intro a op b he
    cases he
    exact ⟨_, _, _, _, _, List.suffix_refl _, h2.1, h2.2.1, h1, h3⟩
  case logop h1 h2 h3 _ _ =>
    intro a op b he
    cases he
    exact ⟨_, _, _, _, _, List.suffix_refl _, h2.1, h2.2, h1, h3⟩
  all_goals first
    | exact trivial
    | assumption
    | (intro a op b he; cases he)

/-- C17.  Every operation of a returned tree is written as its left operand, its
operator and its right operand, in that order.  A left operand that is an operation
binds as tightly or tighter, unless it is in parentheses; a right operand that is
an operation binds tighter, unless it is in parentheses. -/
theorem C17_parsed (h : Returned s st mo tree) (ho : Occurs .top tree v ⟨.expr, e⟩)
    {a b : Expr} {op : Infix} (he : e.operation = some (a, op, b)) :
    ∃ ops ts k, Tokens s 0 true ops ts k ∧ ∃ pre left t right post env,
      ts = pre ++ left ++ t :: right ++ post ∧
      op.location = some t.location ∧ IsSymbol op.text t.value ∧
      Derives (Located s) env (.binary op.level) (left ++ t :: right ++ post) (t :: right ++ post) a ∧
      MayStand (op.level ≤ ·) a left ∧
      Derives (Located s) env (.binary (op.level + 1)) (right ++ post) post b ∧
      MayStand (op.level < ·) b right := by
  obtain ⟨ops, ts, k, ht, env, nt, i, r, hi, -, -, -, hd⟩ := returned_derived h ho (by decide)
  obtain ⟨env, i, t, i1, r, hs, h1, h2, h3, h4⟩ := hd.operation a op b he
  obtain ⟨left, rfl, hl⟩ := binary_stands h3
  obtain ⟨right, rfl, hr⟩ := binary_stands h4
  obtain ⟨pre, hpre⟩ := hs.trans hi
  refine ⟨ops, ts, k, ht, pre, left, t, right, r, env, ?_, h1, h2, ?_, hl, h4, hr⟩
  · rw [← hpre]; simp
  · simpa using h3

end Theorems

section Examples

local instance operatorsEnv : Env := asciiEnv true

/-- The hypotheses are met: operations with operations as operands, with and
without parentheses. -/
example : ∃ tree v y, Returned c!"(a + b) * c - (d - e) || f && g" true false tree ∧
    Occurs .top tree v y ∧
    (match y with
      | ⟨.expr, .eBinop _ _ (.eBinop _ _ (.eBinop ..) (.eId _)) (.eBinop ..)⟩ => true
      | _ => false) = true :=
  occursIn_spec (by decide +kernel)

end Examples

end Esprit
