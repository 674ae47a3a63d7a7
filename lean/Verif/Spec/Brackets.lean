import Verif.Spec.Grammar

/-!
Specification of bracketed sequences of tokens, for the restriction of the `in`
operator in the heads of `for` statements (C37).
-/

namespace Esprit

/-- The brackets, in pairs. -/
def brackets : List (TokenData × TokenData) :=
  [(.lParen, .rParen), (.lBrack, .rBrack), (.lBrace, .rBrace)]

/-- The token is not a bracket. -/
def Plain (t : Token) : Prop := ∀ p ∈ brackets, t.value ≠ p.1 ∧ t.value ≠ p.2

/-- The brackets among the tokens match. -/
inductive Balanced : List Token → Prop where
  | nil : Balanced []
  | token {t : Token} {ts : List Token} : Plain t → Balanced ts → Balanced (t :: ts)
  | group {a b : Token} {inner ts : List Token} : (a.value, b.value) ∈ brackets →
      Balanced inner → Balanced ts → Balanced (a :: inner ++ b :: ts)

/-- The brackets match, and so do the `?` and `:` outside brackets; and, unless
`allowIn`, the word `in` does not occur outside brackets and outside the middle
of `? :`, except as a name after a dot. -/
inductive InGuarded : Bool → List Token → Prop where
  | nil {allowIn : Bool} : InGuarded allowIn []
  | token {allowIn : Bool} {t : Token} {ts : List Token} : Plain t → t.value ≠ .question →
      t.value ≠ .colon → (t.value = .reserved .«in» → allowIn = true) → InGuarded allowIn ts →
      InGuarded allowIn (t :: ts)
  | member {allowIn : Bool} {a t : Token} {ts : List Token} : a.value = .dot →
      t.value = .reserved .«in» → InGuarded allowIn ts → InGuarded allowIn (a :: t :: ts)
  | group {allowIn : Bool} {a b : Token} {inner ts : List Token} : (a.value, b.value) ∈ brackets →
      Balanced inner → InGuarded allowIn ts → InGuarded allowIn (a :: inner ++ b :: ts)
  | cond {allowIn : Bool} {a b : Token} {inner ts : List Token} : a.value = .question →
      b.value = .colon → InGuarded true inner → InGuarded allowIn ts →
      InGuarded allowIn (a :: inner ++ b :: ts)

end Esprit
