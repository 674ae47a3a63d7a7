import Verif.Spec.Tokens
import Verif.Spec.Ast

/-!
Specification of wrapping: the tokens of the text before and after a program that is put into
a function (C69).
-/

namespace Esprit

open Lex

variable [Env]

/-- The tokens of the text are `vs`. -/
def HasTokens (s : Str) (vs : List TokenData) : Prop :=
  ∃ ops ts k, Tokens s 0 true ops ts k ∧ ts.map Token.value = vs ++ [.eof]

omit [Env]

/-- The names, separated by commas. -/
def commaNames : List Name → List TokenData
  | [] => []
  | [n] => [.identifier n]
  | n :: ns => .identifier n :: .comma :: commaNames ns

/-- `( function ( x , y ... ) {` -/
def opensFunction (names : List Name) : List TokenData :=
  .lParen :: .reserved .function :: .lParen :: (commaNames names ++ [.rParen, .lBrace])

/-- `} ) ( )` -/
def closesFunction : List TokenData := [.rBrace, .rParen, .lParen, .rParen]

/-- The call of the function with the parameters `names` and the given body. -/
def calledFunction (names : List Name) (b : Ast (.body .sitem)) : Ast .stmt :=
  .sExpr none
    (.eCall none
      (.eFun (.func none .none
        (.params none (Ast.ofList (names.map fun n => .pSimple (.ident ⟨none, n⟩))) .none) b false))
      .nil)
    .inserted

end Esprit
