import Verif.Spec.Tokens

/-!
Specification of adding line breaks to a text: where they can be added, and what the text is then (C78);
and of texts that differ only in line breaks that do not end a statement (C79).
-/

namespace Esprit

/-- A line break can be added before the token at the offset `n`: there is a token before it, it is not
`++`, `--` or the end of the source, and if the token before it is `break`, `continue`, `return` or `throw`
then it is `;` or `}`. -/
def MayBreak (ts : List Token) (n : Nat) : Prop :=
  ∃ a t r, (a :: t :: r) <:+ ts ∧ t.location.start.offset = n ∧ t.value ∉ [.inc, .dec, .eof] ∧
    (a.value ∈ [.reserved .break, .reserved .continue, .reserved .return, .reserved .throw] →
      t.value = .semi ∨ t.value = .rBrace)

/-- The tokens `ts'` are the tokens `ts`, but perhaps on other lines: only before `++` and `--`, and between
`break`, `continue`, `return` or `throw` and a token other than `;` and `}`, there are the same line breaks. -/
inductive SameButBreaks : List Token → List Token → Prop where
  | nil : SameButBreaks [] []
  | cons {a a' : Token} {ts ts' : List Token} : a'.value = a.value →
      (a.value = .inc ∨ a.value = .dec → a'.newline = a.newline) →
      (a.value ∈ [.reserved .break, .reserved .continue, .reserved .return, .reserved .throw] →
        ∀ t r t' r', ts = t :: r → ts' = t' :: r' → t.value ≠ .semi → t.value ≠ .rBrace →
          t'.newline = t.newline) →
      SameButBreaks ts ts' → SameButBreaks (a :: ts) (a' :: ts')

/-- The text `s`, which begins at the offset `k`, with line feeds before the characters at offsets in `P`. -/
def breakLines (P : Nat → Bool) (k : Nat) : Str → Str
  | [] => []
  | c :: s => if P k then '\n' :: c :: breakLines P (k + 1) s else c :: breakLines P (k + 1) s

end Esprit
