import Verif.Spec.Lex

/-! The mathematical value of a numeric literal. -/

namespace Esprit.Lex

/-- `q × 10^±n`. -/
def scale10 (q : Rat) : Option Exp → Rat
  | none => q
  | some ⟨_, some .minus, ds⟩ => q / (10 : Rat) ^ numeral 10 ds
  | some ⟨_, _, ds⟩ => q * (10 : Rat) ^ numeral 10 ds

/-- The exact (unrounded) value of a numeric literal. -/
def mathValue : NumberSource → Rat
  | .decimalInt m e => scale10 (numeral 10 m : Nat) e
  | .float ip fp e => scale10 ((numeral 10 (ip.getD []) : Nat) +
      (numeral 10 (fp.getD []) : Nat) / (10 : Rat) ^ (fp.getD []).length) e
  | .radixInt (.hex _) s => (numeral 16 s : Nat)
  | .radixInt (.oct _) s => (numeral 8 s : Nat)
  | .radixInt (.bin _) s => (numeral 2 s : Nat)

end Esprit.Lex
