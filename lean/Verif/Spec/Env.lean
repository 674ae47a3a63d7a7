import Verif.Spec.Lex

/-! A concrete environment, used by the examples and counterexamples: the
identifier tables restricted to ASCII. -/

namespace Esprit

/-- ASCII letters start identifiers; letters, digits and `_` continue them. -/
@[reducible] def asciiEnv (overflowChecks : Bool) : Env where
  idStart c := c.isAlpha
  idContinue c := c.isAlpha || c.isDigit || c == '_'
  overflowChecks := overflowChecks

theorem asciiEnv_lawful (oc : Bool) : @LawfulEnv (asciiEnv oc) := by
  letI := asciiEnv oc
  refine @LawfulEnv.mk (asciiEnv oc) ?_ (fun _ _ => rfl) (fun _ _ => rfl) ?_
  · intro c h
    have : c.isAlpha = true := h
    show (c.isAlpha || c.isDigit || c == '_') = true
    rw [this]; rfl
  · intro c h
    show (c.isAlpha || c.isDigit || c == '_') = false
    revert c
    decide +kernel

end Esprit
