import Verif.Model.Estree

/-! When two errors of the ESTree conversion say the same (C64). -/

namespace Esprit

namespace Estree

/-- The errors are of the same kind and name the same types, fields, lengths, strings and
node types.  (The trees that some errors carry, and which side of an assignment or which
operand is invalid, do not show in the text.) -/
def EError.Agrees : EError → EError → Prop
  | .json a, .json b => a = b
  | .invalidTypeTag s, .invalidTypeTag t => s = t
  | .nodeTypeMismatch a t, .nodeTypeMismatch b u => a = b ∧ t = u
  | .unexpectedInitializer _, .unexpectedInitializer _ => True
  | .invalidLHS _, .invalidLHS _ => True
  | .uninitializedPattern _, .uninitializedPattern _ => True
  | _, _ => False

end Estree

end Esprit
