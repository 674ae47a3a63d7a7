import Verif.Spec.Tree
import Verif.Spec.Cover

/-!
The condition under which the grammar describes exactly what is accepted (C53): no
statement is labelled twice with the same name.
-/

namespace Esprit

open Grammar

/-- A labelled statement does not repeat the name of an enclosing label. -/
def LabelOk (w : Place) : Node → Prop
  | ⟨.stmt, .sLabel _ i _⟩ => ∀ loop, (i.name, loop) ∉ w.labels
  | _ => True

/-- No statement of the tree is inside a statement labelled with the same name
(in the same function).  This is an early error of the language definition, which
the code does not report. -/
def DistinctLabels {c : Cat} (x : Ast c) : Prop :=
  ∀ v y, Occurs Place.top ⟨c, x⟩ v y → LabelOk v y

end Esprit
