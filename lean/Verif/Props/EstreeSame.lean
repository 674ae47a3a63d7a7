import Verif.Proofs.EstreeSame
import Verif.Props.EstreeReads

/-!
# Fields without a meaning do not matter to the ESTree conversion (C62)

`Spec/EstreeSame.lean` lists the fields with a meaning.
-/

namespace Esprit

open Estree

/-- **C62**: objects that agree on the fields with a meaning are converted to the same script. -/
theorem C62_same (o o' : Object) (h : Alike (.object o) (.object o')) (x : Script) :
    intoScript o = .ok x ↔ intoScript o' = .ok x := by
  rw [C60_conversion, C60_conversion]
  exact ⟨fun hx => hx.same h, fun hx => hx.same h.symm⟩

/-- **C62**: and if one is rejected, so is the other. -/
theorem C62_rejected (o o' : Object) (h : Alike (.object o) (.object o')) :
    (∃ e, intoScript o = .err e) ↔ ∃ e, intoScript o' = .err e := by
  rw [C61_iff, C61_iff]
  exact not_congr ⟨fun ⟨x, hx⟩ => ⟨x, hx.same h⟩, fun ⟨x, hx⟩ => ⟨x, hx.same h.symm⟩⟩

/-- **C62**: dropping the fields without a meaning everywhere does not change the script. -/
theorem C62_strip (o : Object) (x : Script) :
    intoScript (stripFields o) = .ok x ↔ intoScript o = .ok x :=
  (C62_same o (stripFields o) (.object (same_stripFields o)) x).symm

/-- `a`, as a parser that records positions writes it. -/
def examplePositions : Object :=
  [(c!"type", .string c!"Program"), (c!"start", .u64 0), (c!"end", .u64 1),
    (c!"body", .array [.object [(c!"start", .u64 0), (c!"end", .u64 1),
      (c!"expression", .object [(c!"name", .string c!"a"), (c!"range", .array [.u64 0, .u64 1]),
        (c!"type", .string c!"Identifier")]),
      (c!"type", .string c!"ExpressionStatement")]]), (c!"sourceType", .string c!"script")]

/-- The positions are gone. -/
example : stripFields examplePositions = [(c!"type", .string c!"Program"),
    (c!"body", .array [.object [
      (c!"expression", .object [(c!"name", .string c!"a"), (c!"type", .string c!"Identifier")]),
      (c!"type", .string c!"ExpressionStatement")]])] := by
  simp [stripFields, stripList, strip, examplePositions, readFields]

example : ∃ x, intoScript (stripFields examplePositions) = .ok x :=
  ⟨_, (C62_strip examplePositions _).mpr rfl⟩

end Esprit
