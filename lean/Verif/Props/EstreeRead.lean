import Verif.Proofs.EstreeConv
import Verif.Props.Estree

/-!
# ESTree conversion inverts ESTree encoding (C44)

`Spec/Estree.lean` says which JSON values encode a syntax tree.
-/

namespace Esprit

open Estree

/-- **C44** (partial: for scripts without destructuring patterns, and whose directives are
not followed by a statement that consists of a string literal).  An object that encodes
a script, with its fields in any order and possibly with further fields, is converted
to a script that equals (in the sense of the `==` of the library) the untracked
original.  `C44_fails_*` show that the restrictions are needed. -/
theorem C44_partial (x : Script) (o : Object) (h : EncodesScript x o) (hp : Plain x) :
    ∃ y, intoScript o = .ok y ∧ y.eqv x.untrack = true := by
  have hg := intoScript_gives h hp
  revert hg
  cases intoScript o with
  | ok y => exact fun hg => ⟨y, rfl, (C22_exact y x.untrack).mpr hg⟩
  | err e => exact fun hg => hg.elim
  | panic p => exact fun hg => hg.elim
  | fuel => exact fun hg => hg.elim

/-- **C44** (partial in the same way).  An object encodes at most one script, up to equality
of untracked scripts. -/
theorem C44_unique_partial (x x' : Script) (o : Object) (h : EncodesScript x o)
    (h' : EncodesScript x' o) (hp : Plain x) (hp' : Plain x') : x.untrack.eqv x'.untrack = true := by
  obtain ⟨y, hy, e⟩ := C44_partial x o h hp
  obtain ⟨y', hy', e'⟩ := C44_partial x' o h' hp'
  rw [hy] at hy'
  cases hy'
  rw [C22_symm] at e
  exact C22_trans _ _ _ e e'

/-- The hypotheses hold of `"use strict"; a = -b; "c"`, with locations. -/
def exampleTracked : Script :=
  .body (some ⟨⟨0, 0, 0⟩, ⟨26, 0, 26⟩⟩) [⟨some ⟨⟨0, 0, 0⟩, ⟨13, 0, 13⟩⟩, ⟨some c!"\"use strict\"", c!"use strict"⟩,
      .explicit none⟩]
    (.cons (.siStmt (.sExpr (some ⟨⟨14, 0, 14⟩, ⟨21, 0, 21⟩⟩) (.eAssign none
      (.pSimple (.tId ⟨some ⟨⟨14, 0, 14⟩, ⟨15, 0, 15⟩⟩, .string c!"a"⟩))
      (.eUnop none ⟨none, .minus⟩ (.eId ⟨none, .string c!"b"⟩))) (.explicit none)))
    (.cons (.siStmt (.sExpr none (.eString none ⟨none, c!"c"⟩) (.explicit none))) .nil))

theorem exampleTracked_encoded : EncodesScript exampleTracked exampleProgram :=
  ⟨rfl, _, rfl, [_], [_, _], rfl,
    ⟨_, _, rfl, ⟨_, rfl, rfl, _, rfl, _, rfl, rfl, ⟨_, rfl, rfl⟩, rfl⟩, rfl⟩,
    ⟨_, _, rfl,
      ⟨_, rfl, rfl, _, rfl, _, rfl, rfl, rfl, ⟨_, rfl, ⟨_, rfl, rfl, rfl⟩, rfl⟩,
        _, rfl, _, rfl, rfl, rfl, rfl, _, rfl, ⟨_, rfl, rfl, rfl⟩, rfl⟩,
      ⟨_, _, rfl, ⟨_, rfl, rfl, _, rfl, _, rfl, rfl, ⟨_, rfl, rfl⟩, rfl⟩, rfl⟩⟩⟩

theorem exampleTracked_plain : Plain exampleTracked := plain_of_check 8 rfl

example : ∃ y, intoScript exampleProgram = .ok y ∧ y.eqv exampleTracked.untrack = true :=
  C44_partial _ _ exampleTracked_encoded exampleTracked_plain

/-- `[a] = b` as ESTree JSON. -/
def exampleDestructuring : Object :=
  [(c!"type", .string c!"Program"), (c!"body", .array [
    exampleStmt (.object [(c!"type", .string c!"AssignmentExpression"), (c!"operator", .string c!"="),
      (c!"left", .object [(c!"type", .string c!"ArrayPattern"),
        (c!"elements", .array [exampleId c!"a"])]),
      (c!"right", exampleId c!"b")])])]

/-- **C44 fails** for destructuring patterns: there is a script with an encoding that is not
converted back, because `ArrayPattern` and `ObjectPattern` are unknown node types. -/
theorem C44_fails_destructuring : ∃ (x : Script) (o : Object), EncodesScript x o ∧
    intoScript o = .err (.invalidTypeTag c!"ArrayPattern") :=
  ⟨.body none [] (.cons (.siStmt (.sExpr none (.eAssign none (.pCompound (.cArr none
      (.cons (.some (.pSimple (.tId ⟨none, .string c!"a"⟩))) .nil) .none))
      (.eId ⟨none, .string c!"b"⟩)) (.explicit none))) .nil),
    exampleDestructuring,
    ⟨rfl, _, rfl, [], [_], rfl, rfl,
      ⟨_, _, rfl,
        ⟨_, rfl, rfl, _, rfl, _, rfl, rfl, rfl,
          ⟨_, rfl, _, rfl, rfl, _, rfl, [_], ⟨_, _, rfl, ⟨⟨_, rfl, rfl, rfl⟩, rfl⟩, rfl⟩,
            .inl ⟨rfl, rfl⟩⟩,
          ⟨_, rfl, ⟨_, rfl, rfl, rfl⟩, rfl⟩⟩, rfl⟩⟩, rfl⟩

/-- **C44 fails** for the script `("a")`, whose only item is a parenthesized string: it is
converted to a script with a directive. -/
theorem C44_fails_string : ∃ (x : Script) (o : Object) (y : Script), EncodesScript x o ∧
    intoScript o = .ok y ∧ y.eqv x.untrack = false :=
  ⟨.body none [] (.cons (.siStmt (.sExpr none (.eString none ⟨none, c!"a"⟩) (.explicit none))) .nil),
    [(c!"type", .string c!"Program"), (c!"body", .array [exampleStmt (exampleString c!"a")])], _,
    ⟨rfl, _, rfl, [], [_], rfl, rfl,
      ⟨_, _, rfl, ⟨_, rfl, rfl, _, rfl, _, rfl, rfl, ⟨_, rfl, rfl⟩, rfl⟩, rfl⟩⟩, rfl, rfl⟩

end Esprit
