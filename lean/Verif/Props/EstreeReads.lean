import Verif.Proofs.EstreeWhole
import Verif.Props.EstreeRead

/-!
# What the ESTree conversion accepts (C60), and its errors (C61)

`Spec/EstreeReads.lean` says which tree a JSON value reads as, and which errors are
true of a JSON value.
-/

namespace Esprit

open Estree

/-- **C60**: an object is converted to a script exactly if it reads as that script. -/
theorem C60_conversion (x : Script) (o : Object) : intoScript o = .ok x ↔ ReadsScript x o := by
  refine ⟨fun h => ?_, intoScript_yields⟩
  have ht := intoScript_tells o
  rw [h] at ht
  exact ht

/-- **C60**: an object reads as at most one script. -/
theorem C60_unique (x y : Script) (o : Object) (hx : ReadsScript x o) (hy : ReadsScript y o) :
    x = y := by
  have h := (C60_conversion x o).mpr hx
  rw [(C60_conversion y o).mpr hy] at h
  injection h with h
  exact h.symm

/-- **C61**: an error is true of the object. -/
theorem C61_blame (o : Object) (e : EError) (h : intoScript o = .err e) : e.Blames (.object o) := by
  have ht := intoScript_tells o
  rw [h] at ht
  exact ht

/-- **C61**: an error is reported exactly if the object does not read as a script. -/
theorem C61_iff (o : Object) : (∃ e, intoScript o = .err e) ↔ ¬∃ x, ReadsScript x o := by
  constructor
  · rintro ⟨e, h⟩ ⟨x, hx⟩
    rw [(C60_conversion x o).mpr hx] at h
    cases h
  · intro h
    have hn := C43_no_panic o
    cases hr : intoScript o with
    | ok x => exact absurd ⟨x, (C60_conversion x o).mp hr⟩ h
    | err e => exact ⟨e, rfl⟩
    | panic p => rw [hr] at hn; obtain ⟨_, h⟩ | ⟨_, h⟩ := hn <;> cases h
    | fuel => rw [hr] at hn; obtain ⟨_, h⟩ | ⟨_, h⟩ := hn <;> cases h

/-- What the ESTree JSON of `"use strict"; a = -b; "c"` reads as. -/
def exampleUntracked : Script :=
  .body none [⟨none, ⟨none, c!"use strict"⟩, .explicit none⟩]
    (.cons (.siStmt (.sExpr none (.eAssign none (.pSimple (.tId (plainId c!"a")))
      (.eUnop none ⟨none, .minus⟩ (.eId (plainId c!"b")))) (.explicit none)))
    (.cons (.siStmt (.sExpr none (.eString none ⟨none, c!"c"⟩) (.explicit none))) .nil))

example : ReadsScript exampleUntracked exampleProgram :=
  ⟨_, rfl, .body (ds := [_]) (.cons ⟨_, _, _, rfl, rfl, rfl, rfl, rfl, rfl⟩ .nil)
    (.cons (.item (.sExpr rfl rfl (.assign rfl rfl rfl
        .id (.id ⟨_, _, rfl, rfl, rfl, rfl⟩) rfl
        (.unop rfl rfl rfl (.id ⟨_, _, rfl, rfl, rfl, rfl⟩)))))
      (.cons (.item (.sExpr rfl rfl (.string rfl rfl))) .nil))
    (fun i hi => by cases hi; rfl)⟩

/-- `[a] = b` with an array literal on the left reads as an assignment to a pattern. -/
def exampleArrayLeft : Object :=
  [(c!"body", .array [
    exampleStmt (.object [(c!"type", .string c!"AssignmentExpression"), (c!"operator", .string c!"="),
      (c!"left", .object [(c!"type", .string c!"ArrayExpression"),
        (c!"elements", .array [exampleId c!"a"])]),
      (c!"right", exampleId c!"b")])])]

example : ∃ x, intoScript exampleArrayLeft = .ok x ∧ ReadsScript x exampleArrayLeft :=
  ⟨_, rfl, (C60_conversion _ _).mp rfl⟩

/-- The error about `ArrayPattern` (`C44_fails_destructuring`) is true. -/
example : (EError.invalidTypeTag c!"ArrayPattern").Blames (.object exampleDestructuring) :=
  C61_blame _ _ rfl

/-- `const a;` is an error that names the constant. -/
def exampleConst : Object :=
  [(c!"body", .array [.object [(c!"type", .string c!"VariableDeclaration"), (c!"kind", .string c!"const"),
    (c!"declarations", .array [.object [(c!"id", exampleId c!"a"), (c!"init", .null)]])]])]

example : intoScript exampleConst = .err (.uninitializedPattern (.pSimple (.ident (plainId c!"a")))) :=
  rfl

example : ¬∃ x, ReadsScript x exampleConst := (C61_iff _).mp ⟨_, rfl⟩

/-- `({a: b})`, or `({[a]: b})` if the key is computed. -/
def exampleProperty (computed : Bool) : Object :=
  [(c!"body", .array [
    exampleStmt (.object [(c!"type", .string c!"ObjectExpression"), (c!"properties", .array [
      .object [(c!"type", .string c!"Property"), (c!"kind", .string c!"init"),
        (c!"method", .bool false), (c!"shorthand", .bool false), (c!"computed", .bool computed),
        (c!"key", exampleId c!"a"), (c!"value", exampleId c!"b")]])])])]

/-- **C60**, finding: a computed key of a property is taken for a name; `({[a]: b})` is converted to
`({a: b})` without an error. -/
theorem C60_computed_fails : ∃ x, intoScript (exampleProperty true) = .ok x ∧
    intoScript (exampleProperty false) = .ok x :=
  ⟨_, rfl, rfl⟩

/-- `({set a(b) {}})`, or `({set a(b, ...c) {}})`. -/
def exampleSetter (rest : Bool) : Object :=
  [(c!"body", .array [
    exampleStmt (.object [(c!"type", .string c!"ObjectExpression"), (c!"properties", .array [
      .object [(c!"type", .string c!"Property"), (c!"kind", .string c!"set"),
        (c!"method", .bool false), (c!"shorthand", .bool false), (c!"computed", .bool false),
        (c!"key", exampleId c!"a"),
        (c!"value", .object [(c!"type", .string c!"FunctionExpression"), (c!"generator", .bool false),
          (c!"params", .array (exampleId c!"b" :: if rest then
            [.object [(c!"type", .string c!"RestElement"), (c!"argument", exampleId c!"c")]] else [])),
          (c!"body", .object [(c!"type", .string c!"BlockStatement"), (c!"body", .array [])])])]])])])]

/-- **C60**, finding: the rest parameter of a setter, which no setter can have, is dropped without an
error. -/
theorem C60_setter_fails : ∃ x, intoScript (exampleSetter true) = .ok x ∧
    intoScript (exampleSetter false) = .ok x :=
  ⟨_, rfl, rfl⟩

end Esprit
