import Verif.Model.EstreeText
import Verif.Spec.EstreeText
import Verif.Proofs.Text
import Verif.Props.EstreeReads

/-!
# The texts of ESTree errors, and deserialization (C64)
-/

namespace Esprit

open Estree

/-- How the text of an error begins. -/
private inductive Head where
  | type (expected : Str)
  | missing
  | bounds
  | length (expected : Nat)
  | string (expected : Str)
  | tag
  | node (expected : Str)
  | initializer
  | lhs
  | pattern
  deriving DecidableEq

private def Head.text : Head → Str
  | .type expected => c!"expected " ++ expected ++ c!", got "
  | .missing => c!"missing object field '"
  | .bounds => c!"array index "
  | .length expected => c!"expected array of length " ++ Nat.toDigits 10 expected ++ c!", got array of length "
  | .string expected => c!"expected " ++ expected ++ c!", got "
  | .tag => c!"expected node type tag, got "
  | .node expected => c!"expected " ++ expected ++ c!" node, got "
  | .initializer => c!"unexpected initializer in for-in loop"
  | .lhs => c!"invalid left-hand side of assignment"
  | .pattern => c!"uninitialized constant pattern in declarator"

private def Head.of : EError → Head
  | .json (.typeMismatch e _) => .type e
  | .json (.missingField _) => .missing
  | .json (.indexOutOfBounds _ _) => .bounds
  | .json (.wrongArrayLength e _) => .length e
  | .json (.illegalString e _) => .string e
  | .invalidTypeTag _ => .tag
  | .nodeTypeMismatch e _ => .node e
  | .unexpectedInitializer _ => .initializer
  | .invalidLHS _ => .lhs
  | .uninitializedPattern _ => .pattern

/-- The beginnings of the texts of errors of the conversion. -/
private def heads : List Head :=
  typeWords.map (fun w => .type w.1) ++
  [.type c!"'init', 'get', or 'set'", .type c!"identifier, number literal, or string literal",
    .missing, .length 1, .string c!"binary operator", .string c!"logical operator",
    .string c!"assignment operator", .string c!"unary operator", .string c!"'++' or '--'",
    .string c!"var or let", .string c!"var", .string c!"new.target", .tag] ++
  nodeWords.map (fun w => .node w.1) ++ [.initializer, .lhs, .pattern]

/-- None is the beginning of another. -/
private theorem heads_free : ∀ a ∈ heads, ∀ b ∈ heads, a.text <+: b.text → a = b := by
  decide +kernel

private theorem heads_inj {a b : Head} (ha : a ∈ heads) (hb : b ∈ heads) {x y : Str}
    (h : a.text ++ x = b.text ++ y) : a = b ∧ x = y := by
  have : a = b := by
    rcases List.append_eq_append_iff.mp h with ⟨c, h1, _⟩ | ⟨c, h1, _⟩
    · exact heads_free a ha b hb ⟨c, h1.symm⟩
    · exact (heads_free b hb a ha ⟨c, h1.symm⟩).symm
  subst this
  exact ⟨rfl, List.append_cancel_left h⟩

private theorem head_mem {j : Json} {e : EError} (h : e.Blames j) : Head.of e ∈ heads := by
  match e, h with
  | .json (.missingField _), _ => show Head.missing ∈ heads; decide +kernel
  | .json (.typeMismatch ex _), .inl ⟨_, tys, _, _, hm, _⟩ =>
    exact List.mem_append_left _ (List.mem_append_left _ (List.mem_append_left _
      (List.mem_map.mpr ⟨(ex, tys), hm, rfl⟩)))
  | .json (.typeMismatch _ _), .inr (.inl ⟨rfl, _⟩) =>
    show Head.type _ ∈ heads
    decide +kernel
  | .json (.typeMismatch _ _), .inr (.inr ⟨rfl, _⟩) =>
    show Head.type _ ∈ heads
    decide +kernel
  | .json (.wrongArrayLength _ _), ⟨rfl, _⟩ =>
    show Head.length 1 ∈ heads
    decide +kernel
  | .json (.illegalString _ _), h =>
    show Head.string _ ∈ heads
    cases h <;> decide +kernel
  | .invalidTypeTag _, _ => show Head.tag ∈ heads; decide +kernel
  | .nodeTypeMismatch ex _, ⟨_, types, _, _, hm, _⟩ =>
    exact List.mem_append_left _ (List.mem_append_right _
      (List.mem_map.mpr ⟨(ex, types), hm, rfl⟩))
  | .unexpectedInitializer _, _ => show Head.initializer ∈ heads; decide +kernel
  | .invalidLHS _, _ => show Head.lhs ∈ heads; decide +kernel
  | .uninitializedPattern _, _ => show Head.pattern ∈ heads; decide +kernel

private def tail [DebugStr] : EError → Str
  | .json (.typeMismatch _ ty) => ty.display
  | .json (.missingField name) => name ++ c!"'"
  | .json (.wrongArrayLength _ n) => Nat.toDigits 10 n
  | .json (.illegalString _ s) => DebugStr.text s
  | .invalidTypeTag s => s
  | .nodeTypeMismatch _ t => t.debug
  | _ => []

private theorem display_split [DebugStr] {j : Json} {e : EError} (h : e.Blames j) :
    e.display = (Head.of e).text ++ tail e := by
  match e, h with
  | .json (.missingField _), _ => exact List.append_assoc ..
  | .json (.typeMismatch _ _), _ => rfl
  | .json (.wrongArrayLength _ _), _ => rfl
  | .json (.illegalString _ _), _ => rfl
  | .invalidTypeTag _, _ => rfl
  | .nodeTypeMismatch _ _, _ => rfl
  | .unexpectedInitializer _, _ => exact (List.append_nil _).symm
  | .invalidLHS _, _ => exact (List.append_nil _).symm
  | .uninitializedPattern _, ⟨_, _, _, rfl, _⟩ => exact (List.append_nil _).symm

private theorem ty_inj {a b : Ty} (h : a.display = b.display) : a = b := by
  revert h; cases a <;> cases b <;> decide +kernel

private theorem tag_inj {a b : Tag} (h : a.debug = b.debug) : a = b := by
  have ha : Tag.fromStr a.debug = some a := by cases a <;> rfl
  have hb : Tag.fromStr b.debug = some b := by cases b <;> rfl
  rw [h, hb] at ha
  injection ha with ha
  exact ha.symm

private theorem agrees_of [DebugStr] {e e' : EError}
    (hn : ∀ a b, e ≠ .json (.indexOutOfBounds a b)) (h1 : Head.of e = Head.of e')
    (h2 : tail e = tail e') : e.Agrees e' := by
  rcases e with (_ | _ | _ | _ | _) | _ | _ | _ | _ | _ <;>
  rcases e' with (_ | _ | _ | _ | _) | _ | _ | _ | _ | _ <;> first
    | (cases h1; done)
    | trivial
    | exact absurd rfl (hn _ _)
    | (cases h1; cases ty_inj h2; rfl)
    | (cases List.append_cancel_right h2; rfl)
    | (cases h1; cases decimal_injective h2; rfl)
    | (cases h1; cases DebugStr.injective _ _ h2; rfl)
    | exact h2
    | (cases h1; exact ⟨rfl, tag_inj h2⟩)

private theorem of_agrees [DebugStr] {e e' : EError} (ha : e.Agrees e') :
    (Head.of e).text ++ tail e = (Head.of e').text ++ tail e' := by
  cases e <;> cases e' <;> first
    | exact ha.elim
    | rfl
    | (cases (show _ = _ from ha); rfl)
    | (obtain ⟨rfl, rfl⟩ := ha; rfl)

/-- **C64**: two errors of the conversion have the same text exactly if they are of the same
kind and name the same things. -/
theorem C64_text [DebugStr] (o o' : Object) (e e' : EError) (h : intoScript o = .err e)
    (h' : intoScript o' = .err e') : e.display = e'.display ↔ e.Agrees e' := by
  have hb := C61_blame o e h
  have hb' := C61_blame o' e' h'
  clear h h'
  rw [display_split hb, display_split hb']
  constructor
  · intro ht
    obtain ⟨h1, h2⟩ := heads_inj (head_mem hb) (head_mem hb') ht
    clear ht
    exact agrees_of (fun a b h => by subst h; exact hb) h1 h2
  · exact of_agrees

/-- **C64**: a JSON value is deserialized to a script exactly if it is an object that reads as
the script; of any other object the text of the error of the conversion is reported. -/
theorem C64_deserialize [DebugStr] (j : Json) :
    (∀ x, deserialize j = .ok (.script x) ↔ ∃ o, j = .object o ∧ ReadsScript x o) ∧
    (∀ m, deserialize j = .ok (.custom m) ↔
      ∃ o e, j = .object o ∧ intoScript o = .err e ∧ m = e.display) ∧
    (deserialize j = .ok .other ↔ ∀ o, j ≠ .object o) := by
  cases j with
  | object o =>
    have hn := C43_no_panic o
    have hx := C60_conversion (o := o)
    refine ⟨fun x => ?_, fun m => ?_, ?_⟩ <;> rcases hn with ⟨y, hy⟩ | ⟨e, he⟩
    · rw [deserialize, hy]
      refine ⟨fun h => ?_, fun ⟨_, h, hr⟩ => ?_⟩
      · cases h; exact ⟨o, rfl, (hx _).mp hy⟩
      · cases h
        have := (hx x).mpr hr
        rw [hy] at this
        cases this
        rfl
    · rw [deserialize, he]
      refine ⟨fun h => (by cases h), fun ⟨_, h, hr⟩ => ?_⟩
      cases h
      have := (hx x).mpr hr
      rw [he] at this
      cases this
    · rw [deserialize, hy]
      refine ⟨fun h => (by cases h), fun ⟨_, _, h, h', _⟩ => ?_⟩
      cases h
      rw [hy] at h'
      cases h'
    · rw [deserialize, he]
      refine ⟨fun h => (by cases h; exact ⟨o, e, rfl, he, rfl⟩), fun ⟨_, _, h, h', hm⟩ => ?_⟩
      cases h
      rw [he] at h'
      cases h'
      rw [hm]
    · rw [deserialize, hy]
      exact ⟨fun h => (by cases h), fun h => absurd rfl (h o)⟩
    · rw [deserialize, he]
      exact ⟨fun h => (by cases h), fun h => absurd rfl (h o)⟩
  | _ =>
    refine ⟨fun x => ⟨fun h => (by cases h), fun ⟨_, h, _⟩ => (by cases h)⟩,
      fun m => ⟨fun h => (by cases h), fun ⟨_, _, h, _⟩ => (by cases h)⟩,
      ⟨fun _ _ h => (by cases h), fun _ => rfl⟩⟩

section Examples

/-- An injective text of strings. -/
local instance textStr : DebugStr := ⟨fun s => '"' :: s, fun _ => rfl, fun _ _ h => (List.cons.inj h).2⟩

/-- `const a;` and `[a] = b`, with different texts. -/
example : deserialize (.object exampleConst) =
      .ok (.custom c!"uninitialized constant pattern in declarator") ∧
    deserialize (.object exampleDestructuring) =
      .ok (.custom c!"expected node type tag, got ArrayPattern") := ⟨rfl, rfl⟩

example : ∃ e e', intoScript exampleConst = .err e ∧ intoScript exampleDestructuring = .err e' ∧
    e.display ≠ e'.display :=
  ⟨_, _, rfl, rfl, fun h => ((C64_text exampleConst exampleDestructuring _ _ rfl rfl).mp h).elim⟩

/-- The texts of the errors that the conversion never gives. -/
example :
    (JsonError.indexOutOfBounds 3 5).display = c!"array index 5 out of bounds (length 3)" ∧
    (EError.uninitializedPattern (.pCompound (.cArr none .nil .none))).display =
      c!"uninitialized array pattern in declarator" ∧
    (EError.uninitializedPattern (.pCompound (.cObj none .nil))).display =
      c!"uninitialized object pattern in declarator" := ⟨rfl, rfl, rfl⟩

example : ∃ x, deserialize (.object exampleProgram) = .ok (.script x) := ⟨_, rfl⟩

end Examples

end Esprit
