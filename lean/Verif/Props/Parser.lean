import Verif.Proofs.Parser.Top
import Verif.Spec.Env
import Verif.Props.Syntax

/-!
The parser: termination (C23), internal assertions (C24), and soundness with
respect to the grammar (C34).
-/

namespace Esprit

open Lex ReaderSpec Grammar

section Theorems

variable [Env] [LawfulEnv]

theorem outcome_wp {α : Type} {u : Bool} {m : P α} {s : PState} {Q : α → PState → Prop}
    (h : P.wp u m s Q) :
    outcome (m s) ≠ .fuel ∧
    (∀ p, outcome (m s) = .panic p →
      p = .readPastEnd ∨ p = .overflow ∨ (u = true ∧ p = .unimplemented)) ∧
    (∀ a, outcome (m s) = .ok a → ∃ s', Q a s') := by
  unfold P.wp at h
  cases hm : m s with
  | ok v =>
    rw [hm] at h
    refine ⟨fun h => (by cases h), fun _ h => (by cases h), fun a ha => ?_⟩
    cases ha
    exact ⟨_, h⟩
  | err e => exact ⟨fun h => (by cases h), fun _ h => (by cases h), fun _ h => (by cases h)⟩
  | panic p =>
    rw [hm] at h
    refine ⟨fun h => (by cases h), fun q hq => ?_, fun _ h => (by cases h)⟩
    cases hq
    exact h
  | fuel => rw [hm] at h; exact h.elim

/-! ### C23: termination -/

/-- Every entry point finishes on every input: neither the nesting of recursive
calls exceeds `recFuel s = 2 * s.length + 4`, nor does any loop of the parser
take more steps than there are unread characters and buffered tokens. -/
theorem C23_terminates (s : Str) :
    script s ≠ .fuel ∧ strict s ≠ .fuel ∧ parseModule s ≠ .fuel ∧ program s ≠ .fuel :=
  ⟨(outcome_wp (wp_parseScript false)).1, (outcome_wp (wp_parseScript true)).1,
    (outcome_wp wp_parseModule).1, (outcome_wp wp_parseProgram).1⟩

/-! ### C24: internal assertions -/

/-- `script` and `strict` never fail an assertion, an `unwrap` or an
`unreachable!`, and never reach an `unimplemented!`.  What remains are the
panics of the lexer. -/
theorem C24_script (s : Str) (p : Panic) (h : script s = .panic p ∨ strict s = .panic p) :
    p = .readPastEnd ∨ p = .overflow := by
  rcases h with h | h
  · rcases (outcome_wp (wp_parseScript false)).2.1 p h with h | h | ⟨h, _⟩
    · exact .inl h
    · exact .inr h
    · cases h
  · rcases (outcome_wp (wp_parseScript true)).2.1 p h with h | h | ⟨h, _⟩
    · exact .inl h
    · exact .inr h
    · cases h

/-- `module` and `program` may, in addition, reach an `unimplemented!` (at an
import or export). -/
theorem C24_module (s : Str) (p : Panic) (h : parseModule s = .panic p ∨ program s = .panic p) :
    p = .readPastEnd ∨ p = .overflow ∨ p = .unimplemented := by
  rcases h with h | h
  · rcases (outcome_wp wp_parseModule).2.1 p h with h | h | ⟨_, h⟩
    · exact .inl h
    · exact .inr (.inl h)
    · exact .inr (.inr h)
  · rcases (outcome_wp wp_parseProgram).2.1 p h with h | h | ⟨_, h⟩
    · exact .inl h
    · exact .inr (.inl h)
    · exact .inr (.inr h)

/-! ### C34: soundness -/

/-- A tree returned by `script` is derived by the grammar from the first tokens
of the source (found in some sequence of operator modes). -/
theorem C34_script (s : Str) (tree : Script) (h : script s = .ok tree) :
    ∃ ops ts k rest, Tokens s 0 true ops ts k ∧
      Derives (Located s) (Scope.script false) (.body .items) ts rest tree :=
  ((outcome_wp (wp_parseScript false)).2.2 tree h).elim fun _ h => h

/-- A tree returned by `strict` is derived by the grammar of strict code. -/
theorem C34_strict (s : Str) (tree : Script) (h : strict s = .ok tree) :
    ∃ ops ts k rest, Tokens s 0 true ops ts k ∧
      Derives (Located s) (Scope.script true) (.body .items) ts rest tree :=
  ((outcome_wp (wp_parseScript true)).2.2 tree h).elim fun _ h => h

/-- A tree returned by `module` is derived by the grammar of module code, up to
the end of the source. -/
theorem C34_module (s : Str) (tree : Module) (h : parseModule s = .ok tree) :
    ∃ ops ts k rest, Tokens s 0 true ops ts k ∧
      Derives (Located s) Scope.moduleCode (.body .modItems) ts rest tree :=
  ((outcome_wp wp_parseModule).2.2 tree h).elim fun _ h => h

/-- A tree returned by `program` is derived by the grammar of sloppy code, up to
the end of the source; `program` never returns a module. -/
theorem C34_program (s : Str) (x : Program) (h : program s = .ok x) :
    ∃ checks tree, x = .ambiguous checks tree ∧ ∃ ops ts k rest, Tokens s 0 true ops ts k ∧
      Derives (Located s) (Scope.script false) (.body .items) ts rest tree ∧ NextIs rest .eof :=
  ((outcome_wp wp_parseProgram).2.2 x h).elim fun _ h => h

end Theorems

section Examples

local instance parserEnv : Env := asciiEnv true

/-- `asciiEnv` is an environment as the theorems require. -/
example : LawfulEnv := asciiEnv_lawful true

/-- The hypotheses of C34 are met: the four entry points accept programs. -/
example : (script c!"a: while (x) { if (y-- / 2) continue a; else break }").isOk = true := by
  decide +kernel
example : (strict c!"function f(a, ...b) { return {get x() { return a }, y: [1,,b]} }").isOk = true := by
  decide +kernel
example : (parseModule c!"'use module'; for (var i = 0; i < 3; i++) switch (i) { default: f(i) }").isOk = true := by
  decide +kernel
example : (program c!"let x = /[a]/g, y = new Foo; try { x.y = z } catch (e) {}").isOk = true := by
  decide +kernel

/-- The panics that C24 leaves are reached. -/
example : (match script c!"/abc" with | .panic p => p == .readPastEnd | _ => false) = true := by
  decide +kernel
example : (match program c!"export var x" with | .panic p => p == .unimplemented | _ => false) = true := by
  decide +kernel

end Examples

end Esprit
