import Verif.Proofs.Parser.Modes
import Verif.Props.Parser

/-!
The four entry points compared: `program` and its three conversions against
`script`, `strict` and `module` (C30-C33); strict code and escapes (C29); the
`use strict` directive (C40).
-/

set_option linter.unusedSectionVars false

namespace Esprit

open Lex ReaderSpec Grammar

section Theorems

variable [Env] [LawfulEnv] {s : Str}

/-- The checks of a program are those collected by the run of its body. -/
theorem program_ok {x : Program} (h : program s = .ok x) :
    ∃ tree t, bodyRun s = .ok (tree, t) ∧ x = .ambiguous t.deferred tree := by
  have hp := program_of_script (2 * s.length + 2) (s := PState.fromChars s) rfl
  rw [← recFuel_eq] at hp
  unfold program at h
  cases hb : P.scriptBody (P.recOf (recFuel s)) (PState.fromChars s) with
  | ok v =>
    obtain ⟨tree, t⟩ := v
    rw [hb] at hp
    rcases hp with ⟨t', hp⟩ | ⟨tok, -, -, hp | hp⟩
    · rw [hp] at h
      cases h
      exact ⟨tree, t, hb, rfl⟩
    · rw [hp] at h; cases h
    · rw [hp] at h; cases h
  | err e =>
    rw [hb] at hp
    rcases hp with hp | ⟨tok, -, -, hp⟩
    · rw [hp] at h; cases h
    · cases hq : P.parseProgram (P.recOf (recFuel s)) (PState.fromChars s) with
      | ok v => exact (hp _ hq).elim
      | err e => rw [hq] at h; cases h
      | panic e => rw [hq] at h; cases h
      | fuel => rw [hq] at h; cases h
  | panic e =>
    rw [hb] at hp
    rcases hp with hp | hp
    · rw [hp] at h; cases h
    · -- a violated assertion would occur in `script`, too
      have h1 := body_sim s .script
      unfold bodyRun at h1
      rw [hb] at h1
      rcases h1 with h1 | ⟨h1, -⟩
      · have : script s = .panic e := by rw [script_eq, h1]; rfl
        rcases C24_script s e (.inl this) with h | h <;> rw [hp] at h <;> cases h
      · exact (h1 rfl).elim
  | fuel =>
    rw [hb] at hp
    have hp : P.parseProgram (P.recOf (recFuel s)) (PState.fromChars s) = .fuel := hp
    rw [hp] at h; cases h

/-- A run of the body in `program` mode is a run of `program`, up to its end. -/
theorem bodyRun_ok {tree : Script} {t : PState} (h : bodyRun s = .ok (tree, t)) :
    program s = .ok (.ambiguous t.deferred tree) ∨
    ∃ tok, program s = .err (.unexpectedToken tok) ∧
      tok.value ∈ [.rBrace, .reserved .case, .reserved .default] ∧ ∃ tl, t.la = tok :: tl := by
  have hp := program_of_script (2 * s.length + 2) (s := PState.fromChars s) rfl
  rw [← recFuel_eq] at hp
  unfold bodyRun at h
  rw [h] at hp
  unfold program
  rcases hp with ⟨t', hp⟩ | ⟨tok, h1, h2, hp | hp⟩
  · rw [hp]; exact .inl rfl
  · rw [hp]; exact .inr ⟨tok, rfl, h1, h2⟩
  · have : program s = .panic .debugAssert := by unfold program; rw [hp]; rfl
    rcases C24_module s _ (.inr this) with h | h | h <;> cases h

/-! ### C30, C31, C32: the conversions of a program -/

/-- C30.  When `program` accepts a source, `Program::script` returns what `script`
returns. -/
theorem C30_script (x : Program) (h : program s = .ok x) : x.script = script s := by
  obtain ⟨tree, t, hb, rfl⟩ := program_ok h
  unfold bodyRun at hb
  have h1 := body_sim s .script
  unfold bodyRun at h1
  rw [hb] at h1
  obtain ⟨-, -, new, -, h1⟩ := h1
  have h1 : P.scriptBody (P.recOf (recFuel s)) (Mode.script.of (.fromChars s)) =
    .ok (tree, Mode.script.of t) := h1
  rw [script_eq, h1]
  rfl

/-- C30, conversely.  When `script` accepts a source, `program` returns the same
tree, or rejects the token that `script` has stopped at. -/
theorem C30_program (tree : Script) (h : script s = .ok tree) :
    (∃ x, program s = .ok x ∧ x.script = .ok tree) ∨
    ∃ tok, program s = .err (.unexpectedToken tok) ∧
      tok.value ∈ [.rBrace, .reserved .case, .reserved .default] := by
  have h1 := body_sim s .script
  unfold bodyRun at h1
  rw [script_eq] at h
  cases hb : P.scriptBody (P.recOf (recFuel s)) (PState.fromChars s) with
  | ok v =>
    obtain ⟨a, t⟩ := v
    rw [hb] at h1
    obtain ⟨-, -, new, -, h1⟩ := h1
    have h1 : P.scriptBody (P.recOf (recFuel s)) (Mode.script.of (.fromChars s)) =
      .ok (a, Mode.script.of t) := h1
    rw [h1] at h
    cases h
    rcases bodyRun_ok hb with h | h
    · exact .inl ⟨_, h, rfl⟩
    · obtain ⟨tok, h, h2, -⟩ := h
      exact .inr ⟨tok, h, h2⟩
  | err e =>
    rw [hb] at h1
    obtain ⟨e', h1, -⟩ := h1
    rw [h1] at h; cases h
  | panic e =>
    rw [hb] at h1
    rcases h1 with h1 | ⟨-, e', h1⟩ <;> rw [h1] at h <;> cases h
  | fuel =>
    rw [hb] at h1
    rcases h1 with h1 | ⟨-, e', h1⟩ <;> rw [h1] at h <;> cases h

/-- C30, errors.  When `script` rejects a source, `program` reports the same error;
unless the error is at an `import` or `export`, where `program` does not succeed,
either. -/
theorem C30_error (e : PError) (h : script s = .err e) :
    program s = .err e ∨
    ∃ tok, e = .unexpectedToken tok ∧ tok.value ∈ [.reserved .import, .reserved .export] ∧
      ∀ x, program s ≠ .ok x := by
  have hp := program_of_script (2 * s.length + 2) (s := PState.fromChars s) rfl
  rw [← recFuel_eq] at hp
  have h1 := body_sim s .script
  unfold bodyRun at h1
  rw [script_eq] at h
  cases hb : P.scriptBody (P.recOf (recFuel s)) (PState.fromChars s) with
  | ok v =>
    obtain ⟨a, t⟩ := v
    rw [hb] at h1
    obtain ⟨-, -, new, -, h1⟩ := h1
    have h1 : P.scriptBody (P.recOf (recFuel s)) (Mode.script.of (.fromChars s)) =
      .ok (a, Mode.script.of t) := h1
    rw [h1] at h; cases h
  | err e2 =>
    rw [hb] at h1 hp
    obtain ⟨e', h1, h2⟩ := h1
    rw [h1] at h; cases h
    rw [h2 rfl]
    unfold program
    rcases hp with hp | ⟨tok, g1, rfl, g2⟩
    · rw [hp]; exact .inl rfl
    · refine .inr ⟨tok, rfl, g1, fun x hx => ?_⟩
      cases hq : P.parseProgram (P.recOf (recFuel s)) (PState.fromChars s) with
      | ok v => exact (g2 _ hq).elim
      | err e => rw [hq] at hx; cases hx
      | panic e => rw [hq] at hx; cases hx
      | fuel => rw [hq] at hx; cases hx
  | panic e =>
    rw [hb] at h1
    rcases h1 with h1 | ⟨h0, -⟩
    · rw [h1] at h; cases h
    · exact (h0 rfl).elim
  | fuel =>
    rw [hb] at h1
    rcases h1 with h1 | ⟨h0, -⟩
    · rw [h1] at h; cases h
    · exact (h0 rfl).elim

/-- C31.  When `program` accepts a source, `Program::strict` returns what `strict`
returns: the same tree or the same error. -/
theorem C31_strict (x : Program) (h : program s = .ok x) : x.strict = strict s := by
  obtain ⟨tree, t, hb, rfl⟩ := program_ok h
  unfold bodyRun at hb
  have h1 := body_sim s .strict
  unfold bodyRun at h1
  rw [hb] at h1
  obtain ⟨-, -, new, hn, h1⟩ := h1
  have hn : t.deferred = new := hn
  rw [strict_eq]
  unfold Program.strict
  rw [hn]
  show (match P.firstFailing false new with
    | some e => Res.err e
    | none => .ok tree) = _
  cases hf : P.firstFailing false new with
  | none =>
    rw [show Mode.strict.fails new = none from hf] at h1
    rw [h1]; rfl
  | some e =>
    rw [show Mode.strict.fails new = some e from hf] at h1
    have h1 : P.scriptBody (P.recOf (recFuel s)) (Mode.strict.of (.fromChars s)) = .err e := h1
    rw [h1]; rfl

/-- Where strict code is accepted, so is the body in `program` mode. -/
theorem bodyRun_of_strict {tree : Script} (h : strict s = .ok tree) :
    ∃ t, bodyRun s = .ok (tree, t) ∧ P.firstFailing false t.deferred = none := by
  have h1 := body_sim s .strict
  unfold bodyRun at h1
  rw [strict_eq] at h
  cases hb : P.scriptBody (P.recOf (recFuel s)) (PState.fromChars s) with
  | ok v =>
    obtain ⟨a, t⟩ := v
    rw [hb] at h1
    obtain ⟨-, -, new, hn, h1⟩ := h1
    have hn : t.deferred = new := hn
    cases hf : Mode.strict.fails new with
    | none =>
      rw [hf] at h1
      rw [h1] at h
      cases h
      exact ⟨t, hb, by rw [hn]; exact hf⟩
    | some e =>
      rw [hf] at h1
      have h1 : P.scriptBody (P.recOf (recFuel s)) (Mode.strict.of (.fromChars s)) = .err e := h1
      rw [h1] at h; cases h
  | err e =>
    rw [hb] at h1
    obtain ⟨e', h1, -⟩ := h1
    rw [h1] at h; cases h
  | panic e =>
    rw [hb] at h1
    rcases h1 with h1 | ⟨-, e', h1⟩ <;> rw [h1] at h <;> cases h
  | fuel =>
    rw [hb] at h1
    rcases h1 with h1 | ⟨-, e', h1⟩ <;> rw [h1] at h <;> cases h

/-- C31, conversely.  When `strict` accepts a source, so do `program` and
`Program::strict`, with the same tree; or `program` rejects the token that
`strict` has stopped at. -/
theorem C31_program (tree : Script) (h : strict s = .ok tree) :
    (∃ x, program s = .ok x ∧ x.strict = .ok tree) ∨
    ∃ tok, program s = .err (.unexpectedToken tok) ∧
      tok.value ∈ [.rBrace, .reserved .case, .reserved .default] := by
  obtain ⟨t, hb, hf⟩ := bodyRun_of_strict h
  rcases bodyRun_ok hb with h | h
  · refine .inl ⟨_, h, ?_⟩
    unfold Program.strict
    simp only [hf]
  · obtain ⟨tok, h, h2, -⟩ := h
    exact .inr ⟨tok, h, h2⟩

/-- C32.  When `program` accepts a source, `Program::module` returns what `module`
returns: the same tree or the same error. -/
theorem C32_module (x : Program) (h : program s = .ok x) : x.module = parseModule s := by
  have hp := program_of_module (2 * s.length + 2) (s := PState.fromChars s) rfl
  rw [← recFuel_eq] at hp
  have h1 := module_sim s .module
  unfold program at h
  rw [module_eq]
  cases hb : moduleBody (P.recOf (recFuel s)) (PState.fromChars s) with
  | ok v =>
    obtain ⟨tree, t⟩ := v
    rw [hb] at hp h1
    obtain ⟨t', tree', rfl, hp⟩ := hp
    rw [hp] at h
    cases h
    obtain ⟨-, -, new, hn, h1⟩ := h1
    have hn : t.deferred = new := hn
    unfold Program.module
    rw [hn]
    show (match P.firstFailing true new with
      | some e => Res.err e
      | none => .ok (Program.scriptToModule tree')) = _
    cases hf : P.firstFailing true new with
    | none =>
      rw [show Mode.module.fails new = none from hf] at h1
      rw [h1]; rfl
    | some e =>
      rw [show Mode.module.fails new = some e from hf] at h1
      have h1 : moduleBody (P.recOf (recFuel s)) (Mode.module.of (.fromChars s)) = .err e := h1
      rw [h1]; rfl
  | err e => rw [hb] at hp; rw [hp] at h; cases h
  | panic e =>
    rw [hb] at hp
    cases hq : P.parseProgram (P.recOf (recFuel s)) (PState.fromChars s) with
    | ok v => exact (hp _ hq).elim
    | err e => rw [hq] at h; cases h
    | panic e => rw [hq] at h; cases h
    | fuel => rw [hq] at h; cases h
  | fuel =>
    rw [hb] at hp
    have hp : P.parseProgram (P.recOf (recFuel s)) (PState.fromChars s) = .fuel := hp
    rw [hp] at h; cases h

/-- C32, conversely.  When `module` accepts a source, so do `program` and
`Program::module`, with the same tree. -/
theorem C32_program (tree : Module) (h : parseModule s = .ok tree) :
    ∃ x, program s = .ok x ∧ x.module = .ok tree := by
  have hp := program_of_module (2 * s.length + 2) (s := PState.fromChars s) rfl
  rw [← recFuel_eq] at hp
  have h1 := module_sim s .module
  have h0 := h
  rw [module_eq] at h
  cases hb : moduleBody (P.recOf (recFuel s)) (PState.fromChars s) with
  | ok v =>
    obtain ⟨a, t⟩ := v
    rw [hb] at hp
    obtain ⟨t', tree', rfl, hp⟩ := hp
    have hx : program s = .ok (.ambiguous t.deferred tree') := by unfold program; rw [hp]; rfl
    exact ⟨_, hx, by rw [C32_module _ hx, h0]⟩
  | err e =>
    rw [hb] at h1
    obtain ⟨e', h1, -⟩ := h1
    rw [h1] at h; cases h
  | panic e =>
    rw [hb] at h1
    rcases h1 with h1 | ⟨-, e', h1⟩ <;> rw [h1] at h <;> cases h
  | fuel =>
    rw [hb] at h1
    rcases h1 with h1 | ⟨-, e', h1⟩ <;> rw [h1] at h <;> cases h

/-! ### C33: strict code is sloppy code -/

/-- What `strict` accepts, `script` accepts, with the same tree. -/
theorem C33_strict_sloppy (tree : Script) (h : strict s = .ok tree) : script s = .ok tree := by
  obtain ⟨t, hb, -⟩ := bodyRun_of_strict h
  unfold bodyRun at hb
  have h1 := body_sim s .script
  unfold bodyRun at h1
  rw [hb] at h1
  obtain ⟨-, -, new, -, h1⟩ := h1
  have h1 : P.scriptBody (P.recOf (recFuel s)) (Mode.script.of (.fromChars s)) =
    .ok (tree, Mode.script.of t) := h1
  rw [script_eq, h1]
  rfl

/-- What `module` accepts, `strict` and `script` accept, with the same items. -/
theorem C33_module_strict (tree : Module) (h : parseModule s = .ok tree) :
    ∃ tree', strict s = .ok tree' ∧ script s = .ok tree' ∧ tree = Program.scriptToModule tree' := by
  obtain ⟨x, hx, hm⟩ := C32_program tree h
  obtain ⟨checks, tree', rfl, -⟩ := C34_program s x hx
  have hs := C31_strict _ hx
  unfold Program.module at hm
  unfold Program.strict at hs
  have hsub : P.firstFailing true checks = none → P.firstFailing false checks = none := by
    unfold P.firstFailing
    simp only [List.findSome?_eq_none_iff]
    intro h c hc
    have := h c hc
    cases c with
    | strict e => cases this
    | module e => rfl
  cases hf : P.firstFailing true checks with
  | some e => simp only [hf] at hm; cases hm
  | none =>
    simp only [hf] at hm
    simp only [hsub hf] at hs
    cases hm
    exact ⟨tree', hs.symm, C33_strict_sloppy tree' hs.symm, rfl⟩

end Theorems

section Examples

local instance modesEnv : Env := asciiEnv true

/-- The hypotheses are met by programs with deferred checks that fail in strict
code, in modules only, or not at all. -/
example : ∀ s ∈ [c!"var yield; with (a) b; function f(x) { return x }", c!"await = 1", c!"a + b"],
    (program s).isOk = true := by decide +kernel
example : (strict c!"var yield; with (a) b").isErr = true ∧ (script c!"var yield; with (a) b").isOk = true := by
  decide +kernel
example : (parseModule c!"await = 1").isErr = true ∧ (strict c!"await = 1").isOk = true ∧
    (parseModule c!"a + b").isOk = true := by decide +kernel

/-- The token that only `program` objects to. -/
example : (script c!"a }").isOk = true ∧ (strict c!"a; case").isOk = true ∧
    (program c!"a }").isErr = true ∧ (program c!"a; case").isErr = true := by decide +kernel

/-- C29 fails: `yield`, `let` and (in modules) `await` are accepted in strict code
when they are written with an escape. -/
theorem C29_fails : (strict c!"var \\u0079ield").isOk = true ∧ (strict c!"var yield").isErr = true ∧
    (strict c!"l\\u0065t = 1").isOk = true ∧ (strict c!"let = 1").isErr = true ∧
    (parseModule c!"\\u0061wait = 1").isOk = true ∧ (parseModule c!"await = 1").isErr = true := by
  decide +kernel

/-- C40 fails: after a `use strict` directive, in a script or in a function body,
violations of strict mode are accepted. -/
theorem C40_fails : ∀ s ∈ [c!"'use strict'; with (a) b", c!"\"use strict\"; var yield",
      c!"function f() { 'use strict'; with (a) b }", c!"x = function(eval) { \"use strict\"; var let }"],
    (script s).isOk = true ∧ (strict s).isErr = true := by decide +kernel

end Examples

end Esprit
