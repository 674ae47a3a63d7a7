import Verif.Proofs.Parser.BlameFns
import Verif.Spec.Env

/-!
What an error says about the source (C52).
-/

namespace Esprit

section Theorems

variable [Env] [LawfulEnv]

/-- Every error of `script` is the fault of something in the source: the token it
carries is a token of the source and is of the kind the error complains about, the
location it carries is a location of the source, and no error about strict code or
about modules is reported. -/
theorem C52_script (s : Str) (e : PError) (h : script s = .err e) :
    e.Blames s false false := by
  have := blame_script s false (recFuel s)
  unfold BlameAt at this
  unfold script outcome at h
  split at h <;> first | (cases h; done) | skip
  rename_i he
  rw [he] at this
  cases h
  exact this

/-- The same for `strict`. -/
theorem C52_strict (s : Str) (e : PError) (h : strict s = .err e) :
    e.Blames s true false := by
  have := blame_script s true (recFuel s)
  unfold BlameAt at this
  unfold strict outcome at h
  split at h <;> first | (cases h; done) | skip
  rename_i he
  rw [he] at this
  cases h
  exact this

/-- The same for `module`. -/
theorem C52_module (s : Str) (e : PError) (h : parseModule s = .err e) :
    e.Blames s true true := by
  have := blame_module s (recFuel s)
  unfold BlameAt at this
  unfold parseModule outcome at h
  split at h <;> first | (cases h; done) | skip
  rename_i he
  rw [he] at this
  cases h
  exact this

/-- The same for `program`. -/
theorem C52_program (s : Str) (e : PError) (h : program s = .err e) :
    e.Blames s true true := by
  have := blame_program s (recFuel s)
  unfold BlameAt at this
  unfold program outcome at h
  split at h <;> first | (cases h; done) | skip
  rename_i he
  rw [he] at this
  cases h
  exact this

private theorem program_checks {s : Str} {p : Program} (h : program s = .ok p) :
    ChecksBlame s p := by
  have := blame_program s (recFuel s)
  unfold BlameAt at this
  unfold program outcome at h
  split at h <;> first | (cases h; done) | skip
  rename_i he
  rw [he] at this
  cases h
  exact this.1

/-- A program that is accepted can be taken for a script. -/
theorem C52_program_script (s : Str) (p : Program) (hp : program s = .ok p) :
    ∃ x, p.script = .ok x := by
  obtain ⟨c, x, rfl, h⟩ := program_checks hp
  exact ⟨x, rfl⟩

/-- The error reported when an accepted program is taken for a strict script. -/
theorem C52_program_strict (s : Str) (p : Program) (e : PError) (hp : program s = .ok p)
    (h : p.strict = .err e) : e.Blames s true false := by
  obtain ⟨c, x, rfl, hc⟩ := program_checks hp
  simp only [Program.strict] at h
  split at h
  · rename_i e' h'
    cases h
    obtain ⟨c', hm, h2⟩ := List.exists_of_findSome?_eq_some h'
    exact hc c' hm _ _ h2
  · cases h

/-- The error reported when an accepted program is taken for a module. -/
theorem C52_program_module (s : Str) (p : Program) (e : PError) (hp : program s = .ok p)
    (h : p.module = .err e) : e.Blames s true true := by
  obtain ⟨c, x, rfl, hc⟩ := program_checks hp
  simp only [Program.module] at h
  split at h
  · rename_i e' h'
    cases h
    obtain ⟨c', hm, h2⟩ := List.exists_of_findSome?_eq_some h'
    exact hc c' hm _ _ h2
  · cases h

end Theorems

section Examples

local instance blameEnv : Env := asciiEnv true

/-- `try { } x`: the token after the block is reported. -/
example : (match script c!"try { } x" with
    | .err (.orphanTry t) => decide (t = ⟨⟨⟨8, 0, 8⟩, ⟨9, 0, 9⟩⟩, false, .identifier (.string c!"x")⟩)
    | _ => false) = true := by decide +kernel

/-- `switch (a) { default: default: }`: the second `default` is reported. -/
example : (match script c!"switch (a) { default: default: }" with
    | .err (.duplicateDefault t) => decide (t = ⟨⟨⟨22, 0, 22⟩, ⟨29, 0, 29⟩⟩, false, .reserved .default⟩)
    | _ => false) = true := by decide +kernel

/-- A `with` statement is reported in strict code. -/
example : (match strict c!"with (x) ;" with
    | .err (.strictWith t) => decide (t = ⟨⟨⟨0, 0, 0⟩, ⟨4, 0, 4⟩⟩, false, .reserved .with⟩)
    | _ => false) = true := by decide +kernel

/-- `await` is reported in a module. -/
example : (match parseModule c!"await;" with
    | .err (.contextualKeyword sp a) => decide (sp = ⟨⟨0, 0, 0⟩, ⟨5, 0, 5⟩⟩ ∧ a = .await)
    | _ => false) = true := by decide +kernel

/-- It is also reported when an accepted program turns out to be a module. -/
example : (match program c!"await;" with
    | .ok p => match p.strict, p.module with
      | .ok _, .err (.contextualKeyword sp a) => decide (sp = ⟨⟨0, 0, 0⟩, ⟨5, 0, 5⟩⟩ ∧ a = .await)
      | _, _ => false
    | _ => false) = true := by decide +kernel

/-- An error in the middle of a line: `x = 1 + ;` blames the semicolon. -/
example : (match script c!"x = 1 + ;" with
    | .err (.unexpectedToken t) => decide (t = ⟨⟨⟨8, 0, 8⟩, ⟨9, 0, 9⟩⟩, false, .semi⟩)
    | _ => false) = true := by decide +kernel

/-- The claim is not empty: no token of a source without `with` may be blamed for one. -/
example (t : Token) (h : t.value = .semi) (s : Str) (st mo : Bool) :
    ¬ (PError.strictWith t).Blames s st mo := by
  rintro ⟨-, -, h'⟩
  rw [h] at h'
  cases h'

end Examples

end Esprit
