import Verif.Proofs.Parser.LayoutKnot
import Verif.Proofs.LayoutSep
import Verif.Spec.Env

/-!
Layout: C55.  The result of a parse depends on the source only through its tokens: white
space and comments show only in the positions and in the newline flags of the tokens.
-/

namespace Esprit

open Lex ReaderSpec

section Theorems

variable [Env] [LawfulEnv]

/-- C55: there are lexer modes `ops` such that `script` gives the same tree, error or panic, up to
positions, for every source that has the same tokens in these modes. -/
theorem C55_script (s : Str) : ∃ ops, ∀ s', SameTokens ops s s' →
    SameOutcome Ast.blur (script s) (script s') :=
  letI : Prompt := ⟨False⟩
  layout_outcome (p := fun r => P.parseScript r false) (fun hr => lay_parseScript _ hr)
    (fun hr => le_parseScript _ hr) (fun s => (C23_terminates s).1) s

/-- C55 for `strict`. -/
theorem C55_strict (s : Str) : ∃ ops, ∀ s', SameTokens ops s s' →
    SameOutcome Ast.blur (strict s) (strict s') :=
  letI : Prompt := ⟨False⟩
  layout_outcome (p := fun r => P.parseScript r true) (fun hr => lay_parseScript _ hr)
    (fun hr => le_parseScript _ hr) (fun s => (C23_terminates s).2.1) s

/-- C55 for `module`. -/
theorem C55_module (s : Str) : ∃ ops, ∀ s', SameTokens ops s s' →
    SameOutcome Ast.blur (parseModule s) (parseModule s') :=
  letI : Prompt := ⟨False⟩
  layout_outcome (p := P.parseModule) (fun hr => lay_parseModule hr)
    (fun hr => le_parseModule hr) (fun s => (C23_terminates s).2.2.1) s

/-- C55 for `program`. -/
theorem C55_program (s : Str) : ∃ ops, ∀ s', SameTokens ops s s' →
    SameOutcome Program.blur (program s) (program s') :=
  letI : Prompt := ⟨False⟩
  layout_outcome (p := P.parseProgram) (fun hr => lay_parseProgram hr id)
    (fun hr => le_parseProgram hr) (fun s => (C23_terminates s).2.2.2) s

private theorem separators {α : Type} {blur : α → α} {f : Str → Res PError α} {s : Str}
    {ops : List Bool} (h : ∀ s', SameTokens ops s s' → SameOutcome blur (f s) (f s'))
    (n : Nat) (ts : List Token) (l : Lexer) (hr : readTokens s (ops.take n) = .ok (ts, l))
    (i : Nat) (t : Token) (w : Str) (hw : Reseparates s ts i t w) :
    SameOutcome blur (f s) (f (reseparate s ts i t w)) := by
  obtain ⟨e, he, hc⟩ := hw.trivia
  exact h _ (sameTokens_separators s ops n ts l hr i t hw.token hw.noEof w e hw.nonempty he hw.newline
    hc fun p hp => ⟨hw.slash p hp, hw.angle p hp⟩)

/-- C55: white space and comments do not matter.  There are lexer modes `ops` on which the outcome of
`script` depends as above; and wherever the source has a token in these modes, the white space and
comments before it can be replaced by others, with or without a line terminator as before, and
`script` gives the same tree, error or panic up to positions. -/
theorem C55_script_separators (s : Str) : ∃ ops,
    (∀ s', SameTokens ops s s' → SameOutcome Ast.blur (script s) (script s')) ∧
    ∀ n ts l, readTokens s (ops.take n) = .ok (ts, l) → ∀ i t w, Reseparates s ts i t w →
      SameOutcome Ast.blur (script s) (script (reseparate s ts i t w)) := by
  obtain ⟨ops, h⟩ := C55_script s
  exact ⟨ops, h, separators h⟩

/-- C55: white space and comments do not matter to `strict`. -/
theorem C55_strict_separators (s : Str) : ∃ ops,
    (∀ s', SameTokens ops s s' → SameOutcome Ast.blur (strict s) (strict s')) ∧
    ∀ n ts l, readTokens s (ops.take n) = .ok (ts, l) → ∀ i t w, Reseparates s ts i t w →
      SameOutcome Ast.blur (strict s) (strict (reseparate s ts i t w)) := by
  obtain ⟨ops, h⟩ := C55_strict s
  exact ⟨ops, h, separators h⟩

/-- C55: white space and comments do not matter to `module`. -/
theorem C55_module_separators (s : Str) : ∃ ops,
    (∀ s', SameTokens ops s s' → SameOutcome Ast.blur (parseModule s) (parseModule s')) ∧
    ∀ n ts l, readTokens s (ops.take n) = .ok (ts, l) → ∀ i t w, Reseparates s ts i t w →
      SameOutcome Ast.blur (parseModule s) (parseModule (reseparate s ts i t w)) := by
  obtain ⟨ops, h⟩ := C55_module s
  exact ⟨ops, h, separators h⟩

/-- C55: white space and comments do not matter to `program`. -/
theorem C55_program_separators (s : Str) : ∃ ops,
    (∀ s', SameTokens ops s s' → SameOutcome Program.blur (program s) (program s')) ∧
    ∀ n ts l, readTokens s (ops.take n) = .ok (ts, l) → ∀ i t w, Reseparates s ts i t w →
      SameOutcome Program.blur (program s) (program (reseparate s ts i t w)) := by
  obtain ⟨ops, h⟩ := C55_program s
  exact ⟨ops, h, separators h⟩

end Theorems

section Examples

local instance layoutEnv : Env := asciiEnv true
local instance layoutEnvLawful : LawfulEnv := asciiEnv_lawful true

private theorem sameRead {x y : Res LexError (List Token × Lexer)}
    (h : x.map (·.1.map Token.blur) = y.map (·.1.map Token.blur)) (hx : x ≠ .fuel) :
    SameRead x y := by
  cases x <;> cases y <;> simp_all [Res.map, SameRead]

private theorem sameTokens {ops : List Bool} {s s' : Str}
    (h : ∀ i ∈ List.range (ops.length + 1), (readTokens s (ops.take i)).map (·.1.map Token.blur) =
      (readTokens s' (ops.take i)).map (·.1.map Token.blur)) : SameTokens ops s s' := by
  intro i
  rcases Nat.le_total i ops.length with hi | hi
  · exact sameRead (h i (by simp; omega)) (readTokens_no_fuel _ _)
  · have := h ops.length (by simp)
    rw [List.take_of_length_le hi, List.take_of_length_le (Nat.le_refl _)] at *
    exact sameRead this (readTokens_no_fuel _ _)

/-- Two sources with the same tokens, in the modes in which the parser reads them: other white space,
comments and line ends. -/
example : SameTokens [false, true, false, true, true, false] c!"x=/a/ + b" c!"\tx = /* = */ /a/+ b // end" :=
  sameTokens (by decide +kernel)

/-- The two sources give the same tree up to positions. -/
example : (match script c!"x=/a/ + b", script c!"\tx = /* = */ /a/+ b // end" with
    | .ok (.body _ _ (.cons (.siStmt (.sExpr _ (.eAssign _ _ (.eBinop _ _ (.eRegExp _ _) (.eId _))) _)) .nil)),
      .ok (.body _ _ (.cons (.siStmt (.sExpr _ (.eAssign _ _ (.eBinop _ _ (.eRegExp _ _) (.eId _))) _)) .nil)) =>
      true
    | _, _ => false) = true := by
  decide +kernel

/-- Line ends do matter: with a line end before it, `++` belongs to the next line. -/
example : (match script c!"a ++\nb", script c!"a\n++ b" with
    | .ok (.body _ _ (.cons (.siStmt (.sExpr _ (.ePostInc _ _) _)) _)),
      .ok (.body _ _ (.cons (.siStmt (.sExpr _ (.eId _) _)) _)) => true
    | _, _ => false) = true := by
  decide +kernel

private def exampleTokens : List Token :=
  [⟨⟨⟨0, 0, 0⟩, ⟨1, 0, 1⟩⟩, false, .identifier (.string c!"x")⟩,
   ⟨⟨⟨1, 0, 1⟩, ⟨2, 0, 2⟩⟩, false, .assign⟩,
   ⟨⟨⟨2, 0, 2⟩, ⟨3, 0, 3⟩⟩, false, .identifier (.string c!"a")⟩,
   ⟨⟨⟨4, 0, 4⟩, ⟨5, 0, 5⟩⟩, false, .plus⟩,
   ⟨⟨⟨6, 0, 6⟩, ⟨7, 0, 7⟩⟩, false, .identifier (.string c!"b")⟩]

example : (readTokens c!"x=a + b" [false, true, false, true, false]).map (·.1) =
    .ok exampleTokens := by
  decide +kernel

/-- The separator before `b` can be replaced by a comment. -/
example : Reseparates c!"x=a + b" exampleTokens 4
    ⟨⟨⟨6, 0, 6⟩, ⟨7, 0, 7⟩⟩, false, .identifier (.string c!"b")⟩ c!"/* b */" where
  token := by decide +kernel
  noEof := by decide +kernel
  nonempty := by decide +kernel
  trivia := ⟨_, .block (k := c!"/* b */") (.mk (b := c!" b ") (by decide)) .nil, by decide⟩
  newline := by decide +kernel
  slash := by
    intro p hp h
    have : p.value = .plus := by cases hp; rfl
    rw [this] at h; cases h
  angle := by
    intro p hp h
    have : p.value = .plus := by cases hp; rfl
    rw [this] at h; cases h

end Examples

end Esprit
