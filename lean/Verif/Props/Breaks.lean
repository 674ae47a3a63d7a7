import Verif.Proofs.Complete.Breaks
import Verif.Props.Exact
import Verif.Props.Lexer
import Verif.Spec.Semis

/-!
Line breaks can be added (C78): if a text is accepted, then it is accepted with the same tree if line feeds
are added before any of its tokens, except before `++` and `--`, and after `break`, `continue`, `return`
and `throw` (there only before `;` and `}`).

If all semicolons are written, then the other line breaks do not matter at all (C79).
-/

set_option linter.unusedSectionVars false

namespace Esprit

open Lex ReaderSpec Grammar

section Theorems

variable [Env] [LawfulEnv] {s : Str}

/-- C78: if `script` accepts a text, then it accepts the text with line feeds before any tokens where they
can be added, with a similar tree (the same up to locations and the origin of semicolons).  No statement is
labelled twice with the same name. -/
theorem C78_script {x : Script} (h : script s = .ok x) (hd : DistinctLabels x) :
    ∃ ops ts k, Tokens s 0 true ops ts k ∧ ∀ P : Nat → Bool, (∀ n, P n = true → MayBreak ts n) →
      ∃ y, script (breakLines P 0 s) = .ok y ∧ Ast.Similar y x := by
  obtain ⟨ops, ts, k, rest, h1, h2⟩ := C34_script s x h
  refine ⟨ops, ts, k, h1, fun P hP => ?_⟩
  obtain ⟨ts', k', h3, h4⟩ := Breaks.tokens h1 hP
  obtain ⟨rest', x', _, h5, h6⟩ := Rename.derives Rename.noRenaming_ok (derives_plain h1 h2 rfl hd) rfl h4
  rw [Rename.ast_rename] at h6
  obtain ⟨y, h7, h8⟩ := C50_script x' h3 h5
  exact ⟨y, h7, h8.trans h6⟩

/-- C78 for strict code. -/
theorem C78_strict {x : Script} (h : strict s = .ok x) (hd : DistinctLabels x) :
    ∃ ops ts k, Tokens s 0 true ops ts k ∧ ∀ P : Nat → Bool, (∀ n, P n = true → MayBreak ts n) →
      ∃ y, strict (breakLines P 0 s) = .ok y ∧ Ast.Similar y x := by
  obtain ⟨ops, ts, k, rest, h1, h2⟩ := C34_strict s x h
  refine ⟨ops, ts, k, h1, fun P hP => ?_⟩
  obtain ⟨ts', k', h3, h4⟩ := Breaks.tokens h1 hP
  obtain ⟨rest', x', _, h5, h6⟩ := Rename.derives Rename.noRenaming_ok (derives_plain h1 h2 rfl hd) rfl h4
  rw [Rename.ast_rename] at h6
  obtain ⟨y, h7, h8⟩ := C50_strict x' h3 h5
  exact ⟨y, h7, h8.trans h6⟩

/-- C78 for modules. -/
theorem C78_module {x : Module} (h : parseModule s = .ok x) (hd : DistinctLabels x) :
    ∃ ops ts k, Tokens s 0 true ops ts k ∧ ∀ P : Nat → Bool, (∀ n, P n = true → MayBreak ts n) →
      ∃ y, parseModule (breakLines P 0 s) = .ok y ∧ Ast.Similar y x := by
  obtain ⟨ops, ts, k, rest, h1, h2⟩ := C34_module s x h
  refine ⟨ops, ts, k, h1, fun P hP => ?_⟩
  obtain ⟨ts', k', h3, h4⟩ := Breaks.tokens h1 hP
  obtain ⟨rest', x', _, h5, h6⟩ := Rename.derives Rename.noRenaming_ok (derives_plain h1 h2 rfl hd) rfl h4
  rw [Rename.ast_rename] at h6
  obtain ⟨y, h7, h8⟩ := C50_module x' h3 h5
  exact ⟨y, h7, h8.trans h6⟩

/-- C78 for `program`. -/
theorem C78_program {c : List Check} {x : Script} (h : program s = .ok (.ambiguous c x))
    (hd : DistinctLabels x) :
    ∃ ops ts k, Tokens s 0 true ops ts k ∧ ∀ P : Nat → Bool, (∀ n, P n = true → MayBreak ts n) →
      ∃ c' y, program (breakLines P 0 s) = .ok (.ambiguous c' y) ∧ Ast.Similar y x := by
  obtain ⟨_, _, e, ops, ts, k, rest, h1, h2, hr⟩ := C34_program s _ h
  cases e
  refine ⟨ops, ts, k, h1, fun P hP => ?_⟩
  obtain ⟨ts', k', h3, h4⟩ := Breaks.tokens h1 hP
  obtain ⟨rest', x', h5, h6, h7⟩ := Rename.derives Rename.noRenaming_ok (derives_plain h1 h2 rfl hd) rfl h4
  rw [Rename.ast_rename] at h7
  obtain ⟨c', y, h8, h9⟩ := C50_program x' h3 h6 (Rename.nextIs h5 hr rfl)
  exact ⟨c', y, h8, h9.trans h7⟩

/-- C79: if `script` accepts a text without inserting semicolons, then it accepts all texts with the same
tokens (read in the same way), perhaps on other lines, with a similar tree.  Only the line breaks before `++`
and `--` and after `break`, `continue`, `return` and `throw` are the same.  No statement is labelled twice
with the same name. -/
theorem C79_script {x : Script} (h : script s = .ok x) (hd : DistinctLabels x) (hm : x.missing = 0) :
    ∃ ops ts k, Tokens s 0 true ops ts k ∧ ∀ s' ts' k', Tokens s' 0 true ops ts' k' →
      SameButBreaks ts ts' → ∃ y, script s' = .ok y ∧ Ast.Similar y x := by
  obtain ⟨ops, ts, k, rest, h1, h2⟩ := C34_script s x h
  refine ⟨ops, ts, k, h1, fun s' ts' k' h3 h4 => ?_⟩
  obtain ⟨rest', x', _, h5, h6⟩ := Rename.derives_lines Rename.noRenaming_ok (derives_plain h1 h2 rfl hd) rfl
    (fun _ => hm) (Breaks.rel_same h4)
  rw [Rename.ast_rename] at h6
  obtain ⟨y, h7, h8⟩ := C50_script x' h3 h5
  exact ⟨y, h7, h8.trans h6⟩

/-- C79 for strict code. -/
theorem C79_strict {x : Script} (h : strict s = .ok x) (hd : DistinctLabels x) (hm : x.missing = 0) :
    ∃ ops ts k, Tokens s 0 true ops ts k ∧ ∀ s' ts' k', Tokens s' 0 true ops ts' k' →
      SameButBreaks ts ts' → ∃ y, strict s' = .ok y ∧ Ast.Similar y x := by
  obtain ⟨ops, ts, k, rest, h1, h2⟩ := C34_strict s x h
  refine ⟨ops, ts, k, h1, fun s' ts' k' h3 h4 => ?_⟩
  obtain ⟨rest', x', _, h5, h6⟩ := Rename.derives_lines Rename.noRenaming_ok (derives_plain h1 h2 rfl hd) rfl
    (fun _ => hm) (Breaks.rel_same h4)
  rw [Rename.ast_rename] at h6
  obtain ⟨y, h7, h8⟩ := C50_strict x' h3 h5
  exact ⟨y, h7, h8.trans h6⟩

/-- C79 for modules. -/
theorem C79_module {x : Module} (h : parseModule s = .ok x) (hd : DistinctLabels x) (hm : x.missing = 0) :
    ∃ ops ts k, Tokens s 0 true ops ts k ∧ ∀ s' ts' k', Tokens s' 0 true ops ts' k' →
      SameButBreaks ts ts' → ∃ y, parseModule s' = .ok y ∧ Ast.Similar y x := by
  obtain ⟨ops, ts, k, rest, h1, h2⟩ := C34_module s x h
  refine ⟨ops, ts, k, h1, fun s' ts' k' h3 h4 => ?_⟩
  obtain ⟨rest', x', _, h5, h6⟩ := Rename.derives_lines Rename.noRenaming_ok (derives_plain h1 h2 rfl hd) rfl
    (fun _ => hm) (Breaks.rel_same h4)
  rw [Rename.ast_rename] at h6
  obtain ⟨y, h7, h8⟩ := C50_module x' h3 h5
  exact ⟨y, h7, h8.trans h6⟩

/-- C79 for `program`. -/
theorem C79_program {c : List Check} {x : Script} (h : program s = .ok (.ambiguous c x))
    (hd : DistinctLabels x) (hm : x.missing = 0) :
    ∃ ops ts k, Tokens s 0 true ops ts k ∧ ∀ s' ts' k', Tokens s' 0 true ops ts' k' →
      SameButBreaks ts ts' → ∃ c' y, program s' = .ok (.ambiguous c' y) ∧ Ast.Similar y x := by
  obtain ⟨_, _, e, ops, ts, k, rest, h1, h2, hr⟩ := C34_program s _ h
  cases e
  refine ⟨ops, ts, k, h1, fun s' ts' k' h3 h4 => ?_⟩
  obtain ⟨rest', x', h5, h6, h7⟩ := Rename.derives_lines Rename.noRenaming_ok (derives_plain h1 h2 rfl hd) rfl
    (fun _ => hm) (Breaks.rel_same h4)
  rw [Rename.ast_rename] at h7
  obtain ⟨c', y, h8, h9⟩ := C50_program x' h3 h6 (Rename.nextIs h5 hr rfl)
  exact ⟨c', y, h8, h9.trans h7⟩

end Theorems

section Examples

local instance breaksEnv : Env := asciiEnv true
local instance breaksEnvLawful : LawfulEnv := asciiEnv_lawful true

/-- A line break can be added before the second token of `a+b`. -/
example : ∃ ts k, readTokens c!"a+b" (List.replicate 3 true) = .ok (ts, k) ∧ MayBreak ts 1 := by
  have h : (match readTokens c!"a+b" (List.replicate 3 true) with
    | .ok (a :: t :: _, _) => t.location.start.offset == 1 && decide (t.value = .plus) &&
        decide (a.value = .identifier (.string c!"a"))
    | _ => false) = true := by decide +kernel
  split at h
  case h_1 a t r k e =>
    simp only [Bool.and_eq_true, beq_iff_eq, decide_eq_true_eq] at h
    exact ⟨_, _, e, a, t, r, List.suffix_refl _, h.1.1, by rw [h.1.2]; decide, by rw [h.2]; simp⟩
  case h_2 => cases h

/-- Then the text is `a⏎+b`. -/
example : breakLines (fun n => n == 1) 0 c!"a+b" = c!"a\n+b" := by decide +kernel

/-- The tree is the same with line breaks between all tokens where they can be added. -/
example : (match script c!"function f(){return;}if(a)b++;else throw c[0]",
      script c!"function\nf\n(\n)\n{\nreturn\n;\n}\nif\n(\na\n)\nb++\n;\nelse\nthrow c\n[\n0\n]" with
    | .ok x, .ok y => Ast.eqv y.untrack x.untrack && labelsCheck 20 Place.top ⟨_, x⟩
    | _, _ => false) = true := by decide +kernel

/-- The exceptions are necessary: after `return` and before `++`. -/
example : (match script c!"function f(){return a}", script c!"function f(){return\na}",
      script c!"a++\nb", script c!"a\n++\nb" with
    | .ok x, .ok y, .ok z, .ok w => !Ast.eqv y.untrack x.untrack && !Ast.eqv w.untrack z.untrack
    | _, _, _, _ => false) = true := by decide +kernel

/-- No semicolon is inserted in the first text, and the second has the same tokens on other lines. -/
example : (match script c!"a\n=\nb;if(c)\nd();", script c!"a=b\n;if\n(c)d();",
      readTokens c!"a\n=\nb;if(c)\nd();" (List.replicate 13 true),
      readTokens c!"a=b\n;if\n(c)d();" (List.replicate 13 true) with
    | .ok x, .ok y, .ok (ts, _), .ok (ts', _) => x.missing == 0 && labelsCheck 20 Place.top ⟨_, x⟩ &&
        Ast.eqv y.untrack x.untrack && ts.length == 13 && (ts.zip ts').all (fun p => p.1.value.eqv p.2.value) &&
        ts.map (·.newline) != ts'.map (·.newline)
    | _, _, _, _ => false) = true := by decide +kernel

/-- Where a semicolon is inserted, the line break matters. -/
example : (match script c!"a\nb", script c!"a b" with
    | .ok x, .err _ => x.missing == 2
    | _, _ => false) = true := by decide +kernel

end Examples

end Esprit
