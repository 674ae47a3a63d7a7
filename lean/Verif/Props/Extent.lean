import Verif.Proofs.Parser.Extent
import Verif.Props.Tree

/-!
The extent of constructs (C56): how the location of a node of a returned tree
relates to the tokens that the node is derived from.
-/

namespace Esprit

open Lex ReaderSpec Grammar

section Theorems

variable [Env] [LawfulEnv] {s : Str} {st mo : Bool} {tree : Node} {v : Place}

/-- The location of an expression starts with its first token, up to opening
parentheses, and ends with its last token, up to closing parentheses.  Missing:
the start of expressions that begin with a function, the operand of a postfix
operator or the test of a conditional expression, and the end of expressions
that end with a function or the operand of `++` or `--` (see `C56_fails`). -/
theorem C56_expression_partial {y : Expr} (h : Returned s st mo tree)
    (ho : Occurs .top tree v ⟨.expr, y⟩) :
    ∃ ops pre mine rest k, Tokens s 0 true ops (pre ++ mine ++ rest) k ∧
      (∃ env nt, Derives (Located s) env nt (mine ++ rest) rest y) ∧
      (y.sharpStart = true → StartsWith mine y.loc) ∧ (y.sharpEnd = true → EndsWith mine y.loc) := by
  obtain ⟨ops, ts, k, ht, env, nt, i, r, ⟨pre, rfl⟩, -, -, -, hd⟩ := returned_derived h ho (by decide)
  obtain ⟨mine, rfl⟩ := hd.suffix
  have hor := (ht.ordered (Nat.zero_le _)).1.suffix (List.suffix_append pre (mine ++ r))
  refine ⟨ops, pre, mine, r, k, by rw [List.append_assoc]; exact ht, ⟨env, nt, hd⟩, fun hs => ?_,
    fun hs => ?_⟩
  · obtain ⟨c, hc, hw⟩ := hd.startsWith hor hs
    rw [List.append_cancel_right hc]
    exact hw
  · obtain ⟨c, hc, hw⟩ := hd.endsWith hor hs
    rw [List.append_cancel_right hc]
    exact hw

/-- The location of a statement, declaration, block or `switch` clause ends after
its last token, and starts and ends close to its tokens.  It starts before its
first token, with only trivia in between, or at the end of its first or second
token.  It ends before the token that follows, with only trivia in between, or at
the end of one of the two tokens that follow.  Missing: it need not start with its
first token and end with its last token (see `C56_fails`). -/
theorem C56_statement_partial {c : Cat} {y : Ast c} (hc : c ∈ [.stmt, .decl, .block, .case])
    (h : Returned s st mo tree) (ho : Occurs .top tree v ⟨c, y⟩) :
    ∃ ops pre mine rest k, Tokens s 0 true ops (pre ++ mine ++ rest) k ∧
      (∃ env nt, Derives (Located s) env nt (mine ++ rest) rest y) ∧ mine ≠ [] ∧
      Located s (mine ++ rest) rest y.loc := by
  have hd : c ∈ derivedCats := by
    revert hc
    simp only [List.mem_cons, List.not_mem_nil, or_false]
    rintro (rfl | rfl | rfl | rfl) <;> decide
  obtain ⟨ops, ts, k, ht, env, nt, i, r, ⟨pre, rfl⟩, -, -, -, hd⟩ := returned_derived h ho hd
  obtain ⟨mine, rfl⟩ := hd.suffix
  have hor := (ht.ordered (Nat.zero_le _)).1.suffix (List.suffix_append pre (mine ++ r))
  have hn : nt.spanned = true := by
    simp only [List.mem_cons, List.not_mem_nil, or_false] at hc
    rcases hc with rfl | rfl | rfl | rfl <;> cases nt <;> rfl
  obtain ⟨h1, h2⟩ := hd.spans hor hn
  refine ⟨ops, pre, mine, r, k, by rw [List.append_assoc]; exact ht, ⟨env, nt, hd⟩, ?_, h1⟩
  rintro rfl
  simp at h2

end Theorems

section Examples

local instance extentEnv : Env := asciiEnv true

/-- Where the location of a node starts and ends. -/
private def extent (l : Loc) : Option (Nat × Nat) := l.map fun sp => (sp.start.offset, sp.end.offset)

/-- The property C56 fails: the location of `a ? b : c` is that of `b : c`, those
of `a++` and `--a` are those of the operators, the location of the statement `x`
in `{}  x` is empty, after it, and the location of `if (a) b;` in `if (a) b; c`
extends from after the `if` to the end of `c`. -/
theorem C56_fails :
    occursIn c!"a ? b : c" (fun y => match y with
      | ⟨_, .eCond l _ _ _⟩ => extent l == some (4, 9) | _ => false) = true ∧
    occursIn c!"a++" (fun y => match y with
      | ⟨_, .ePostInc l _⟩ => extent l == some (1, 3) | _ => false) = true ∧
    occursIn c!"--a" (fun y => match y with
      | ⟨_, .ePreDec l _⟩ => extent l == some (0, 2) | _ => false) = true ∧
    occursIn c!"{}  x" (fun y => match y with
      | ⟨_, .sExpr l _ _⟩ => extent l == some (5, 5) | _ => false) = true ∧
    occursIn c!"if (a) b; c" (fun y => match y with
      | ⟨_, .sIf l _ _ _⟩ => extent l == some (2, 11) | _ => false) = true := by decide +kernel

/-- The hypotheses of the partial theorems are met. -/
example : occursIn c!"x = (f(a) + 1) * b.c" (fun y => match y with
    | ⟨_, .eBinop l op a b⟩ => op.tag == .times && (Ast.eBinop l op a b).sharpStart &&
        (Ast.eBinop l op a b).sharpEnd && extent l == some (5, 20)
    | _ => false) = true := by decide +kernel
example : occursIn c!"a; while (b) c;" (fun y => match y with
    | ⟨_, .sWhile l _ _⟩ => extent l == some (8, 15) | _ => false) = true := by decide +kernel

end Examples

end Esprit
