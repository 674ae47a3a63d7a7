import Verif.Proofs.Complete.ClosingLex
import Verif.Proofs.Complete.SameTokens
import Verif.Proofs.Complete.SemisLex
import Verif.Props.Exact
import Verif.Props.Lexer

/-!
Semicolons before a closing brace can be left out (C75): if a text is accepted, then replacing each
`;` that ends a statement, is on the line of the token before it, and is followed by `}`, by a space
gives a text that is accepted with the same tree.

A semicolon at the end of the source can be left out as well (C77), but not after `break` or `continue`.
-/

set_option linter.unusedSectionVars false

namespace Esprit

open Lex ReaderSpec Grammar

section Theorems

variable [Env] [LawfulEnv] {s : Str}

/-- The tokens and the text without the semicolons. -/
private theorem moved {L : LocSpec} {c : Cat} {env : Scope} {nt : NT c} {ts rest : List Token} {x : Ast c}
    (h : Derives L env nt ts rest x) (hn : Semis.stmts nt = true) (hk : Semis.ok nt = true)
    (hp : env.plain = true) {ops : List Bool} {k : Nat} (ht : Tokens s 0 true ops ts k)
    {Q : Nat → Bool} (hQ : Closing.Free Q ts) (hx : ∀ n, Q n = true → x.endsAt n = true) :
    ∃ ts1 x1, Derives Rename.NoLoc env nt ts1 rest x1 ∧ Ast.Similar x1 x ∧
      ∃ ops' ts' k', Tokens (blankAt Q 0 s) 0 true ops' ts' k' ∧ ts'.map flags = ts1.map flags := by
  obtain ⟨t, r, e, _, _⟩ := Semis.ends h hn
  obtain ⟨ts1, x1, h1, h2, h3, h4⟩ := Closing.derives h hk hp (hQ.fits ht) (rest' := rest)
    (.inl (e ▸ .mk (.refl _)))
  exact ⟨ts1, x1, h2, h3, hQ.text ht hx h1 (by omega)⟩

/-- C75: if `script` accepts a text, then replacing any of the semicolons that end a statement, are on the
line of the token before them, and stand before a `}`, by spaces gives a text that it accepts with a
similar tree (the same up to locations and the origin of semicolons).  No statement is labelled twice
with the same name. -/
theorem C75_script {x : Script} (h : script s = .ok x) (hd : DistinctLabels x) :
    ∃ ops ts k, Tokens s 0 true ops ts k ∧
      ∀ Q : Nat → Bool, (∀ n, Q n = true → beforeBrace ts n = true ∧ x.endsAt n = true) →
        ∃ y, script (blankAt Q 0 s) = .ok y ∧ Ast.Similar y x := by
  obtain ⟨ops, ts, k, rest, h1, h2⟩ := C34_script s x h
  refine ⟨ops, ts, k, h1, fun Q hQ => ?_⟩
  obtain ⟨ts1, x1, h3, h4, ops', ts', k', h7, h8⟩ := moved (derives_plain h1 h2 rfl hd) rfl rfl rfl h1
    (Closing.free h1 fun n hn => (hQ n hn).1) fun n hn => (hQ n hn).2
  obtain ⟨rest', x', _, h9, h10⟩ := Rename.derives Rename.noRenaming_ok h3 rfl (Rename.rel_of h8)
  rw [Rename.ast_rename] at h10
  obtain ⟨y, h11, h12⟩ := C50_script x' h7 h9
  exact ⟨y, h11, h12.trans (h10.trans h4)⟩

/-- C75 for strict code. -/
theorem C75_strict {x : Script} (h : strict s = .ok x) (hd : DistinctLabels x) :
    ∃ ops ts k, Tokens s 0 true ops ts k ∧
      ∀ Q : Nat → Bool, (∀ n, Q n = true → beforeBrace ts n = true ∧ x.endsAt n = true) →
        ∃ y, strict (blankAt Q 0 s) = .ok y ∧ Ast.Similar y x := by
  obtain ⟨ops, ts, k, rest, h1, h2⟩ := C34_strict s x h
  refine ⟨ops, ts, k, h1, fun Q hQ => ?_⟩
  obtain ⟨ts1, x1, h3, h4, ops', ts', k', h7, h8⟩ := moved (derives_plain h1 h2 rfl hd) rfl rfl rfl h1
    (Closing.free h1 fun n hn => (hQ n hn).1) fun n hn => (hQ n hn).2
  obtain ⟨rest', x', _, h9, h10⟩ := Rename.derives Rename.noRenaming_ok h3 rfl (Rename.rel_of h8)
  rw [Rename.ast_rename] at h10
  obtain ⟨y, h11, h12⟩ := C50_strict x' h7 h9
  exact ⟨y, h11, h12.trans (h10.trans h4)⟩

/-- C75 for modules. -/
theorem C75_module {x : Module} (h : parseModule s = .ok x) (hd : DistinctLabels x) :
    ∃ ops ts k, Tokens s 0 true ops ts k ∧
      ∀ Q : Nat → Bool, (∀ n, Q n = true → beforeBrace ts n = true ∧ x.endsAt n = true) →
        ∃ y, parseModule (blankAt Q 0 s) = .ok y ∧ Ast.Similar y x := by
  obtain ⟨ops, ts, k, rest, h1, h2⟩ := C34_module s x h
  refine ⟨ops, ts, k, h1, fun Q hQ => ?_⟩
  obtain ⟨ts1, x1, h3, h4, ops', ts', k', h7, h8⟩ := moved (derives_plain h1 h2 rfl hd) rfl rfl rfl h1
    (Closing.free h1 fun n hn => (hQ n hn).1) fun n hn => (hQ n hn).2
  obtain ⟨rest', x', _, h9, h10⟩ := Rename.derives Rename.noRenaming_ok h3 rfl (Rename.rel_of h8)
  rw [Rename.ast_rename] at h10
  obtain ⟨y, h11, h12⟩ := C50_module x' h7 h9
  exact ⟨y, h11, h12.trans (h10.trans h4)⟩

/-- C75 for `program`. -/
theorem C75_program {c : List Check} {x : Script} (h : program s = .ok (.ambiguous c x))
    (hd : DistinctLabels x) :
    ∃ ops ts k, Tokens s 0 true ops ts k ∧
      ∀ Q : Nat → Bool, (∀ n, Q n = true → beforeBrace ts n = true ∧ x.endsAt n = true) →
        ∃ c' y, program (blankAt Q 0 s) = .ok (.ambiguous c' y) ∧ Ast.Similar y x := by
  obtain ⟨_, _, e, ops, ts, k, rest, h1, h2, hr⟩ := C34_program s _ h
  cases e
  refine ⟨ops, ts, k, h1, fun Q hQ => ?_⟩
  obtain ⟨ts1, x1, h3, h4, ops', ts', k', h7, h8⟩ := moved (derives_plain h1 h2 rfl hd) rfl rfl rfl h1
    (Closing.free h1 fun n hn => (hQ n hn).1) fun n hn => (hQ n hn).2
  obtain ⟨rest', x', h9, h10, h11⟩ := Rename.derives Rename.noRenaming_ok h3 rfl (Rename.rel_of h8)
  rw [Rename.ast_rename] at h11
  obtain ⟨c', y, h12, h13⟩ := C50_program x' h7 h10 (Rename.nextIs h9 hr rfl)
  exact ⟨c', y, h12, h13.trans (h11.trans h4)⟩

/-- C77: if `script` accepts a text that ends with a semicolon that ends a statement and is on the line of
the token before it, then it accepts the text with a space for this semicolon with a similar tree, unless
the token before it is `break`, `continue` or `return`.  No statement is labelled twice with the same name.
Missing: `break` and `continue` without label, for which it is false (`C77_fails`). -/
theorem C77_script_partial {x : Script} (h : script s = .ok x) (hd : DistinctLabels x) :
    ∃ ops ts k, Tokens s 0 true ops ts k ∧
      ∀ Q : Nat → Bool, (∀ n, Q n = true → beforeEnd ts n = true ∧ x.endsAt n = true) →
        ∃ y, script (blankAt Q 0 s) = .ok y ∧ Ast.Similar y x := by
  obtain ⟨ops, ts, k, rest, h1, h2⟩ := C34_script s x h
  refine ⟨ops, ts, k, h1, fun Q hQ => ?_⟩
  obtain ⟨ts1, x1, h3, h4, ops', ts', k', h7, h8⟩ := moved (derives_plain h1 h2 rfl hd) rfl rfl rfl h1
    (Closing.free_end h1 fun n hn => (hQ n hn).1) fun n hn => (hQ n hn).2
  obtain ⟨rest', x', _, h9, h10⟩ := Rename.derives Rename.noRenaming_ok h3 rfl (Rename.rel_of h8)
  rw [Rename.ast_rename] at h10
  obtain ⟨y, h11, h12⟩ := C50_script x' h7 h9
  exact ⟨y, h11, h12.trans (h10.trans h4)⟩

/-- C77 for strict code. -/
theorem C77_strict_partial {x : Script} (h : strict s = .ok x) (hd : DistinctLabels x) :
    ∃ ops ts k, Tokens s 0 true ops ts k ∧
      ∀ Q : Nat → Bool, (∀ n, Q n = true → beforeEnd ts n = true ∧ x.endsAt n = true) →
        ∃ y, strict (blankAt Q 0 s) = .ok y ∧ Ast.Similar y x := by
  obtain ⟨ops, ts, k, rest, h1, h2⟩ := C34_strict s x h
  refine ⟨ops, ts, k, h1, fun Q hQ => ?_⟩
  obtain ⟨ts1, x1, h3, h4, ops', ts', k', h7, h8⟩ := moved (derives_plain h1 h2 rfl hd) rfl rfl rfl h1
    (Closing.free_end h1 fun n hn => (hQ n hn).1) fun n hn => (hQ n hn).2
  obtain ⟨rest', x', _, h9, h10⟩ := Rename.derives Rename.noRenaming_ok h3 rfl (Rename.rel_of h8)
  rw [Rename.ast_rename] at h10
  obtain ⟨y, h11, h12⟩ := C50_strict x' h7 h9
  exact ⟨y, h11, h12.trans (h10.trans h4)⟩

/-- C77 for modules. -/
theorem C77_module_partial {x : Module} (h : parseModule s = .ok x) (hd : DistinctLabels x) :
    ∃ ops ts k, Tokens s 0 true ops ts k ∧
      ∀ Q : Nat → Bool, (∀ n, Q n = true → beforeEnd ts n = true ∧ x.endsAt n = true) →
        ∃ y, parseModule (blankAt Q 0 s) = .ok y ∧ Ast.Similar y x := by
  obtain ⟨ops, ts, k, rest, h1, h2⟩ := C34_module s x h
  refine ⟨ops, ts, k, h1, fun Q hQ => ?_⟩
  obtain ⟨ts1, x1, h3, h4, ops', ts', k', h7, h8⟩ := moved (derives_plain h1 h2 rfl hd) rfl rfl rfl h1
    (Closing.free_end h1 fun n hn => (hQ n hn).1) fun n hn => (hQ n hn).2
  obtain ⟨rest', x', _, h9, h10⟩ := Rename.derives Rename.noRenaming_ok h3 rfl (Rename.rel_of h8)
  rw [Rename.ast_rename] at h10
  obtain ⟨y, h11, h12⟩ := C50_module x' h7 h9
  exact ⟨y, h11, h12.trans (h10.trans h4)⟩

/-- C77 for `program`. -/
theorem C77_program_partial {c : List Check} {x : Script} (h : program s = .ok (.ambiguous c x))
    (hd : DistinctLabels x) :
    ∃ ops ts k, Tokens s 0 true ops ts k ∧
      ∀ Q : Nat → Bool, (∀ n, Q n = true → beforeEnd ts n = true ∧ x.endsAt n = true) →
        ∃ c' y, program (blankAt Q 0 s) = .ok (.ambiguous c' y) ∧ Ast.Similar y x := by
  obtain ⟨_, _, e, ops, ts, k, rest, h1, h2, hr⟩ := C34_program s _ h
  cases e
  refine ⟨ops, ts, k, h1, fun Q hQ => ?_⟩
  obtain ⟨ts1, x1, h3, h4, ops', ts', k', h7, h8⟩ := moved (derives_plain h1 h2 rfl hd) rfl rfl rfl h1
    (Closing.free_end h1 fun n hn => (hQ n hn).1) fun n hn => (hQ n hn).2
  obtain ⟨rest', x', h9, h10, h11⟩ := Rename.derives Rename.noRenaming_ok h3 rfl (Rename.rel_of h8)
  rw [Rename.ast_rename] at h11
  obtain ⟨c', y, h12, h13⟩ := C50_program x' h7 h10 (Rename.nextIs h9 hr rfl)
  exact ⟨c', y, h12, h13.trans (h11.trans h4)⟩

end Theorems

section Examples

local instance closingEnv : Env := asciiEnv true
local instance closingEnvLawful : LawfulEnv := asciiEnv_lawful true

/-- Of the semicolons before `}`, at 21, 25, 33 and 36, the first two end a statement on the line of the
token before them; the third starts a line, and the last is an empty statement.  The labels are distinct. -/
example : (match script c!"function f(){a;return;}{b; }c:{d\n;}{;}",
      readTokens c!"function f(){a;return;}{b; }c:{d\n;}{;}" (List.replicate 27 true) with
    | .ok x, .ok (ts, _) => labelsCheck 20 Place.top ⟨_, x⟩ &&
        (List.range 38).filter (fun n => beforeBrace ts n && x.endsAt n) == [21, 25] &&
        (List.range 38).filter x.endsAt == [14, 21, 25, 33]
    | _, _ => false) = true := by decide +kernel

/-- The text without the two has the same tree. -/
example : (match script c!"function f(){a;return;}{b; }c:{d\n;}{;}",
      script (blankAt [21, 25].contains 0 c!"function f(){a;return;}{b; }c:{d\n;}{;}") with
    | .ok x, .ok y => Ast.eqv y.untrack x.untrack && (List.range 38).filter y.endsAt == [14, 33] &&
        y.missing == 2
    | _, _ => false) = true := by decide +kernel

/-- The two are replaced. -/
example : blankAt [21, 25].contains 0 c!"function f(){a;return;}{b; }c:{d\n;}{;}" =
    c!"function f(){a;return }{b  }c:{d\n;}{;}" := by decide +kernel

/-- An empty statement cannot be left out. -/
example : (match script c!"{if(a);}", script c!"{if(a) }" with
    | .ok x, .err _ => x.closing (fun _ => true) == 0
    | _, _ => false) = true := by decide +kernel

/-- The last semicolon ends a statement before the end of the source. -/
example : (match script c!"a;b; ", readTokens c!"a;b; " (List.replicate 5 true) with
    | .ok x, .ok (ts, _) => labelsCheck 20 Place.top ⟨_, x⟩ && (List.range 6).filter x.endsAt == [1, 3] &&
        (List.range 6).filter (fun n => beforeEnd ts n && x.endsAt n) == [3]
    | _, _ => false) = true := by decide +kernel

/-- It is in a nested statement. -/
example : (match script c!"l:while(a)break l;", script c!"l:while(a)break l ",
      readTokens c!"l:while(a)break l;" (List.replicate 10 true) with
    | .ok x, .ok y, .ok (ts, _) => (beforeEnd ts 17 && x.endsAt 17) && Ast.eqv y.untrack x.untrack
    | _, _, _ => false) = true := by decide +kernel

/-- C77 is false for `break` and `continue`: the semicolon ends the statement, is on the line of the token
before it and at the end of the source, but cannot be left out. -/
theorem C77_fails : ∀ p ∈ [(c!"while(1)break;", c!"while(1)break "),
    (c!"for(;;)continue;", c!"for(;;)continue ")], (match script p.1, script p.2 with
    | .ok x, .err _ => x.closing (fun _ => true) == 1
    | _, _ => false) = true := by decide +kernel

end Examples

end Esprit
