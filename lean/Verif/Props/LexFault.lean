import Verif.Proofs.LexFaultEval
import Verif.Proofs.Parser.BlameFns
import Verif.Props.Parser
import Verif.Props.Blame
import Verif.Spec.LexFault
import Verif.Spec.Env

/-!
Which sources the lexer rejects, and with which error (C54); where the panics of
the parser come from (C24).  `Spec/LexFault.lean` says what is wrong with a
malformed text.
-/

namespace Esprit

open Lex

section Theorems

variable [Env] [LawfulEnv]

/-- Reading tokens reports the error `e` if, and only if, after some of the tokens
the text is malformed in the way that `e` describes. -/
theorem C54_errors_exact (s : Str) (ops : List Bool) (e : LexError) :
    readTokens s ops = .err e ↔ ∃ i op ts k, ops[i]? = some op ∧
      Tokens s 0 true (ops.take i) ts k ∧ Malformed ts.isEmpty op (s.drop k) (.error e) :=
  readTokens_failed (f := .error e)

/-- Reading tokens panics if, and only if, after some of the tokens the text is
malformed in one of the ways that the code does not handle. -/
theorem C54_panics_exact (s : Str) (ops : List Bool) (p : Panic) :
    readTokens s ops = .panic p ↔ ∃ i op ts k, ops[i]? = some op ∧
      Tokens s 0 true (ops.take i) ts k ∧ Malformed ts.isEmpty op (s.drop k) (.panic p) :=
  readTokens_failed (f := .panic p)

private theorem state_after {s : Str} {ops : List Bool} {ts : List Token} {k : Nat}
    (h : Tokens s 0 true ops ts k) :
    ∃ l, readTokens s ops = .ok (ts, l) ∧ l.At s k ts.isEmpty ∧ prevEnd ts ts.length = k := by
  obtain ⟨l, hl⟩ := readAll_complete h (Lexer.At.new s) rfl
  obtain ⟨h1, h2, h3, _⟩ := readTokens_at hl
  have e : prevEnd ts ts.length = k := h1.last.1.trans h.last.1.symm
  exact ⟨l, hl, e ▸ h2, e⟩

/-- After the tokens read so far comes a token or something malformed. -/
theorem C54_total (s : Str) (ops : List Bool) (ts : List Token) (k : Nat) (op : Bool)
    (h : Tokens s 0 true ops ts k) :
    (∃ t k', TokenAt s k ts.isEmpty op t k') ∨ ∃ f, Malformed ts.isEmpty op (s.drop k) f := by
  obtain ⟨l, hl, hat, hk⟩ := state_after h
  have hn := readNextToken_spec hat op
  cases hr : l.readNextToken op with
  | ok v =>
    rw [hr] at hn
    obtain ⟨k', h1, -⟩ := hn
    exact .inl ⟨_, k', h1⟩
  | err e => exact .inr ⟨.error e, readNextToken_fails hat op (f := .error e) hr⟩
  | panic p => exact .inr ⟨.panic p, readNextToken_fails hat op (f := .panic p) hr⟩
  | fuel => rw [hr] at hn; exact hn.elim

/-- It is not both. -/
theorem C54_exclusive (s : Str) (ops : List Bool) (ts : List Token) (k : Nat) (op : Bool)
    (h : Tokens s 0 true ops ts k) (t : Token) (k' : Nat) (f : Failure)
    (ht : TokenAt s k ts.isEmpty op t k') : ¬ Malformed ts.isEmpty op (s.drop k) f := by
  intro hm
  obtain ⟨l, hl, hat, hk⟩ := state_after h
  have h1 := readNextToken_ends hat op hm
  obtain ⟨l', hl', -⟩ := readNextToken_eval hat ht
  unfold Res.Failed at h1
  rw [hl'] at h1
  cases f <;> cases h1

/-- There is only one thing wrong with a malformed text: the error is determined. -/
theorem C54_unambiguous (s : Str) (ops : List Bool) (ts : List Token) (k : Nat) (op : Bool)
    (h : Tokens s 0 true ops ts k) (f f' : Failure)
    (h1 : Malformed ts.isEmpty op (s.drop k) f) (h2 : Malformed ts.isEmpty op (s.drop k) f') :
    f = f' := by
  obtain ⟨l, hl, hat, hk⟩ := state_after h
  have h1 := readNextToken_ends hat op h1
  have h2 := readNextToken_ends hat op h2
  unfold Res.Failed at h1 h2
  rw [h1] at h2
  cases f <;> cases f' <;> cases h2 <;> rfl

/-- A lexical error reported by any of the entry points describes how the source
is malformed after some of its tokens. -/
theorem C54_parse (s : Str) (e : LexError)
    (h : script s = .err (.lexError e) ∨ strict s = .err (.lexError e) ∨
      parseModule s = .err (.lexError e) ∨ program s = .err (.lexError e)) :
    ∃ ops op ts k, Tokens s 0 true ops ts k ∧ Malformed ts.isEmpty op (s.drop k) (.error e) := by
  suffices H : ∃ ops, readTokens s ops = .err e by
    obtain ⟨ops, H⟩ := H
    obtain ⟨i, op, ts, k, _, h2, h3⟩ := (C54_errors_exact s ops e).1 H
    exact ⟨_, op, ts, k, h2, h3⟩
  rcases h with h | h | h | h
  · exact C52_script s _ h
  · exact C52_strict s _ h
  · exact C52_module s _ h
  · exact C52_program s _ h

/-- `script` and `strict` panic only if the source is malformed, after some of its
tokens, in one of the ways that the lexer does not handle. -/
theorem C24_script_panics (s : Str) (p : Panic) (h : script s = .panic p ∨ strict s = .panic p) :
    ∃ ops op ts k, Tokens s 0 true ops ts k ∧ Malformed ts.isEmpty op (s.drop k) (.panic p) := by
  have hp := C24_script s p h
  have H : PanicOf s p := by
    rcases h with h | h
    · have := blame_script s false (recFuel s)
      unfold BlameAt at this
      unfold script outcome at h
      split at h <;> first | (cases h; done) | skip
      rename_i he
      rw [he] at this
      cases h
      exact this
    · have := blame_script s true (recFuel s)
      unfold BlameAt at this
      unfold strict outcome at h
      split at h <;> first | (cases h; done) | skip
      rename_i he
      rw [he] at this
      cases h
      exact this
  rcases H with ⟨ops, H⟩ | ⟨H, _⟩ | H
  · obtain ⟨i, op, ts, k, _, h2, h3⟩ := (C54_panics_exact s ops p).1 H
    exact ⟨_, op, ts, k, h2, h3⟩
  · rcases hp with hp | hp <;> rw [hp] at H <;> cases H
  · rcases hp with hp | hp <;> rw [hp] at H <;> exact absurd (by decide) H

/-- `module` and `program` panic, in addition, only if the source has an `import`
or `export` token. -/
theorem C24_module_panics (s : Str) (p : Panic)
    (h : parseModule s = .panic p ∨ program s = .panic p) :
    (∃ ops op ts k, Tokens s 0 true ops ts k ∧
      Malformed ts.isEmpty op (s.drop k) (.panic p)) ∨
    (p = .unimplemented ∧ ∃ ops ts k t, Tokens s 0 true ops ts k ∧ t ∈ ts ∧
      (t.value = .reserved .import ∨ t.value = .reserved .export)) := by
  have hp := C24_module s p h
  have H : PanicOf s p := by
    rcases h with h | h
    · have := blame_module s (recFuel s)
      unfold BlameAt at this
      unfold parseModule outcome at h
      split at h <;> first | (cases h; done) | skip
      rename_i he
      rw [he] at this
      cases h
      exact this
    · have := blame_program s (recFuel s)
      unfold BlameAt at this
      unfold program outcome at h
      split at h <;> first | (cases h; done) | skip
      rename_i he
      rw [he] at this
      cases h
      exact this
  rcases H with ⟨ops, H⟩ | ⟨H, t, ht, hv⟩ | H
  · obtain ⟨i, op, ts, k, _, h2, h3⟩ := (C54_panics_exact s ops p).1 H
    exact .inl ⟨_, op, ts, k, h2, h3⟩
  · obtain ⟨ops, ts, l, h1, h2⟩ := ht
    exact .inr ⟨H, ops, ts, _, t, (readTokens_at h1).1, h2, hv⟩
  · rcases hp with hp | hp | hp <;> rw [hp] at H <;> exact absurd (by decide) H

end Theorems

section Examples

local instance faultEnv : Env := asciiEnv true

/-- Each kind of malformed text, and the error that says so. -/
example : readTokens c!"x /* a" [false, true] = .err .unterminatedComment := by decide +kernel
example : readTokens c!"x #" [false, true] = .err (.illegalChar '#') := by decide +kernel
example : readTokens c!"\"a" [false] = .err (.unterminatedString none) := by decide +kernel
example : readTokens c!"'a\nb'" [false] = .err (.unterminatedString (some '\n')) := by
  decide +kernel
example : readTokens c!"'\\x4g'" [false] = .err (.invalidDigit 'g') := by decide +kernel
example : readTokens c!"a\\u12" [false] = .err .missingHexDigits := by decide +kernel
example : readTokens c!"a\\x" [false] = .err (.incompleteWordEscape (some 'x')) := by decide +kernel
example : readTokens c!"\\uD800" [false] = .err (.illegalUnicode 0xD800) := by decide +kernel
example : readTokens c!"\\u0069f" [false] = .err (.reservedWordWithEscapes .if) := by decide +kernel
example : readTokens c!"0b2" [false] = .err (.invalidDigit '2') := by decide +kernel
example : readTokens c!"0o" [false] = .err .missingOctalDigits := by decide +kernel
example : readTokens c!"1e+;" [false] = .err (.missingExponent (some ';')) := by decide +kernel
example : readTokens c!"3in" [false] = .err (.idAfterNumber 'i') := by decide +kernel
example : readTokens c!"0b12" [false] = .err (.digitAfterNumber '2') := by decide +kernel
example : readTokens c!"/a\n/" [false] = .err (.unterminatedRegExp (some '\n')) := by decide +kernel

/-- The error of `x 3in` is the one of the specification: after `x` comes a blank
and a number that runs into an identifier. -/
example : Malformed false true c!" 3in" (.error (.idAfterNumber 'i')) :=
  .token (w := c!" ") (z := c!"3in") (.space (by decide +kernel) .nil)
    ⟨by intro c h; cases h; decide +kernel, by decide +kernel, by decide +kernel,
      by decide +kernel, by decide +kernel⟩
    (.number (.identifier (src := .decimalInt c!"3" none) (y := c!"n")
      (.decimal (by unfold Digits; decide +kernel) (by unfold LegacyOctal; simp) trivial
        (by decide +kernel))
      ⟨by decide +kernel, by decide +kernel, by decide +kernel, by decide +kernel⟩
      (by unfold IdStart; decide +kernel)))

/-- The parser passes the error on. -/
example : (match script c!"x = 3in" with
    | .err (.lexError (.idAfterNumber c)) => c == 'i'
    | _ => false) = true := by decide +kernel

/-- A panic of `script`, and one of `module`. -/
example : (match script c!"x = /a" with | .panic .readPastEnd => true | _ => false) = true := by
  decide +kernel
example : (match parseModule c!"import x;" with | .panic .unimplemented => true | _ => false) =
    true := by decide +kernel

end Examples

end Esprit
