import Verif.Proofs.DebugToken
import Verif.Proofs.DebugStd
import Verif.Props.Blame
import Verif.Props.Number

/-!
The `Debug` text of a token or an error determines it (C76): what is printed with `{:?}` tells all
that `==` compares, except that positions are printed without their offsets.
-/

namespace Esprit

open Esprit.Lex Dbg

/-! ### All tokens and errors -/

/-- C76, tokens: if two tokens have the same text, they are the same up to the offsets of positions
and the spelling of literals.  The first is not the number NaN. -/
theorem C76_token_text [LawfulDebugStd] (t u : Token) (hn : ∀ n ∈ t.value.numbers, n.value ≠ .nan)
    (h : t.debug = u.debug) : t.Agree u :=
  Token.agree_of_dbg hn (text_injective t.ok u.ok h)

/-- C76, sources of numbers: different ones have different texts. -/
theorem C76_number_source [LawfulDebugStd] (m n : NumberSource) : m.debug = n.debug ↔ m = n :=
  ⟨fun h => NumberSource.dbg_inj (text_injective m.ok n.ok h), fun h => by rw [h]⟩

/-- C76, errors of the lexer: different ones have different texts. -/
theorem C76_lex_error [LawfulDebugStd] (e f : LexError) : e.debug = f.debug ↔ e = f :=
  ⟨fun h => LexError.dbg_inj (text_injective e.ok f.ok h), fun h => by rw [h]⟩

/-- C76, errors of the parser: if two errors have the same text, they are the same up to the offsets
of positions, the spelling of literals and the locations in trees. -/
theorem C76_error_text [LawfulDebugStd] (e f : PError) (hn : ∀ n ∈ e.numbers, n.value ≠ .nan)
    (h : e.debug = f.debug) : e.Agree f :=
  PError.agree_of_dbg hn (text_injective e.ok f.ok h)

/-- C76, deferred checks. -/
theorem C76_check_text [LawfulDebugStd] (c d : Check) (hn : ∀ n ∈ c.numbers, n.value ≠ .nan)
    (h : c.debug = d.debug) : c.Agree d :=
  Check.agree_of_dbg hn (text_injective c.ok d.ok h)

/-! ### Tokens and errors of sources -/

section Sources

variable [Env] [LawfulEnv]

private theorem source_numbers {s : Str} {t : Token} (h : TokenOf s t) :
    ∀ n ∈ t.value.numbers, n.value ≠ .nan ∧ n.value ≠ .num true 0 := by
  intro n hn
  obtain ⟨ops, ts, l, h1, h2⟩ := h
  have hv : t.value = .number n := by
    cases hv : t.value <;> rw [hv] at hn <;> simp only [TokenData.numbers, List.mem_singleton, List.not_mem_nil] at hn
    rw [hn]
  obtain ⟨_, _, _, h3⟩ := C14_adjacent_partial s ops ts l h1 t h2 n hv
  constructor
  · intro e
    rw [e] at h3
    exact h3
  · intro e
    rw [e] at h3
    cases h3.1

/-- C76, tokens that are read from sources: the texts are the same if and only if the tokens are the
same up to offsets and the spelling of literals. -/
theorem C76_token [LawfulDebugStd] {s s' : Str} {t u : Token} (ht : TokenOf s t) (hu : TokenOf s' u) :
    t.debug = u.debug ↔ t.Agree u :=
  ⟨C76_token_text t u fun n hn => (source_numbers ht n hn).1,
    fun h => congrArg Dbg.text (Token.dbg_of_agree (fun n hn => (source_numbers ht n hn).2)
      (fun n hn => (source_numbers hu n hn).2) h)⟩

private theorem token_posns {s : Str} {t : Token} (h : TokenOf s t) :
    (∃ k, ReaderSpec.PosnAt s k t.location.start) ∧ ∃ k, ReaderSpec.PosnAt s k t.location.end := by
  obtain ⟨ops, ts, l, h1, h2⟩ := h
  have h3 := (readTokens_at h1).1
  clear h1
  generalize prevEnd ts ts.length = k at h3
  generalize true = e at h3
  generalize 0 = j at h3
  induction h3 with
  | nil => cases h2
  | cons h4 _ ih =>
    rcases List.mem_cons.1 h2 with rfl | h2
    · obtain ⟨w, x, y, e', a1, a2, a3, a4, a5, a6, a7, rfl⟩ := h4
      exact ⟨⟨_, a6⟩, ⟨_, a7⟩⟩
    · exact ih h2

/-- C76, tokens of one source: the texts are the same if and only if the tokens are at the same place
and the same up to the spelling of literals. -/
theorem C76_token_place [LawfulDebugStd] {s : Str} {t u : Token} (ht : TokenOf s t) (hu : TokenOf s u) :
    t.debug = u.debug ↔ t.location = u.location ∧ t.newline = u.newline ∧ t.value.Agree u.value := by
  rw [C76_token ht hu]
  constructor
  · intro h
    obtain ⟨⟨_, a1⟩, ⟨_, a2⟩⟩ := token_posns ht
    obtain ⟨⟨_, b1⟩, ⟨_, b2⟩⟩ := token_posns hu
    obtain ⟨e1, e2⟩ := Span.debug_injective (Span.debug_of_agree h.location)
    have e3 := PosnAt_text a1 b1 e1
    have e4 := PosnAt_text a2 b2 e2
    refine ⟨?_, h.newline, h.value⟩
    revert e3 e4
    generalize t.location = a
    generalize u.location = b
    cases a; cases b
    rintro rfl rfl
    rfl
  · rintro ⟨h1, h2, h3⟩
    exact ⟨h1 ▸ ⟨rfl, rfl, rfl, rfl⟩, h2, h3⟩

private theorem reported_blames {s : Str} {e : PError} (h : Reported s e) : ∃ st mo, e.Blames s st mo := by
  rcases h with h | h | h | h
  · exact ⟨_, _, C52_script s e h⟩
  · exact ⟨_, _, C52_strict s e h⟩
  · exact ⟨_, _, C52_module s e h⟩
  · exact ⟨_, _, C52_program s e h⟩

private theorem reported_numbers {s : Str} {e : PError} (h : Reported s e) :
    ∀ n ∈ e.numbers, n.value ≠ .nan ∧ n.value ≠ .num true 0 := by
  obtain ⟨st, mo, h⟩ := reported_blames h
  cases e <;> first
    | (intro n hn; cases hn)
    | (exact False.elim h)
    | exact source_numbers h
    | exact source_numbers h.1
    | exact source_numbers h.2.1

/-- C76, errors that are reported for sources: the texts are the same if and only if the errors are
the same up to offsets and the spelling of literals. -/
theorem C76_error [LawfulDebugStd] {s s' : Str} {e f : PError} (he : Reported s e) (hf : Reported s' f) :
    e.debug = f.debug ↔ e.Agree f := by
  refine ⟨C76_error_text e f fun n hn => (reported_numbers he n hn).1, fun h => congrArg Dbg.text ?_⟩
  obtain ⟨st, mo, hb⟩ := reported_blames he
  refine PError.dbg_of_agree (fun n hn => (reported_numbers he n hn).2)
    (fun n hn => (reported_numbers hf n hn).2) ?_ ?_ ?_ h <;> (rintro x rfl; exact hb)

end Sources

/-! ### Examples -/

section Examples

local instance debugTokenEnv : Env := asciiEnv true
local instance debugTokenEnvLawful : LawfulEnv := asciiEnv_lawful true

/-- The second token of `a\n"b"`. -/
example :
    letI := (fractionStd fun c => c ≠ '\u007f')
    (match readTokens c!"a\n\"b\"" [true, true] with
    | .ok ([_, t], _) => t.debug
    | _ => []) =
    c!"Token { location: 2:1..2:4, newline: true, value: String(StringLiteral { value: \"b\" }) }" := by
  decide +kernel

/-- Two spellings of a string have the same text; another string has another. -/
example :
    letI := (fractionStd fun c => c ≠ '\u007f')
    (match readTokens c!"'b'" [true], readTokens c!"\"b\"" [true], readTokens c!"'c'" [true] with
    | .ok ([t], _), .ok ([u], _), .ok ([v], _) => decide (t.debug = u.debug ∧ t ≠ u ∧ t.debug ≠ v.debug)
    | _, _, _ => false) = true := by
  decide +kernel

/-- A reported error. -/
example :
    letI := (fractionStd fun c => c ≠ '\u007f')
    (match script c!"a b" with
    | .err e => e.debug
    | _ => []) =
    c!"FailedASI(Token { location: 1:3..1:4, newline: false, value: Identifier(String(\"b\")) })" := by
  decide +kernel

/-- Errors of the lexer. -/
example :
    letI := (fractionStd fun c => c ≠ '\u007f')
    (LexError.illegalUnicode 0x110000).debug = c!"IllegalUnicode(1114112)" ∧
    (LexError.unterminatedString (some '\n')).debug = c!"UnterminatedString(Some('\\n'))" ∧
    (NumberSource.decimalInt c!"1" (some ⟨.lowerCase, none, c!"5"⟩)).debug =
      c!"DecimalInt(\"1\", Some(Exp { e: LowerCase, sign: None, value: \"5\" }))" := by
  decide +kernel

end Examples

end Esprit
