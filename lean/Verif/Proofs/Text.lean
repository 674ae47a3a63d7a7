import Verif.Model.Text
import Verif.Spec.Text
import Verif.Proofs.Reader

/-! The texts of errors and positions. -/

namespace Esprit

open ReaderSpec

/-- The description of the errors of a kind. -/
def ErrorKind.text : ErrorKind → Str
  | .unexpectedToken => c!"unexpected token"
  | .failedASI => c!"failed ASI"
  | .topLevelReturn => c!"top level return"
  | .illegalBreak => c!"illegal break"
  | .illegalContinue => c!"illegal continue"
  | .invalidLabel => c!"invalid label"
  | .invalidLabelType => c!"invalid label type"
  | .contextualKeyword => c!"contextual keyword"
  | .illegalStrictBinding => c!"illegal strict binding"
  | .unexpectedDirective => c!"unexpected directive"
  | .unexpectedModule => c!"unexpected module"
  | .importInScript => c!"import in script"
  | .exportInScript => c!"export in script"
  | .forOfLetExpr => c!"for-of-let expr"
  | .duplicateDefault => c!"duplicate default"
  | .strictWith => c!"strict with"
  | .throwArgument => c!"throw argument"
  | .orphanTry => c!"orphan try"
  | .unsupportedFeature => c!"unsupported feature"
  | .compoundParamWithUseStrict => c!"compound param with use strict"
  | .incompleteWordEscape => c!"incomplete word escape"
  | .unterminatedComment => c!"unterminated block comment"
  | .unterminatedRegExp => c!"unterminated regexp literal"
  | .missingExponent => c!"missing exponent"
  | .unterminatedString => c!"unterminated string"
  | .missingBinaryDigits => c!"missing binary digits"
  | .missingOctalDigits => c!"missing octal digits"
  | .missingHexDigits => c!"missing hex digits"
  | .illegalChar => c!"illegal character"
  | .invalidDigit => c!"invalid digit"
  | .illegalUnicode => c!"illegal code unit"
  | .idAfterNumber => c!"identifier starts immediately after numeric literal"
  | .digitAfterNumber => c!"numeric literal starts immediately after previous numeric literal"
  | .reservedWordWithEscapes => c!"reserved word with escapes"
  | .invalidAssignTarget => c!"invalid assignment pattern"
  | .invalidPropPatt => c!"invalid object property in assignment pattern"

def ErrorKind.all : List ErrorKind := [
  .unexpectedToken, .failedASI, .topLevelReturn, .illegalBreak, .illegalContinue,
  .invalidLabel, .invalidLabelType, .contextualKeyword, .illegalStrictBinding,
  .unexpectedDirective, .unexpectedModule, .importInScript, .exportInScript, .forOfLetExpr,
  .duplicateDefault, .strictWith, .throwArgument, .orphanTry, .unsupportedFeature,
  .compoundParamWithUseStrict, .incompleteWordEscape, .unterminatedComment,
  .unterminatedRegExp, .missingExponent, .unterminatedString, .missingBinaryDigits,
  .missingOctalDigits, .missingHexDigits, .illegalChar, .invalidDigit, .illegalUnicode,
  .idAfterNumber, .digitAfterNumber, .reservedWordWithEscapes, .invalidAssignTarget,
  .invalidPropPatt]

theorem ErrorKind.find_text (k : ErrorKind) :
    ErrorKind.all.find? (fun k' => k'.text = k.text) = some k := by
  cases k <;> decide +kernel

theorem ErrorKind.text_injective {a b : ErrorKind} (h : a.text = b.text) : a = b := by
  have := a.find_text
  rw [h, b.find_text] at this
  exact (Option.some.inj this).symm

theorem LexError.description_eq (e : LexError) : e.description = e.kind.text := by cases e <;> rfl

theorem CoverError.description_eq (e : CoverError) : e.description = e.kind.text := by
  cases e <;> rfl

theorem PError.description_eq (e : PError) : e.description = e.kind.text := by
  cases e <;> first | rfl | exact LexError.description_eq _ | exact CoverError.description_eq _

/-! ### Digits -/

/-- The value of a hexadecimal digit. -/
def hexVal (c : Char) : Nat := if c.toNat < 97 then c.toNat - 48 else c.toNat - 87

/-- The value of digits. -/
def hexNum (l : Str) : Nat := l.foldl (fun n c => 16 * n + hexVal c) 0

theorem hexVal_digitChar {d : Nat} (h : d < 16) : hexVal d.digitChar = d := by
  have : ∀ d : Fin 16, hexVal d.val.digitChar = d.val := by decide
  exact this ⟨d, h⟩

theorem hexNum_toDigits (n : Nat) : hexNum (Nat.toDigits 16 n) = n := by
  induction n using Nat.strongRecOn with
  | ind n ih =>
    rcases Nat.lt_or_ge n 16 with h | h
    · rw [Nat.toDigits_of_lt_base h]
      simp [hexNum, hexVal_digitChar h]
    · rw [Nat.toDigits_of_base_le (by omega) h]
      have := ih (n / 16) (by omega)
      unfold hexNum at this ⊢
      rw [List.foldl_append, this]
      simp only [List.foldl_cons, List.foldl_nil, hexVal_digitChar (Nat.mod_lt n (by omega))]
      omega

theorem hexNum_zeros (k : Nat) (l : Str) : hexNum (List.replicate k '0' ++ l) = hexNum l := by
  induction k with
  | zero => rfl
  | succ k ih =>
    rw [List.replicate_succ, List.cons_append, ← ih]
    rfl

theorem hex4_injective {a b : Nat} (h : hex4 a = hex4 b) : a = b := by
  have h' := congrArg hexNum h
  rwa [hex4, hex4, hexNum_zeros, hexNum_zeros, hexNum_toDigits, hexNum_toDigits] at h'

theorem decimal_injective {a b : Nat} (h : Nat.toDigits 10 a = Nat.toDigits 10 b) : a = b := by
  rw [← @Nat.ofDigitChars_ten_toDigits a, h, Nat.ofDigitChars_ten_toDigits]

theorem decimal_digit {n : Nat} {c : Char} (h : c ∈ Nat.toDigits 10 n) : c.isDigit = true :=
  Nat.isDigit_of_mem_toDigits (by omega) (by omega) h

/-- A list of digits is determined by a text that goes on with something else. -/
theorem digits_append {a b : Str} {c d : Char} {x y : Str} (ha : ∀ e ∈ a, e.isDigit = true)
    (hb : ∀ e ∈ b, e.isDigit = true) (hc : c.isDigit = false) (hd : d.isDigit = false)
    (h : a ++ c :: x = b ++ d :: y) : a = b ∧ x = y := by
  induction a generalizing b with
  | nil =>
    cases b with
    | nil => exact ⟨rfl, (List.cons.inj h).2⟩
    | cons e b =>
      rw [(List.cons.inj h).1, hb e (by simp)] at hc
      cases hc
  | cons e a ih =>
    cases b with
    | nil =>
      rw [← (List.cons.inj h).1, ha e (by simp)] at hd
      cases hd
    | cons f b =>
      injection h with h1 h2
      subst h1
      obtain ⟨rfl, h⟩ := ih (fun g hg => ha g (by simp [hg])) (fun g hg => hb g (by simp [hg])) h2
      exact ⟨rfl, h⟩

/-! ### Positions -/

theorem Posn.debug_injective {p q : Posn} (h : p.debug = q.debug) :
    p.line = q.line ∧ p.column = q.column := by
  obtain ⟨h1, h2⟩ := digits_append (fun _ => decimal_digit) (fun _ => decimal_digit)
    (by decide) (by decide) h
  have := decimal_injective h1
  have := decimal_injective h2
  omega

theorem Span.debug_injective {a b : Span} (h : a.debug = b.debug) :
    a.start.debug = b.start.debug ∧ a.end.debug = b.end.debug := by
  unfold Span.debug Posn.debug at h
  simp only [List.append_assoc, List.cons_append] at h
  obtain ⟨h1, h⟩ := digits_append (fun _ => decimal_digit) (fun _ => decimal_digit)
    (by decide) (by decide) h
  obtain ⟨h2, h⟩ := digits_append (fun _ => decimal_digit) (fun _ => decimal_digit)
    (by decide) (by decide) h
  refine ⟨?_, (List.cons.inj h).2⟩
  unfold Posn.debug
  rw [h1, h2]

theorem PosnAt_le {s : Str} {i j : Nat} {p q : Posn} (hp : PosnAt s i p) (hq : PosnAt s j q)
    (hl : p.line = q.line) (hc : p.column = q.column) (h : i < j) : False := by
  obtain ⟨-, l1, a, ha, c1, a1, a2⟩ := hp
  obtain ⟨-, l2, b, hb, c2, b1, b2⟩ := hq
  rw [l1, l2] at hl
  -- no line ends between `i` and `j`
  have key : ∀ k, i ≤ k → k < j → endsLine s k = false := by
    intro k h1 h2
    cases he : endsLine s k with
    | false => rfl
    | true =>
      exfalso
      have s1 : (List.range (k + 1)).Sublist (List.range j) := List.range_sublist.2 (by omega)
      have s2 : (List.range i).Sublist (List.range k) := List.range_sublist.2 h1
      have e1 := s1.countP_le (p := endsLine s)
      have e2 := s2.countP_le (p := endsLine s)
      rw [List.range_succ, List.countP_append] at e1
      simp only [List.countP_cons, List.countP_nil, he, if_true] at e1
      omega
  have : b ≤ i := by
    rcases b1 with rfl | b1
    · omega
    · rcases Nat.lt_or_ge i b with h' | h'
      · rw [key (b - 1) (by omega) (by omega)] at b1; cases b1
      · exact h'
  have hab : a < b := by omega
  rcases b1 with rfl | b1
  · omega
  · rw [a2 (b - 1) (by omega) (by omega)] at b1; cases b1

theorem PosnAt_text {s : Str} {i j : Nat} {p q : Posn} (hp : PosnAt s i p) (hq : PosnAt s j q)
    (h : p.debug = q.debug) : p = q := by
  obtain ⟨h1, h2⟩ := Posn.debug_injective h
  rcases Nat.lt_trichotomy i j with h | rfl | h
  · exact (PosnAt_le hp hq h1 h2 h).elim
  · exact hp.unique hq
  · exact (PosnAt_le hq hp h1.symm h2.symm h).elim

end Esprit
