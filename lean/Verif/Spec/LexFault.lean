import Verif.Model.Lexer
import Verif.Spec.Lex

/-!
Specification of the malformed sources: what is wrong with a text that does not
begin with a token, and which error (or, for the known defects, which panic)
says so.  It uses the relations of `Spec/Lex.lean` for the well-formed text in
front of the offending character.  From the model it takes only the type of
errors.
-/

namespace Esprit.Lex

/-- The two ways in which reading a token can fail. -/
inductive Failure where
  | error (e : LexError)
  | panic (p : Panic)

/-- `BadHex n s f`: the text `s` does not begin with `n` hexadecimal digits. -/
inductive BadHex (n : Nat) : (s : Str) → Failure → Prop where
  /-- a character that is not a hexadecimal digit: it is named -/
  | invalid {ds y : Str} {c : Char} : ds.length < n → (∀ d ∈ ds, d ∈ hexDigits) → c ∉ hexDigits →
      BadHex n (ds ++ c :: y) (.error (.invalidDigit c))
  /-- the end of the input -/
  | missing {ds : Str} : ds.length < n → (∀ d ∈ ds, d ∈ hexDigits) →
      BadHex n ds (.error .missingHexDigits)

variable [Env]

/-- What can be wrong after `\u`. -/
inductive BadEscape : (s : Str) → Failure → Prop where
  | four {s : Str} {f : Failure} : s.head? ≠ some '{' → BadHex 4 s f → BadEscape s f
  /-- a character other than a digit in braces (or no digit at all) -/
  | invalid {ds y : Str} {c : Char} : (∀ d ∈ ds, d ∈ hexDigits) → c ∉ hexDigits →
      (c = '}' → ds = []) → BadEscape ('{' :: ds ++ c :: y) (.error (.invalidDigit c))
  | missing : BadEscape ['{'] (.error .missingHexDigits)
  /-- the end of the input after a digit in braces: a panic -/
  | eof {ds : Str} : ds ≠ [] → (∀ d ∈ ds, d ∈ hexDigits) →
      BadEscape ('{' :: ds) (.panic .readPastEnd)
  /-- eight or more digits, in a build with overflow checks: a panic -/
  | overflow {ds y : Str} : (∀ d ∈ ds, d ∈ hexDigits) → 8 ≤ ds.length →
      Env.overflowChecks = true → BadEscape ('{' :: ds ++ '}' :: y) (.panic .overflow)

/-- What can be wrong in a run of identifier characters and escapes. -/
inductive BadWord : (s : Str) → Failure → Prop where
  /-- a backslash without `u`: what follows it is named -/
  | incomplete {x t y : Str} {esc : Bool} : WordParts x esc t → y.head? ≠ some 'u' →
      BadWord (x ++ '\\' :: y) (.error (.incompleteWordEscape y.head?))
  | escape {x t y : Str} {esc : Bool} {f : Failure} : WordParts x esc t → BadEscape y f →
      BadWord (x ++ c!"\\u" ++ y) f
  /-- an escape that denotes no Unicode scalar value: its code is named -/
  | illegal {x t u y : Str} {esc : Bool} {code : Nat} : WordParts x esc t →
      UnicodeEscape u code → ¬ code.isValidChar →
      BadWord (x ++ c!"\\u" ++ u ++ y) (.error (.illegalUnicode code))

/-- Some pieces of a string delimited by `q`: the text `x`, followed by `y`. -/
inductive StringOpen (q : Char) : (x y : Str) → Prop where
  | nil {y : Str} : StringOpen q [] y
  | piece {p v x y : Str} : StringPiece q p (x ++ y) v → StringOpen q x y →
      StringOpen q (p ++ x) y

/-- What can be wrong after the opening quote `q`. -/
inductive BadString (q : Char) : (s : Str) → Failure → Prop where
  /-- the end of the input before the closing quote -/
  | eof {x : Str} : StringOpen q x [] → BadString q x (.error (.unterminatedString none))
  | backslash {x : Str} : StringOpen q x ['\\'] →
      BadString q (x ++ ['\\']) (.error (.unterminatedString none))
  /-- a line terminator: it is named -/
  | newline {x y : Str} {c : Char} : StringOpen q x (c :: y) → c ∈ lineTerminators →
      BadString q (x ++ c :: y) (.error (.unterminatedString (some c)))
  | hex {x y : Str} {f : Failure} : StringOpen q x (c!"\\x" ++ y) → BadHex 2 y f →
      BadString q (x ++ (c!"\\x" ++ y)) f
  | unicode {x y : Str} {f : Failure} : StringOpen q x (c!"\\u" ++ y) → BadEscape y f →
      BadString q (x ++ (c!"\\u" ++ y)) f

/-- What can be wrong after the opening slash of a regular expression. -/
inductive BadRegExp : (s : Str) → Failure → Prop where
  /-- a line terminator: it is named -/
  | newline {b y : Str} {c : Char} : RegBody b → c ∈ lineTerminators →
      BadRegExp (b ++ c :: y) (.error (.unterminatedRegExp (some c)))
  /-- a backslash at the end of the line: what follows it is named -/
  | escape {b y : Str} : RegBody b → AtLineEnd y →
      BadRegExp (b ++ '\\' :: y) (.error (.unterminatedRegExp y.head?))
  | clsEscape {b k y : Str} : RegBody b → RegClass k → AtLineEnd y →
      BadRegExp (b ++ '[' :: k ++ '\\' :: y) (.error (.unterminatedRegExp y.head?))
  /-- the end of the input in the body or in a class: a panic -/
  | eof {b : Str} : RegBody b → BadRegExp b (.panic .readPastEnd)
  | clsEof {b k : Str} : RegBody b → RegClass k → BadRegExp (b ++ '[' :: k) (.panic .readPastEnd)
  | flags {b y : Str} {f : Failure} : RegBody b → BadWord y f → BadRegExp (b ++ '/' :: y) f

/-- The prefix of a number in a radix, its digits, and the error for missing
digits. -/
def radixPrefixes : List (Str × List Char × LexError) :=
  [(c!"0x", hexDigits, .missingHexDigits), (c!"0X", hexDigits, .missingHexDigits),
   (c!"0o", octDigits, .missingOctalDigits), (c!"0O", octDigits, .missingOctalDigits),
   (c!"0b", binDigits, .missingBinaryDigits), (c!"0B", binDigits, .missingBinaryDigits)]

/-- `c` cannot continue the number. -/
def NumberStops : NumberSource → Char → Prop
  | .decimalInt m none, c => c ∉ decDigits ∧ c ≠ 'e' ∧ c ≠ 'E' ∧
      (m = c!"0" → c ∉ (c!"xXoObB" : Str))
  | .decimalInt _ (some _), c => c ∉ decDigits
  | .radixInt (.hex _) _, c => c ∉ hexDigits
  | .radixInt (.oct (some _)) _, c => c ∉ octDigits
  | .radixInt (.oct none) _, c => c ∉ decDigits
  | .radixInt (.bin _) _, c => c ∉ binDigits
  | .float _ _ none, c => c ∉ decDigits ∧ c ≠ 'e' ∧ c ≠ 'E'
  | .float _ _ (some _), c => c ∉ decDigits

/-- Decimal literals without exponent part: an exponent part may follow. -/
def NoExponent : NumberSource → Prop
  | .decimalInt _ none => True
  | .float _ _ none => True
  | _ => False

/-- What can be wrong in a number. -/
inductive BadNumber : (s : Str) → Failure → Prop where
  /-- no digit after the radix prefix: the character there is named -/
  | invalid {p y : Str} {digits : List Char} {e : LexError} {c : Char} :
      (p, digits, e) ∈ radixPrefixes → c ∉ digits →
      BadNumber (p ++ c :: y) (.error (.invalidDigit c))
  | missing {p : Str} {digits : List Char} {e : LexError} :
      (p, digits, e) ∈ radixPrefixes → BadNumber p (.error e)
  /-- no digit in the exponent: what stands there is named -/
  | exponent {src : NumberSource} {y : Str} {e : Char} {sign : Str} : NoExponent src →
      NumberOk src (e :: sign ++ y) → e = 'e' ∨ e = 'E' → sign ∈ [[], c!"+", c!"-"] →
      (sign = [] → y.head? ≠ some '+' ∧ y.head? ≠ some '-') →
      (∀ c, y.head? = some c → c ∉ decDigits) →
      BadNumber (spellNumber src ++ e :: sign ++ y) (.error (.missingExponent y.head?))
  /-- an identifier follows directly: its first character is named -/
  | identifier {src : NumberSource} {y : Str} {c : Char} : NumberOk src (c :: y) →
      NumberStops src c → IdStart c → BadNumber (spellNumber src ++ c :: y)
        (.error (.idAfterNumber c))
  /-- a digit follows directly (after a binary or octal number): it is named -/
  | digit {src : NumberSource} {y : Str} {c : Char} : NumberOk src (c :: y) →
      NumberStops src c → c ∈ decDigits → BadNumber (spellNumber src ++ c :: y)
        (.error (.digitAfterNumber c))

/-- What can be wrong with the token at the beginning of `s`. -/
inductive BadToken (op : Bool) : (s : Str) → Failure → Prop where
  /-- a character that begins no token: it is named -/
  | illegal {c : Char} {y : Str} : (∀ x v, (x, v) ∈ punctuators → x.head? ≠ some c) →
      c ≠ '"' → c ≠ '\'' → c ∉ decDigits → ¬ IdStart c → c ≠ '\\' →
      BadToken op (c :: y) (.error (.illegalChar c))
  | word {s : Str} {f : Failure} : (∃ c, s.head? = some c ∧ (IdStart c ∨ c = '\\')) →
      BadWord s f → BadToken op s f
  /-- a reserved word spelled with an escape: it is named -/
  | reserved {x y t : Str} {w : Reserved} : (∃ c, x.head? = some c ∧ (IdStart c ∨ c = '\\')) →
      WordParts x true t → WordEnd y → (t, w) ∈ reservedWords →
      BadToken op (x ++ y) (.error (.reservedWordWithEscapes w))
  | string {q : Char} {s : Str} {f : Failure} : q = '"' ∨ q = '\'' → BadString q s f →
      BadToken op (q :: s) f
  | number {s : Str} {f : Failure} : BadNumber s f → BadToken op s f
  | regexp {s : Str} {f : Failure} : op = false → BadRegExp s f → BadToken op ('/' :: s) f

/-- What can be wrong at the beginning of `s`, trivia included; `e` says whether
no token has been seen on the current line. -/
inductive Malformed (e op : Bool) : (s : Str) → Failure → Prop where
  /-- a block comment without end -/
  | comment {w b : Str} {e' : Bool} : Trivia e w (c!"/*" ++ b) e' → ¬ c!"*/" <:+: b →
      Malformed e op (w ++ (c!"/*" ++ b)) (.error .unterminatedComment)
  | token {w z : Str} {e' : Bool} {f : Failure} : Trivia e w z e' → NoTrivia e' z →
      BadToken op z f → Malformed e op (w ++ z) f

end Esprit.Lex
