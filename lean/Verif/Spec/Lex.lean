import Verif.Model.Token
import Verif.Spec.Reader

/-!
Specification of the lexical grammar accepted by joker, as relations between
source text and token values.  It shares with the model only the data types of
tokens and the identifier tables of `Env`; character classes, punctuators,
escapes and literals are stated here on their own.
-/

namespace Esprit

/-- Facts about the Unicode tables `ID_Start`/`ID_Continue` (crate `ucd`) that
some theorems use. -/
class LawfulEnv [Env] : Prop where
  /-- every `ID_Start` character is `ID_Continue` -/
  start_continue : ∀ c, Env.idStart c = true → Env.idContinue c = true
  /-- the ASCII characters of `ID_Start` are the letters -/
  ascii_start : ∀ c : Char, c.toNat < 128 → Env.idStart c = c.isAlpha
  /-- the ASCII characters of `ID_Continue` are letters, digits and `_` -/
  ascii_continue : ∀ c : Char, c.toNat < 128 →
    Env.idContinue c = (c.isAlpha || c.isDigit || c == '_')
  /-- no separator is `ID_Continue` -/
  separators : ∀ c : Char, c ∈ (['\u00a0', '\u1680', '\u2000', '\u2001', '\u2002', '\u2003',
    '\u2004', '\u2005', '\u2006', '\u2009', '\u200a', '\u202f', '\u205f', '\u3000', '\ufeff',
    '\u2028', '\u2029'] : List Char) → Env.idContinue c = false

namespace Lex

/-! ### Character classes -/

/-- LF, CR, LS, PS. -/
def lineTerminators : List Char := ['\n', '\r', '\u2028', '\u2029']

/-- The characters joker treats as white space (U+2007 and U+2008, which are in
Unicode's `Zs`, are not among them). -/
def whiteSpace : List Char :=
  ['\t', '\u000b', '\u000c', ' ', '\u00a0', '\u1680', '\u2000', '\u2001', '\u2002', '\u2003',
   '\u2004', '\u2005', '\u2006', '\u2009', '\u200a', '\u202f', '\u205f', '\u3000', '\ufeff']

def binDigits : List Char := c!"01"
def octDigits : List Char := c!"01234567"
def decDigits : List Char := c!"0123456789"
def hexDigits : List Char := c!"0123456789abcdefABCDEF"

/-- The value of a digit in any radix up to 16. -/
def digitVal (c : Char) : Nat :=
  if c.isDigit then c.toNat - '0'.toNat
  else if c.isLower then c.toNat - 'a'.toNat + 10
  else c.toNat - 'A'.toNat + 10

/-- The number that a string of digits denotes in positional notation. -/
def numeral (radix : Nat) (ds : Str) : Nat := ds.foldl (fun n d => n * radix + digitVal d) 0

variable [Env]

/-- IdentifierStart. -/
def IdStart (c : Char) : Prop := c = '$' ∨ c = '_' ∨ Env.idStart c = true

/-- IdentifierPart. -/
def IdPart (c : Char) : Prop :=
  c = '$' ∨ c = '_' ∨ c = '\u200c' ∨ c = '\u200d' ∨ Env.idContinue c = true

/-! ### White space and comments -/

/-- No line terminator occurs in the text. -/
def OneLine (b : Str) : Prop := ∀ c ∈ b, c ∉ lineTerminators

/-- Comments that extend to the end of the line.  The HTML-like `-->` is one
only where no token precedes it on its line (`emptyLine`). -/
inductive LineComment : (emptyLine : Bool) → Str → Prop where
  | slashes {e : Bool} {b : Str} : OneLine b → LineComment e (c!"//" ++ b)
  | htmlOpen {e : Bool} {b : Str} : OneLine b → LineComment e (c!"<!--" ++ b)
  | htmlClose {b : Str} : OneLine b → LineComment true (c!"-->" ++ b)

/-- `/* ... */`, ending at the first `*/`. -/
inductive BlockComment : Str → Prop where
  | mk {b : Str} : ¬ c!"*/" <:+: b → BlockComment (c!"/*" ++ b ++ c!"*/")

/-- The line is over: a line terminator or the end of the input comes next. -/
def AtLineEnd (y : Str) : Prop := ∀ c, y.head? = some c → c ∈ lineTerminators

/-- `Trivia e w y e'`: the text `w`, followed by `y`, consists of white space,
line terminators and comments; `e`, `e'` say whether no token has been seen on
the current line before and after it. -/
inductive Trivia : (e : Bool) → (w y : Str) → (e' : Bool) → Prop where
  | nil {e : Bool} {y : Str} : Trivia e [] y e
  | space {e e' : Bool} {c : Char} {w y : Str} :
      c ∈ whiteSpace → Trivia e w y e' → Trivia e (c :: w) y e'
  | newline {e e' : Bool} {c : Char} {w y : Str} :
      c ∈ lineTerminators → Trivia true w y e' → Trivia e (c :: w) y e'
  | line {e e' : Bool} {k w y : Str} :
      LineComment e k → AtLineEnd (w ++ y) → Trivia e w y e' → Trivia e (k ++ w) y e'
  | block {e e' : Bool} {k w y : Str} :
      BlockComment k → Trivia e w y e' → Trivia e (k ++ w) y e'

/-- `y` does not begin with more trivia. -/
structure NoTrivia (e : Bool) (y : Str) : Prop where
  space : ∀ c, y.head? = some c → c ∉ whiteSpace ∧ c ∉ lineTerminators
  slashes : ¬ c!"//" <+: y
  block : ¬ c!"/*" <+: y
  htmlOpen : ¬ c!"<!--" <+: y
  htmlClose : e = true → ¬ c!"-->" <+: y

/-! ### Escapes and words -/

/-- What follows `\u`: four hexadecimal digits, or any number of them in
braces.  The code point of a braced escape is computed in 32-bit arithmetic, so
it is the numeral modulo 2^32; with overflow checks (debug builds) eight or
more digits panic. -/
inductive UnicodeEscape : Str → Nat → Prop where
  | four {ds : Str} : ds.length = 4 → (∀ d ∈ ds, d ∈ hexDigits) →
      UnicodeEscape ds (numeral 16 ds)
  | braced {ds : Str} : ds ≠ [] → (∀ d ∈ ds, d ∈ hexDigits) →
      (Env.overflowChecks = true → ds.length < 8) →
      UnicodeEscape ('{' :: ds ++ c!"}") (numeral 16 ds % 2 ^ 32)

/-- When the text after `\\u` makes the lexer panic: the input ends inside the
braces, or (with overflow checks) the braces hold eight or more digits. -/
inductive BracePanic (s : Str) : Panic → Prop where
  | eof {ds : Str} : s = '{' :: ds → ds ≠ [] → (∀ d ∈ ds, d ∈ hexDigits) →
      BracePanic s .readPastEnd
  | overflow {ds y : Str} : s = '{' :: ds ++ '}' :: y → (∀ d ∈ ds, d ∈ hexDigits) →
      8 ≤ ds.length → Env.overflowChecks = true → BracePanic s .overflow

/-- The text contains an escape that makes the lexer panic. -/
def EscapePanic (s : Str) (p : Panic) : Prop :=
  ∃ pre t, s = pre ++ c!"\\u" ++ t ∧ BracePanic t p

/-- `WordParts x esc t`: `x` is a run of identifier characters and escapes that
spells `t`; `esc` says whether an escape occurs. -/
inductive WordParts : (x : Str) → (esc : Bool) → (t : Str) → Prop where
  | nil : WordParts [] false []
  | plain {c : Char} {x t : Str} {b : Bool} :
      c ≠ '\\' → IdPart c → WordParts x b t → WordParts (c :: x) b (c :: t)
  | escape {u x t : Str} {code : Nat} {c : Char} {b : Bool} :
      UnicodeEscape u code → c.toNat = code → WordParts x b t →
      WordParts (c!"\\u" ++ u ++ x) true (c :: t)

/-- A word cannot be continued by `y`. -/
def WordEnd (y : Str) : Prop := ∀ c, y.head? = some c → c ≠ '\\' ∧ ¬ IdPart c

/-- The words that are reserved in all contexts. -/
def reservedWords : List (Str × Reserved) :=
  [(c!"null", .null), (c!"true", .true), (c!"false", .false), (c!"break", .break),
   (c!"case", .case), (c!"catch", .catch), (c!"class", .class), (c!"const", .const),
   (c!"continue", .continue), (c!"debugger", .debugger), (c!"default", .default),
   (c!"delete", .delete), (c!"do", .do), (c!"else", .else), (c!"export", .export),
   (c!"extends", .extends), (c!"finally", .finally), (c!"for", .for), (c!"function", .function),
   (c!"if", .if), (c!"import", .import), (c!"in", .in), (c!"instanceof", .instanceof),
   (c!"new", .new), (c!"return", .return), (c!"super", .super), (c!"switch", .switch),
   (c!"this", .this), (c!"throw", .throw), (c!"try", .try), (c!"typeof", .typeof),
   (c!"var", .var), (c!"void", .void), (c!"while", .while), (c!"with", .with),
   (c!"enum", .enum)]

/-- The words with a meaning in some contexts only. -/
def contextualWords : List (Str × Atom) :=
  [(c!"arguments", .arguments), (c!"async", .async), (c!"await", .await), (c!"eval", .eval),
   (c!"from", .from), (c!"get", .get), (c!"implements", .implements),
   (c!"interface", .interface), (c!"let", .let), (c!"of", .of), (c!"package", .package),
   (c!"private", .private), (c!"protected", .protected), (c!"public", .public), (c!"set", .set),
   (c!"static", .static), (c!"target", .target), (c!"yield", .yield)]

/-- Classification of a word with text `t`. -/
inductive WordToken : (esc : Bool) → (t : Str) → TokenData → Prop where
  | reserved {t : Str} {w : Reserved} :
      (t, w) ∈ reservedWords → WordToken false t (.reserved w)
  | contextual {t : Str} {a : Atom} :
      (t, a) ∈ contextualWords → WordToken false t (.identifier (.atom a))
  | ordinary {t : Str} : (∀ w, (t, w) ∉ reservedWords) → (∀ a, (t, a) ∉ contextualWords) →
      WordToken false t (.identifier (.string t))
  | escaped {t : Str} : (∀ w, (t, w) ∉ reservedWords) →
      WordToken true t (.identifier (.string t))

/-! ### Strings -/

/-- The character an escape with this code point contributes: `?` stands for
the codes that are not Unicode scalar values. -/
def CodeChar (code : Nat) (c : Char) : Prop := c.toNat = code ∨ (¬ code.isValidChar ∧ c = '?')

/-- SingleEscapeCharacter and NonEscapeCharacter. -/
def simpleEscape (c : Char) : Char :=
  match c with
  | 'n' => '\n'
  | 'r' => '\r'
  | 't' => '\t'
  | 'b' => '\u0008'
  | 'v' => '\u000b'
  | 'f' => '\u000c'
  | c => c

/-- `StringPiece q x y v`: in a string delimited by `q`, the source piece `x`,
followed by `y`, contributes `v` to the value. -/
inductive StringPiece (q : Char) : (x y v : Str) → Prop where
  | plain {c : Char} {y : Str} :
      c ≠ q → c ≠ '\\' → c ∉ lineTerminators → StringPiece q [c] y [c]
  | simple {c : Char} {y : Str} :
      c ∉ octDigits → c ≠ 'x' → c ≠ 'u' → c ∉ lineTerminators →
      StringPiece q ['\\', c] y [simpleEscape c]
  | continuation {c : Char} {y : Str} :
      c ∈ lineTerminators → ¬ (c = '\r' ∧ y.head? = some '\n') → StringPiece q ['\\', c] y []
  | continuationCRLF {y : Str} : StringPiece q ['\\', '\r', '\n'] y []
  | hex {a b c : Char} {y : Str} :
      a ∈ hexDigits → b ∈ hexDigits → CodeChar (numeral 16 [a, b]) c →
      StringPiece q ['\\', 'x', a, b] y [c]
  | unicode {u y : Str} {code : Nat} {c : Char} :
      UnicodeEscape u code → CodeChar code c → StringPiece q (c!"\\u" ++ u) y [c]
  /-- legacy octal: as many digits as possible, up to three and up to 255 -/
  | octal {ds y : Str} {c : Char} :
      ds ≠ [] → ds.length ≤ 3 → (∀ d ∈ ds, d ∈ octDigits) → numeral 8 ds ≤ 255 →
      (∀ d, y.head? = some d → d ∈ octDigits → ds.length = 3 ∨ 255 < numeral 8 (ds ++ [d])) →
      CodeChar (numeral 8 ds) c → StringPiece q ('\\' :: ds) y [c]

/-- The rest of a string literal after its opening quote `q`: source text
(closing quote included) and value. -/
inductive StringRest (q : Char) : (x v : Str) → Prop where
  | close : StringRest q [q] []
  | piece {p v x w : Str} :
      StringPiece q p x v → StringRest q x w → StringRest q (p ++ x) (v ++ w)

/-! ### Regular expressions -/

/-- Contents of a class `[...]`.  (joker allows line terminators here.) -/
inductive RegClass : Str → Prop where
  | nil : RegClass []
  | plain {c : Char} {x : Str} : c ≠ ']' → c ≠ '\\' → RegClass x → RegClass (c :: x)
  | escape {c : Char} {x : Str} : c ∉ lineTerminators → RegClass x → RegClass ('\\' :: c :: x)

/-- Contents of a regular expression literal. -/
inductive RegBody : Str → Prop where
  | nil : RegBody []
  | plain {c : Char} {x : Str} :
      c ≠ '/' → c ≠ '\\' → c ≠ '[' → c ∉ lineTerminators → RegBody x → RegBody (c :: x)
  | escape {c : Char} {x : Str} : c ∉ lineTerminators → RegBody x → RegBody ('\\' :: c :: x)
  | cls {k x : Str} : RegClass k → RegBody x → RegBody ('[' :: k ++ ']' :: x)

/-- An unterminated regular expression: the input ends in its body or in a
class. -/
inductive OpenRegExp : Str → Prop where
  | body {b : Str} : RegBody b → OpenRegExp ('/' :: b)
  | cls {b k : Str} : RegBody b → RegClass k → OpenRegExp ('/' :: b ++ '[' :: k)

/-! ### Numbers -/

/-- Source text of an exponent part. -/
def spellExp : Option Exp → Str
  | none => []
  | some ⟨e, sign, ds⟩ =>
    (match e with | .lowerCase => 'e' | .upperCase => 'E') ::
      (match sign with | none => [] | some .plus => c!"+" | some .minus => c!"-") ++ ds

/-- Source text of a number. -/
def spellNumber : NumberSource → Str
  | .decimalInt m e => m ++ spellExp e
  | .radixInt (.hex .lowerCase) s => c!"0x" ++ s
  | .radixInt (.hex .upperCase) s => c!"0X" ++ s
  | .radixInt (.oct (some .lowerCase)) s => c!"0o" ++ s
  | .radixInt (.oct (some .upperCase)) s => c!"0O" ++ s
  | .radixInt (.oct none) s => s
  | .radixInt (.bin .lowerCase) s => c!"0b" ++ s
  | .radixInt (.bin .upperCase) s => c!"0B" ++ s
  | .float ip fp e => (match ip with | none => [] | some i => i) ++ c!"." ++
      (match fp with | none => [] | some f => f) ++ spellExp e

/-- Digits of the given alphabet, at least one. -/
def Digits (alphabet : List Char) (s : Str) : Prop := s ≠ [] ∧ ∀ d ∈ s, d ∈ alphabet

/-- A legacy octal literal such as `017`. -/
def LegacyOctal (s : Str) : Prop := ∃ t, s = '0' :: t ∧ Digits octDigits t

/-- Well-formed exponent part. -/
def ExpOk : Option Exp → Prop
  | none => True
  | some ⟨_, _, ds⟩ => Digits decDigits ds

/-- The number literals, when `y` follows. -/
inductive NumberOk : NumberSource → (y : Str) → Prop where
  | decimal {m y : Str} {e : Option Exp} : Digits decDigits m → ¬ LegacyOctal m → ExpOk e →
      (e = none → y.head? ≠ some '.') → NumberOk (.decimalInt m e) y
  | hex {cc : CharCase} {s y : Str} : Digits hexDigits s → NumberOk (.radixInt (.hex cc) s) y
  | oct {cc : CharCase} {s y : Str} : Digits octDigits s →
      NumberOk (.radixInt (.oct (some cc)) s) y
  | bin {cc : CharCase} {s y : Str} : Digits binDigits s → NumberOk (.radixInt (.bin cc) s) y
  | legacyOctal {s y : Str} : LegacyOctal s → NumberOk (.radixInt (.oct none) s) y
  | point {f y : Str} {e : Option Exp} : Digits decDigits f → ExpOk e →
      NumberOk (.float none (some f) e) y
  | float {m f y : Str} {e : Option Exp} : Digits decDigits m → ¬ LegacyOctal m →
      (∀ d ∈ f, d ∈ decDigits) → ExpOk e → NumberOk (.float (some m) (some f) e) y

/-- Neither an identifier nor a digit may follow a number directly. -/
def NumberEnd (y : Str) : Prop := ∀ c, y.head? = some c → ¬ IdStart c ∧ c ∉ decDigits

/-! ### Tokens -/

/-- The punctuators.  (joker has a token for `=>` but never produces it.) -/
def punctuators : List (Str × TokenData) :=
  [(c!"{", .lBrace), (c!"}", .rBrace), (c!"(", .lParen), (c!")", .rParen), (c!"[", .lBrack),
   (c!"]", .rBrack), (c!".", .dot), (c!"...", .ellipsis), (c!";", .semi), (c!",", .comma),
   (c!"<", .lAngle), (c!">", .rAngle), (c!"<=", .lEq), (c!">=", .gEq), (c!"==", .eq),
   (c!"!=", .nEq), (c!"===", .strictEq), (c!"!==", .strictNEq), (c!"+", .plus), (c!"-", .minus),
   (c!"*", .star), (c!"%", .mod), (c!"/", .slash), (c!"++", .inc), (c!"--", .dec),
   (c!"<<", .lShift), (c!">>", .rShift), (c!">>>", .uRShift), (c!"&", .bitAnd), (c!"|", .bitOr),
   (c!"^", .bitXor), (c!"!", .bang), (c!"~", .tilde), (c!"&&", .logicalAnd),
   (c!"||", .logicalOr), (c!"?", .question), (c!":", .colon), (c!"=", .assign),
   (c!"+=", .plusAssign), (c!"-=", .minusAssign), (c!"*=", .starAssign), (c!"/=", .slashAssign),
   (c!"%=", .modAssign), (c!"<<=", .lShiftAssign), (c!">>=", .rShiftAssign),
   (c!">>>=", .uRShiftAssign), (c!"&=", .bitAndAssign), (c!"|=", .bitOrAssign),
   (c!"^=", .bitXorAssign)]

/-- `Lexeme op x y v`: the text `x`, followed by `y`, is one token with value
`v`.  In operator mode `op` a slash is division, otherwise it opens a regular
expression. -/
inductive Lexeme (op : Bool) : (x y : Str) → TokenData → Prop where
  | eof : Lexeme op [] [] .eof
  /-- the longest punctuator that is a prefix of the text -/
  | punctuator {x y : Str} {v : TokenData} : (x, v) ∈ punctuators →
      (∀ x' v', (x', v') ∈ punctuators → x' <+: x ++ y → x'.length ≤ x.length) →
      (x.head? = some '/' → op = true) →
      (x = c!"." → ∀ c, y.head? = some c → c ∉ decDigits) → Lexeme op x y v
  | word {x y t : Str} {esc : Bool} {v : TokenData} :
      (∃ c, x.head? = some c ∧ (IdStart c ∨ c = '\\')) → WordParts x esc t → WordEnd y →
      WordToken esc t v → Lexeme op x y v
  | string {q : Char} {x y v : Str} : q = '"' ∨ q = '\'' → StringRest q x v →
      Lexeme op (q :: x) y (.string ⟨some (q :: x), v⟩)
  | number {src : NumberSource} {y : Str} {v : F64} : NumberOk src y → NumberEnd y →
      src.value = some v → Lexeme op (spellNumber src) y (.number ⟨some src, v⟩)
  | regexp {p f y flags : Str} {esc : Bool} : op = false → RegBody p → WordParts f esc flags →
      WordEnd y → Lexeme op ('/' :: p ++ '/' :: f) y (.regExp ⟨p, flags⟩)

/-- The panics that reading a token in mode `op` from the text `s` can end in:
an unterminated regular expression, or a bad `\\u{` escape. -/
def TokenPanic (op : Bool) (s : Str) (p : Panic) : Prop :=
  (op = false ∧ p = .readPastEnd ∧ OpenRegExp s) ∨ EscapePanic s p

/-- `Spelled x v`: the token value `v` is spelled by the source text `x`. -/
def Spelled (x : Str) : TokenData → Prop
  | .reserved w => (x, w) ∈ reservedWords
  | .identifier (.atom a) => (x, a) ∈ contextualWords
  | .identifier (.string t) => '\\' ∉ x → x = t
  | .string lit => lit.source = some x
  | .number lit => ∃ src, lit.source = some src ∧ x = spellNumber src
  | .regExp lit => ∃ f, x = c!"/" ++ lit.pattern ++ c!"/" ++ f ∧ ('\\' ∉ f → f = lit.flags)
  | .eof => x = []
  | v => (x, v) ∈ punctuators

/-- A line terminator occurs in the text. -/
def hasNewline (w : Str) : Bool := w.any (fun c => lineTerminators.contains c)

end Lex

end Esprit
