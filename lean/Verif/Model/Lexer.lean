import Verif.Model.Token
import Verif.Model.Reader

/-!
Model of `crates/joker/src/lexer.rs` (and `Map::tokenize` of word.rs).

Conventions:
* `&mut self` on the reader becomes a state-passing function `L α`.
* A `&mut String` argument that a function only appends to becomes part of the
  result: the model function returns the appended characters.
* After an `Err` the lexer state is dropped (the parser never reads again).
* A loop whose body is an arbitrary reader gets a budget of iterations equal to
  the number of remaining characters plus one; running out of it is the
  outcome `Res.fuel` (shown unreachable in `Verif/Proofs/LexTokens.lean`).
-/

namespace Esprit

/-- joker error.rs:7-22 `Error`. -/
inductive LexError where
  | incompleteWordEscape (c : Option Char)
  | unterminatedComment
  | unterminatedRegExp (c : Option Char)
  | missingExponent (c : Option Char)
  | unterminatedString (c : Option Char)
  | missingBinaryDigits
  | missingOctalDigits
  | missingHexDigits
  | illegalChar (c : Char)
  | invalidDigit (c : Char)
  | illegalUnicode (u : Nat)
  | idAfterNumber (c : Char)
  | digitAfterNumber (c : Char)
  | reservedWordWithEscapes (r : Reserved)
  deriving DecidableEq, Repr

/-- A lexer routine working on the reader. -/
def L (α : Type) : Type := Reader → Res LexError (α × Reader)

instance : Monad L where
  pure a := fun r => .ok (a, r)
  bind m f := fun r => (m r).bind fun (a, r') => f a r'

namespace L

/-- `return Err(e)`. -/
def throw {α : Type} (e : LexError) : L α := fun _ => .err e

/-- A panic. -/
def panic {α : Type} (p : Panic) : L α := fun _ => .panic p

/-- lexer.rs:92-94 `posn`. -/
def posn : L Posn := fun r => .ok (r.posn, r)

/-- lexer.rs:112-114 `peek`. -/
def peek : L (Option Char) := fun r => .ok (r.peek 0, r)

/-- lexer.rs:116-118 `peek2`. -/
def peek2 : L (Option Char × Option Char) := fun r => .ok ((r.peek 0, r.peek 1), r)

/-- `self.reader.peek(n)` (lexer.rs:604, 611, 631). -/
def peekAt (n : Nat) : L (Option Char) := fun r => .ok (r.peek n, r)

/-- lexer.rs:102-104 `read`. -/
def read : L Char := fun r =>
  match r.next? with
  | some (c, r') => .ok (c, r')
  | none => .panic .readPastEnd

/-- lexer.rs:120-122 `skip`. -/
def skip : L Unit := do
  let _ ← read
  pure ()

/-- lexer.rs:124-127 `skip2`. -/
def skip2 : L Unit := do
  skip
  skip

/-- `debug_assert!(b)` (model: checked in every build). -/
def debugAssert (b : Bool) : L Unit := if b then pure () else panic .debugAssert

/-- lexer.rs:106-110 `reread`.  At the end of input both the `debug_assert!`
and the `unwrap` of `skip` panic; the model reports `readPastEnd`. -/
def reread (ch : Char) : L Char := do
  let p ← peek
  debugAssert (p = some ch || p = none)
  skip
  pure ch

/-- lexer.rs:129-131 `matches`. -/
def «matches» (ch : Char) : L Bool := do
  let p ← peek
  if p = some ch then do skip; pure true else pure false

/-- Common part of `skip_while`/`skip_until`/`read_into_until`: read the
maximal prefix satisfying `p`. -/
def spanWhile (p : Char → Bool) : List Char → Posn → Str × Reader
  | [], posn => ([], ⟨[], posn⟩)
  | c :: cs, posn =>
    if p c then
      let (s, r) := spanWhile p cs (posn.step c cs)
      (c :: s, r)
    else ([], ⟨c :: cs, posn⟩)

/-- lexer.rs:139-150 `skip_until`. -/
def skipUntil (pred : Char → Bool) : L Unit := fun r =>
  .ok ((), (spanWhile (fun c => !pred c) r.rest r.posn).2)

/-- lexer.rs:133-137 `skip_while`. -/
def skipWhile (pred : Char → Bool) : L Unit := skipUntil (fun c => !pred c)

/-- lexer.rs:152-162 `read_into_until` (the `reread` in the loop follows a
successful `peek` of the same character). -/
def readIntoUntil (pred : Char → Bool) : L Str := fun r =>
  .ok (spanWhile (fun c => !pred c) r.rest r.posn)

/-- lexer.rs:164-178 `read_into2_until`: the two strings get the same
characters. -/
def readInto2Until (pred : Char → Bool) : L Str := readIntoUntil pred

/-- lexer.rs:184-190: the loop of `read_until_with`, collecting what the body
appends. -/
def untilLoop {α : Type} (pred : Char → Bool) (body : L (List α)) : Nat → L (List α)
  | 0 => fun _ => .fuel
  | n + 1 => do
    match ← peek with
    | none => pure []
    | some ch =>
      if pred ch then pure []
      else do
        let a ← body
        let as ← untilLoop pred body n
        pure (a ++ as)

/-- lexer.rs:180-191 `read_until_with`. -/
def readUntilWith {α : Type} (pred : Char → Bool) (body : L (List α)) : L (List α) :=
  fun r => untilLoop pred body (r.rest.length + 1) r

/-! ### Lexical grammar -/

/-- lexer.rs:197-203: the loop of `skip_newlines`. -/
def newlinesLoop : List Char → Posn → Reader
  | [], p => ⟨[], p⟩
  | c :: cs, p =>
    match c, cs with
    | '\r', '\n' :: cs' =>
      newlinesLoop cs' ((p.step '\r' ('\n' :: cs')).step '\n' cs')
    | c, cs => if isEsNewline c then newlinesLoop cs (p.step c cs) else ⟨c :: cs, p⟩

/-- lexer.rs:195-204 `skip_newlines`. -/
def skipNewlines : L Unit := do
  let p ← peek
  debugAssert (match p with | some ch => isEsNewline ch | none => false)
  fun r => .ok ((), newlinesLoop r.rest r.posn)

/-- lexer.rs:206-214 `read_newline_into`. -/
def readNewlineInto : L Str := do
  let p ← peek
  debugAssert (match p with | some ch => isEsNewline ch | none => false)
  let p2 ← peek2
  if p2 = (some '\r', some '\n') then do
    skip2
    pure ['\r', '\n']
  else do
    let c ← read
    pure [c]

/-- lexer.rs:216-218 `skip_whitespace`. -/
def skipWhitespace : L Unit := skipWhile isEsWhitespace

/-- lexer.rs:221-223. -/
def skipN : Nat → L Unit
  | 0 => pure ()
  | n + 1 => do
    skip
    skipN n

/-- lexer.rs:220-225 `skip_line_comment`. -/
def skipLineComment (prefixLen : Nat) : L Unit := do
  skipN prefixLen
  skipUntil isEsNewline

/-- lexer.rs:229-243: the loop of `skip_block_comment`. -/
def blockLoop : List Char → Posn → Bool → Res LexError (Bool × Reader)
  | [], _, _ => .err .unterminatedComment
  | [_], _, _ => .err .unterminatedComment
  | c :: d :: cs, p, nl =>
    if c = '*' ∧ d = '/' then
      .ok (nl, ⟨cs, (p.step c (d :: cs)).step d cs⟩)
    else blockLoop (d :: cs) (p.step c (d :: cs)) (isEsNewline c || nl)

/-- lexer.rs:227-244 `skip_block_comment`. -/
def skipBlockComment : L Bool := do
  skip2
  fun r => blockLoop r.rest r.posn false

/-- lexer.rs:269-276 `read_regexp_backslash`. -/
def readRegexpBackslash : L Str := do
  let b ← reread '\\'
  match ← peek with
  | some ch =>
    if isEsNewline ch then throw (.unterminatedRegExp (some ch))
    else do
      let c ← reread ch
      pure [b, c]
  | none => throw (.unterminatedRegExp none)

/-- lexer.rs:285-291 `read_regexp_class_char`. -/
def readRegexpClassChar : L Str := do
  match ← peek with
  | some ch =>
    if ch = '\\' then readRegexpBackslash
    else do
      let c ← reread ch
      pure [c]
  | none => throw (.unterminatedRegExp none)

/-- lexer.rs:278-283 `read_regexp_class`. -/
def readRegexpClass : L Str := do
  let o ← reread '['
  let s ← readUntilWith (fun ch => ch = ']') readRegexpClassChar
  let c ← reread ']'
  pure (o :: s ++ [c])

/-- lexer.rs:259-267 `read_regexp_char`. -/
def readRegexpChar : L Str := do
  match ← peek with
  | some ch =>
    if ch = '\\' then readRegexpBackslash
    else if ch = '[' then readRegexpClass
    else if isEsNewline ch then throw (.unterminatedRegExp (some ch))
    else do
      let c ← reread ch
      pure [c]
  | none => throw (.unterminatedRegExp none)

/-- lexer.rs:293-297 `read_decimal_digits`. -/
def readDecimalDigits : L Str := readIntoUntil (fun ch => !isEsDecDigit ch)

/-- lexer.rs:306-310: the optional sign in `read_exp_part`. -/
def readExpSign : L (Option Sign) := do
  let p ← peek
  if p = some '+' then do skip; pure (some Sign.plus)
  else if p = some '-' then do skip; pure (some Sign.minus)
  else pure none

/-- lexer.rs:299-317 `read_exp_part`. -/
def readExpPart : L (Option Exp) := do
  let p ← peek
  if p = some 'e' ∨ p = some 'E' then do
    let e := if p = some 'e' then CharCase.lowerCase else CharCase.upperCase
    skip
    let sign ← readExpSign
    match ← peek with
    | none => throw (.missingExponent none)
    | some ch =>
      if !isEsDecDigit ch then throw (.missingExponent (some ch))
      else do
        let v ← readDecimalDigits
        pure (some ⟨e, sign, v⟩)
  else pure none

/-- lexer.rs:319-323 `read_decimal_int`. -/
def readDecimalInt : L Str := readIntoUntil (fun ch => !isEsDecDigit ch)

/-- lexer.rs:508-520 `read_digit_into`: the digit read and its value. -/
def readDigitInto (radix : Nat) (pred : Char → Bool) (missing : LexError) : L (Char × Nat) := do
  match ← peek with
  | some ch =>
    if pred ch then do
      let c ← reread ch
      debugAssert (toDigit ch radix).isSome
      match toDigit ch radix with
      | some d => pure (c, d)
      | none => panic .unwrapNone
    else throw (.invalidDigit ch)
  | none => throw missing

/-- lexer.rs:522-524 `read_hex_digit_into`. -/
def readHexDigitInto : L (Char × Nat) := readDigitInto 16 isEsHexDigit .missingHexDigits

/-- token.rs:230-236 `NumberSource::into_token_data`. -/
def intoTokenData (src : NumberSource) : L TokenData :=
  match src.value with
  | some v => pure (.number ⟨some src, v⟩)
  | none => panic .unwrapNone

/-- lexer.rs:27-34 `SpanTracker::end`. -/
def spanEnd (start : Posn) (value : TokenData) : L Token := do
  let p ← posn
  pure (Token.new start p value)

/-- lexer.rs:325-342 `read_radix_int`.  The two `debug_assert!`s restate the
match of the only caller, `read_number`; of `is_alphabetic`/`is_lowercase`
only the letters x, o, b in both cases reach them. -/
def readRadixInt (radix : Nat) (pred : Char → Bool) (cons : CharCase → Str → NumberSource)
    (missing : LexError) : L Token := do
  let (p0, p1) ← peek2
  debugAssert (p0 = some '0')
  debugAssert (match p1 with | some ch => ch.isAlpha | none => false)
  let start ← posn
  skip
  let f ← read
  let flag := if f.isLower then CharCase.lowerCase else CharCase.upperCase
  let (d, _) ← readDigitInto radix pred missing
  let s ← readIntoUntil (fun ch => !pred ch)
  let data ← intoTokenData (cons flag (d :: s))
  spanEnd start data

/-- lexer.rs:344-348 `read_hex_int`. -/
def readHexInt : L Token :=
  readRadixInt 16 isEsHexDigit (fun cc s => .radixInt (.hex cc) s) .missingHexDigits

/-- lexer.rs:350-354 `read_oct_int`. -/
def readOctInt : L Token :=
  readRadixInt 8 isEsOctDigit (fun cc s => .radixInt (.oct (some cc)) s) .missingOctalDigits

/-- lexer.rs:356-360 `read_bin_int`. -/
def readBinInt : L Token :=
  readRadixInt 2 isEsBinDigit (fun cc s => .radixInt (.bin cc) s) .missingBinaryDigits

/-- lexer.rs:381-388: `.` and fraction after a decimal integer; `none` without
a dot. -/
def readFraction : L (Option Str) := do
  if ← «matches» '.' then do
    match ← peek with
    | some ch =>
      if isEsDecDigit ch then do
        let s ← readDecimalDigits
        pure (some s)
      else pure (some [])
    | none => pure (some [])
  else pure none

/-- lexer.rs:367-373: a number that starts with a dot. -/
def readDotNumber : L Token := do
  let start ← posn
  skip
  let frac ← readDecimalDigits
  let exp ← readExpPart
  let data ← intoTokenData (.float none (some frac) exp)
  spanEnd start data

/-- lexer.rs:374-397: a number that starts with a decimal digit. -/
def readDecNumber (ch : Char) : L Token := do
  debugAssert (isEsDecDigit ch)
  let start ← posn
  let s ← readDecimalInt
  let value ←
    (if ch = '0' ∧ 1 < s.length ∧ (s.drop 1).all isEsOctDigit then
      pure (NumberSource.radixInt (.oct none) s)
    else do
      let frac ← readFraction
      let exp ← readExpPart
      match frac with
      | some f => pure (NumberSource.float (some s) (some f) exp)
      | none => pure (NumberSource.decimalInt s exp))
  let data ← intoTokenData value
  spanEnd start data

/-- lexer.rs:363-399: the kinds of number, by the first two characters. -/
def readNumberOf : Option Char × Option Char → L Token
  | (some '0', some 'x') => readHexInt
  | (some '0', some 'X') => readHexInt
  | (some '0', some 'o') => readOctInt
  | (some '0', some 'O') => readOctInt
  | (some '0', some 'b') => readBinInt
  | (some '0', some 'B') => readBinInt
  | (some '.', _) => readDotNumber
  | (some ch, _) => readDecNumber ch
  | (none, _) => panic .unreachable

variable [Env]

/-- lexer.rs:362-406 `read_number`. -/
def readNumber : L Token := do
  let pair ← peek2
  let result ← readNumberOf pair
  match ← peek with
  | some ch =>
    if isEsIdentifierStart ch then throw (.idAfterNumber ch)
    else if isEsDecDigit ch then throw (.digitAfterNumber ch)
    else pure result
  | none => pure result

/-- `u32` arithmetic: wraps, or panics when overflow checks are enabled. -/
def u32 (n : Nat) : L Nat :=
  if n < 2 ^ 32 then pure n
  else if Env.overflowChecks then panic .overflow
  else pure (n % 2 ^ 32)

/-- lexer.rs:16-19: the loop of `add_digits`, over the reversed digits. -/
def addDigitsLoop (radix : Nat) : List Nat → (place sum : Nat) → L Nat
  | [], _, sum => pure sum
  | d :: ds, place, sum => do
    let t ← u32 (d * place)
    let sum' ← u32 (sum + t)
    let place' ← u32 (place * radix)
    addDigitsLoop radix ds place' sum'

/-- lexer.rs:13-21 `add_digits`. -/
def addDigits (digits : List Nat) (radix : Nat) : L Nat :=
  addDigitsLoop radix digits.reverse 1 0

/-- lexer.rs:456-459: the loop over four hexadecimal digits (`k` to go). -/
def fourHex : (k place code : Nat) → L (Str × Nat)
  | 0, _, code => pure ([], code)
  | k + 1, place, code => do
    let (c, d) ← readHexDigitInto
    let (s, v) ← fourHex k (place / 16) (code + d * place)
    pure (c :: s, v)

/-- lexer.rs:442-462 `read_unicode_escape_seq`: the source text read and the
code point. -/
def readUnicodeEscapeSeq : L (Str × Nat) := do
  if ← «matches» '{' then do
    let d0 ← readHexDigitInto
    let ds ← readUntilWith (fun ch => ch = '}') (do
      let d ← readHexDigitInto
      pure [d])
    let close ← reread '}'
    let v ← addDigits ((d0 :: ds).map (·.2)) 16
    pure ('{' :: (d0 :: ds).map (·.1) ++ [close], v)
  else fourHex 4 0x1000 0

/-- lexer.rs:468-481: up to `k` more octal digits of a legacy octal escape;
the source text and the code. -/
def octalLoop : (k code : Nat) → L (Str × Nat)
  | 0, code => pure ([], code)
  | k + 1, code => do
    match ← peek with
    | some ch =>
      if isEsOctDigit ch then
        match toDigit ch 8 with
        | none => panic .unwrapNone
        | some d =>
          let newCode := code * 8 + d
          if newCode > 255 then pure ([], code)
          else do
            let c ← reread ch
            let (s, v) ← octalLoop k newCode
            pure (c :: s, v)
      else pure ([], code)
    | none => pure ([], code)

/-- `char::from_u32(code).unwrap_or('?')` (lexer.rs:482, 489, 494). -/
def charOrQuestion (code : Nat) : Char :=
  match charFromU32 code with
  | some c => c
  | none => '?'

/-- lexer.rs:464-506 `read_string_escape`: the source text and the value
appended. -/
def readStringEscape : L (Str × Str) := do
  let b ← reread '\\'
  match ← peek with
  | some ch =>
    if isEsOctDigit ch then do
      let (s, code) ← octalLoop 3 0
      pure (b :: s, [charOrQuestion code])
    else if ch = 'x' then do
      let x ← reread 'x'
      let (c1, d1) ← readHexDigitInto
      let (c2, d2) ← readHexDigitInto
      pure ([b, x, c1, c2], [charOrQuestion (d1 * 16 + d2)])
    else if ch = 'u' then do
      let u ← reread 'u'
      let (s, code) ← readUnicodeEscapeSeq
      pure (b :: u :: s, [charOrQuestion code])
    else if isEsNewline ch then do
      let s ← readNewlineInto
      pure (b :: s, [])
    else do
      let c ← reread ch
      pure ([b, c], [unescape ch])
  | none => pure ([b], [])

/-- lexer.rs:415-435: the loop of `read_string`; source text (closing quote
included) and value. -/
def stringLoop (quote : Char) : Nat → L (Str × Str)
  | 0 => fun _ => .fuel
  | n + 1 => do
    let s ← readInto2Until (fun ch => ch = quote || ch = '\\' || isEsNewline ch)
    match ← peek with
    | some ch =>
      if ch = '\\' then do
        let (es, ev) ← readStringEscape
        let (ss, sv) ← stringLoop quote n
        pure (s ++ es ++ ss, s ++ ev ++ sv)
      else if isEsNewline ch then throw (.unterminatedString (some ch))
      else do
        skip
        pure (s ++ [quote], s)
    | none => throw (.unterminatedString none)

/-- lexer.rs:408-440 `read_string`. -/
def readString : L Token := do
  let p ← peek
  debugAssert p.isSome
  let start ← posn
  let quote ← read
  let (s, v) ← fun r => stringLoop quote (r.rest.length + 1) r
  spanEnd start (.string ⟨some (quote :: s), v⟩)

/-- lexer.rs:545-557 `read_word_escape`: the character denoted. -/
def readWordEscape : L Char := do
  let p ← peek
  if p = some 'u' then do
    let _ ← reread 'u'
    let (_, code) ← readUnicodeEscapeSeq
    match charFromU32 code with
    | some ch => pure ch
    | none => throw (.illegalUnicode code)
  else throw (.incompleteWordEscape p)

/-- lexer.rs:528-533: one part of a word, with whether it is an escape. -/
def readWordPart : L (List (Bool × Char)) := do
  let c ← read
  if c = '\\' then do
    let ch ← readWordEscape
    pure [(true, ch)]
  else pure [(false, c)]

/-- lexer.rs:526-535 `read_word_parts`. -/
def readWordParts : L Word := do
  let ps ← readUntilWith (fun ch => ch ≠ '\\' && !isEsIdentifierContinue ch) readWordPart
  pure ⟨ps.any (·.1), ps.map (·.2)⟩

/-- word.rs:297-306 `Map::tokenize` (`HashMap::get` is lookup by key; the
tables have no duplicate keys). -/
def tokenize (s : Word) : L TokenData :=
  match reservedTable.lookup s.text with
  | some word =>
    if !s.hadEscape then pure (.reserved word) else throw (.reservedWordWithEscapes word)
  | none =>
    match contextualTable.lookup s.text with
    | some atom =>
      if !s.hadEscape then pure (.identifier (.atom atom)) else pure (.identifier (.string s.text))
    | none => pure (.identifier (.string s.text))

/-- lexer.rs:537-543 `read_word`. -/
def readWord : L Token := do
  let p ← peek
  debugAssert (match p with | some ch => ch = '\\' || isEsIdentifierStart ch | none => false)
  let start ← posn
  let s ← readWordParts
  debugAssert (!s.text.isEmpty)
  let data ← tokenize s
  spanEnd start data

/-- lexer.rs:246-257 `read_regexp`. -/
def readRegexp : L Token := do
  let start ← posn
  let _ ← reread '/'
  let s ← readUntilWith (fun ch => ch = '/') readRegexpChar
  let _ ← reread '/'
  let flags ← readWordParts
  spanEnd start (.regExp ⟨s, flags.text⟩)

omit [Env]

/-- lexer.rs:559-563 `read_punc`. -/
def readPunc (value : TokenData) : L Token := do
  let start ← posn
  skip
  spanEnd start value

/-- lexer.rs:565-569 `read_punc2`. -/
def readPunc2 (value : TokenData) : L Token := do
  let start ← posn
  skip2
  spanEnd start value

/-- lexer.rs:571-576 `read_punc3`. -/
def readPunc3 (value : TokenData) : L Token := do
  let start ← posn
  skip2
  skip
  spanEnd start value

/-- lexer.rs:578-583 `read_punc2_3`. -/
def readPunc23 (ch : Char) (value2 value3 : TokenData) : L Token := do
  let start ← posn
  skip2
  let m ← «matches» ch
  spanEnd start (if m then value3 else value2)

/-- lexer.rs:652-662: tokens starting with `>>`. -/
def readShift : L Token := do
  let start ← posn
  skip2
  let value ←
    (match ← peek2 with
    | (some '>', some '=') => do skip2; pure TokenData.uRShiftAssign
    | (some '>', _) => do skip; pure TokenData.uRShift
    | (some '=', _) => do skip; pure TokenData.rShiftAssign
    | _ => pure TokenData.rShift)
  spanEnd start value

/-- lexer.rs:590-619: the trivia loop of `read_next_token`: whether a newline
was found, and the new `empty_line`. -/
def triviaLoop : Nat → (emptyLine foundNewline : Bool) → L (Bool × Bool)
  | 0, _, _ => fun _ => .fuel
  | n + 1, emptyLine, foundNewline => do
    match ← peek2 with
    | (some ch, p1) =>
      if isEsWhitespace ch then do
        skipWhitespace
        triviaLoop n emptyLine foundNewline
      else if isEsNewline ch then do
        skipNewlines
        triviaLoop n true true
      else if ch = '/' ∧ p1 = some '/' then do
        skipLineComment 2
        triviaLoop n emptyLine foundNewline
      else if ch = '/' ∧ p1 = some '*' then do
        let nl ← skipBlockComment
        triviaLoop n emptyLine (nl || foundNewline)
      else if ch = '<' ∧ p1 = some '!' then do
        let p2 ← peekAt 2
        let p3 ← peekAt 3
        if p2 = some '-' ∧ p3 = some '-' then do
          skipLineComment 4
          triviaLoop n emptyLine foundNewline
        else pure (foundNewline, emptyLine)
      else if ch = '-' ∧ p1 = some '-' then do
        let p2 ← peekAt 2
        if emptyLine ∧ p2 = some '>' then do
          skipLineComment 3
          triviaLoop n emptyLine foundNewline
        else pure (foundNewline, emptyLine)
      else pure (foundNewline, emptyLine)
    | (none, _) => pure (foundNewline, emptyLine)

variable [Env]

/-- lexer.rs:623-718: the token that starts with the character `c`, when `p1`
is the next one. -/
def tokenOf (operator : Bool) (c : Char) (p1 : Option Char) : L Token :=
  if c = '/' then
    if !operator then readRegexp
    else if p1 = some '=' then readPunc2 .slashAssign
    else readPunc .slash
  else if c = '.' then
    if (match p1 with | some d => isEsDecDigit d | none => false) then readNumber
    else if p1 = some '.' then do
      let p2 ← peekAt 2
      if p2 = some '.' then readPunc3 .ellipsis else readPunc .dot
    else readPunc .dot
  else if c = '{' then readPunc .lBrace
  else if c = '}' then readPunc .rBrace
  else if c = '[' then readPunc .lBrack
  else if c = ']' then readPunc .rBrack
  else if c = '(' then readPunc .lParen
  else if c = ')' then readPunc .rParen
  else if c = ';' then readPunc .semi
  else if c = ':' then readPunc .colon
  else if c = ',' then readPunc .comma
  else if c = '<' then
    if p1 = some '<' then readPunc23 '=' .lShift .lShiftAssign
    else if p1 = some '=' then readPunc2 .lEq
    else readPunc .lAngle
  else if c = '>' then
    if p1 = some '>' then readShift
    else if p1 = some '=' then readPunc2 .gEq
    else readPunc .rAngle
  else if c = '=' then
    if p1 = some '=' then readPunc23 '=' .eq .strictEq
    else readPunc .assign
  else if c = '+' then
    if p1 = some '+' then readPunc2 .inc
    else if p1 = some '=' then readPunc2 .plusAssign
    else readPunc .plus
  else if c = '-' then
    if p1 = some '-' then readPunc2 .dec
    else if p1 = some '=' then readPunc2 .minusAssign
    else readPunc .minus
  else if c = '*' then
    if p1 = some '=' then readPunc2 .starAssign
    else readPunc .star
  else if c = '%' then
    if p1 = some '=' then readPunc2 .modAssign
    else readPunc .mod
  else if c = '^' then
    if p1 = some '=' then readPunc2 .bitXorAssign
    else readPunc .bitXor
  else if c = '&' then
    if p1 = some '&' then readPunc2 .logicalAnd
    else if p1 = some '=' then readPunc2 .bitAndAssign
    else readPunc .bitAnd
  else if c = '|' then
    if p1 = some '|' then readPunc2 .logicalOr
    else if p1 = some '=' then readPunc2 .bitOrAssign
    else readPunc .bitOr
  else if c = '~' then readPunc .tilde
  else if c = '!' then
    if p1 = some '=' then readPunc23 '=' .nEq .strictNEq
    else readPunc .bang
  else if c = '?' then readPunc .question
  else if c = '"' ∨ c = '\'' then readString
  else if isEsDecDigit c then readNumber
  else if isEsIdentifierStart c then readWord
  else if c = '\\' then readWord
  else throw (.illegalChar c)

/-- lexer.rs:623-720: the token at the current position. -/
def readTokenBody (operator : Bool) : L Token := do
  match ← peek2 with
  | (none, _) => do
    let here ← posn
    pure (Token.new here here .eof)
  | (some c, p1) => tokenOf operator c p1

end L

/-- lexer.rs:36-41 `Lexer` (the `wordmap` is constant: `reservedTable`,
`contextualTable`). -/
structure Lexer where
  reader : Reader
  lookahead : List Token
  emptyLine : Bool
  deriving DecidableEq, Repr

namespace Lexer

variable [Env]

/-- lexer.rs:46-53 `Lexer::new`. -/
def new (chars : List Char) : Lexer := ⟨Reader.new chars, [], true⟩

/-- lexer.rs:585-723 `read_next_token`. -/
def readNextToken (operator : Bool) (l : Lexer) : Res LexError (Token × Lexer) :=
  (L.triviaLoop (l.reader.rest.length + 1) l.emptyLine false l.reader).bind
    fun ((foundNewline, _), r) =>
      (L.readTokenBody operator r).bind fun (t, r') =>
        .ok ({ t with newline := foundNewline }, { l with reader := r', emptyLine := false })

/-- lexer.rs:57-63 `peek_token`. -/
def peekToken (operator : Bool) (l : Lexer) : Res LexError (Token × Lexer) :=
  match l.lookahead with
  | t :: _ => .ok (t, l)
  | [] =>
    (l.readNextToken operator).bind fun (t, l') => .ok (t, { l' with lookahead := [t] })

/-- lexer.rs:65-67 `repeek_token`. -/
def repeekToken (l : Lexer) : Res LexError (Token × Lexer) :=
  match l.lookahead with
  | t :: _ => .ok (t, l)
  | [] => .panic .unwrapNone

/-- lexer.rs:74-76 `reread_token`. -/
def rereadToken (l : Lexer) : Res LexError (Token × Lexer) :=
  match l.lookahead with
  | t :: ts => .ok (t, { l with lookahead := ts })
  | [] => .panic .unwrapNone

/-- lexer.rs:78-83 `read_token`. -/
def readToken (operator : Bool) (l : Lexer) : Res LexError (Token × Lexer) :=
  match l.lookahead with
  | t :: ts => .ok (t, { l with lookahead := ts })
  | [] => l.readNextToken operator

/-- lexer.rs:69-72 `skip_token`. -/
def skipToken (operator : Bool) (l : Lexer) : Res LexError (Unit × Lexer) :=
  (l.readToken operator).bind fun (_, l') => .ok ((), l')

/-- lexer.rs:85-88 `unread_token`.  `VecDeque::with_capacity(2)` guarantees a
capacity of at least 2; the model asserts with exactly 2. -/
def unreadToken (t : Token) (l : Lexer) : Res LexError (Unit × Lexer) :=
  if l.lookahead.length < 2 then .ok ((), { l with lookahead := t :: l.lookahead })
  else .panic .debugAssert

end Lexer

end Esprit
