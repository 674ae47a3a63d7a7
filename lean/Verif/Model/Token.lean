import Verif.Model.Track
import Verif.Model.Word
import Verif.Model.F64

/-! Model of `crates/joker/src/token.rs`. -/

namespace Esprit

/-- token.rs:264-267. -/
inductive CharCase where
  | lowerCase
  | upperCase
  deriving DecidableEq, Repr

/-- token.rs:271-277. -/
inductive Sign where
  | plus
  | minus
  deriving DecidableEq, Repr

/-- token.rs:240-244. -/
structure Exp where
  e : CharCase
  sign : Option Sign
  value : Str
  deriving DecidableEq, Repr

/-- token.rs:247-251. -/
inductive Radix where
  | bin (c : CharCase)
  | oct (c : Option CharCase)
  | hex (c : CharCase)
  deriving DecidableEq, Repr

/-- token.rs:253-261 `Radix::value`. -/
def Radix.value : Radix → Nat
  | .bin _ => 2
  | .oct _ => 8
  | .hex _ => 16

/-- token.rs:184-188. -/
inductive NumberSource where
  | decimalInt (mantissa : Str) (exp : Option Exp)
  | radixInt (radix : Radix) (src : Str)
  | float (ip fp : Option Str) (exp : Option Exp)
  deriving DecidableEq, Repr

/-- token.rs:160-163. -/
structure NumberLiteral where
  source : Option NumberSource
  value : F64
  deriving DecidableEq, Repr

/-- token.rs:136-139. -/
structure StringLiteral where
  source : Option Str
  value : Str
  deriving DecidableEq, Repr

/-- token.rs:98-101. -/
structure RegExpLiteral where
  pattern : Str
  flags : Str
  deriving DecidableEq, Repr

/-- token.rs:24-86 `TokenData`. -/
inductive TokenData where
  | reserved (r : Reserved)
  | lBrace | rBrace | lParen | rParen | lBrack | rBrack
  | dot | ellipsis | semi | comma
  | lAngle | rAngle | lEq | gEq | eq | nEq | strictEq | strictNEq
  | plus | minus | star | mod | slash | inc | dec
  | lShift | rShift | uRShift | bitAnd | bitOr | bitXor
  | bang | tilde | logicalAnd | logicalOr | question | colon
  | assign | plusAssign | minusAssign | starAssign | slashAssign | modAssign
  | lShiftAssign | rShiftAssign | uRShiftAssign
  | bitAndAssign | bitOrAssign | bitXorAssign
  | arrow
  | number (n : NumberLiteral)
  | string (s : StringLiteral)
  | regExp (r : RegExpLiteral)
  | identifier (n : Name)
  | eof
  deriving DecidableEq, Repr

/-- token.rs:7-11 `Token`. -/
structure Token where
  location : Span
  /-- was there a newline between the preceding token and this one? -/
  newline : Bool
  value : TokenData
  deriving DecidableEq, Repr

/-- token.rs:14-20 `Token::new`. -/
def Token.new (start «end» : Posn) (value : TokenData) : Token :=
  ⟨⟨start, «end»⟩, false, value⟩

/-- token.rs:190-195 `format_sign`. -/
def formatSign : Option Sign → Str
  | some .minus => c!"-"
  | _ => c!""

/-- token.rs:197-202 `format_int`. -/
def formatInt : Option Str → Str
  | none => c!""
  | some s => s

/-! ### Rust std `f64::from_str` on the strings that reach it

The strings passed to `parse::<f64>()` in token.rs consist of digits, at most
one `.`, an `e` and a `-`.  `parseF64` models the std documentation's grammar
restricted to that alphabet (no leading sign, no `inf`/`nan`):

```
Number ::= ( Digit+ | Digit+ '.' Digit* | Digit* '.' Digit+ ) Exp?
Exp    ::= 'e' '-'? Digit+
```
and its value, the correctly rounded double. -/

/-- Longest prefix of decimal digits, and the rest. -/
def spanDigits : Str → Str × Str
  | [] => ([], [])
  | c :: cs => if isEsDecDigit c then let (a, b) := spanDigits cs; (c :: a, b) else ([], c :: cs)

/-- Value of a string of decimal digits. -/
def digitsVal (radix : Nat) (s : Str) : Nat :=
  s.foldl (fun acc c => acc * radix + (toDigit c radix).getD 0) 0

/-- Rational value of `ip.fp × 10^(±exp)`. -/
def decimalVal (ip fp : Str) (neg : Bool) (exp : Str) : Rat :=
  let m : Rat := mkRat (digitsVal 10 (ip ++ fp)) (10 ^ fp.length)
  let e := digitsVal 10 exp
  if neg then m / ((10 ^ e : Nat) : Rat) else m * ((10 ^ e : Nat) : Rat)

/-- `Exp?` at the end of the string: sign and digits. -/
def parseExp : Str → Option (Bool × Str)
  | [] => some (false, c!"0")
  | 'e' :: '-' :: ds =>
    if ds ≠ [] ∧ ds.all isEsDecDigit then some (true, ds) else none
  | 'e' :: ds =>
    if ds ≠ [] ∧ ds.all isEsDecDigit then some (false, ds) else none
  | _ => none

/-- Rust std `<f64 as FromStr>::from_str` (see above); `none` is `Err`. -/
def parseF64 (s : Str) : Option F64 :=
  match spanDigits s with
  | (ip, '.' :: r) =>
    match spanDigits r with
    | (fp, r') =>
      if ip = [] ∧ fp = [] then none
      else match parseExp r' with
        | some (neg, e) => some (F64.ofRat (decimalVal ip fp neg e))
        | none => none
  | (ip, r) =>
    if ip = [] then none
    else match parseExp r with
      | some (neg, e) => some (F64.ofRat (decimalVal ip [] neg e))
      | none => none

/-- Integer-to-double cast `d as f64` of a digit (exact). -/
def F64.ofNat (n : Nat) : F64 := F64.ofRat (n : Rat)

/-- token.rs:217-219: fold over the digits of a radix literal; `none` is the
panic of `to_digit(radix).unwrap()`. -/
def radixValue (radix : Nat) : F64 → Str → Option F64
  | acc, [] => some acc
  | acc, c :: cs =>
    match toDigit c radix with
    | some d => radixValue radix (F64.mulAdd acc (F64.ofNat radix) (F64.ofNat d)) cs
    | none => none

/-- token.rs:205-228 `NumberSource::value`; `none` is a panic (`unwrap` of a
failed parse or of `to_digit`). -/
def NumberSource.value : NumberSource → Option F64
  | .decimalInt mantissa none => parseF64 mantissa
  | .decimalInt mantissa (some ⟨_, sign, value⟩) =>
    parseF64 (mantissa ++ c!"e" ++ formatSign sign ++ value)
  | .radixInt radix src => radixValue radix.value (F64.num false 0) src
  | .float ip fp none => parseF64 (formatInt ip ++ c!"." ++ formatInt fp)
  | .float ip fp (some ⟨_, sign, value⟩) =>
    parseF64 (formatInt ip ++ c!"." ++ formatInt fp ++ c!"e" ++ formatSign sign ++ value)

/-- token.rs:111-117 `alphabetize`: the sorted characters. -/
def alphabetize (s : Str) : Str := s.mergeSort (fun a b => a.toNat ≤ b.toNat)

/-- token.rs:128-133. -/
def RegExpLiteral.eqv (a b : RegExpLiteral) : Bool :=
  a.pattern = b.pattern && alphabetize a.flags = alphabetize b.flags

/-- token.rs:153-157. -/
def StringLiteral.eqv (a b : StringLiteral) : Bool := a.value = b.value

/-- token.rs:177-181. -/
def NumberLiteral.eqv (a b : NumberLiteral) : Bool := F64.feq a.value b.value

/-- token.rs:23 derived `PartialEq for TokenData` (using the literals' own
`PartialEq`). -/
def TokenData.eqv : TokenData → TokenData → Bool
  | .number a, .number b => a.eqv b
  | .string a, .string b => a.eqv b
  | .regExp a, .regExp b => a.eqv b
  | a, b => a = b

end Esprit
