import Verif.Model.Base

/-! Model of `crates/joker/src/char.rs`. -/

namespace Esprit

/-- What the model is parametric in: the identifier tables of the external
`ucd` crate (`Codepoint::is_id_start`, `Codepoint::is_id_continue`) and whether
the build has `u32` overflow checks (debug profile). -/
class Env where
  idStart : Char → Bool
  idContinue : Char → Bool
  overflowChecks : Bool

variable [Env]

/-- char.rs:16-21. -/
def isEsNewline (c : Char) : Bool :=
  c = '\u000a' || c = '\u000d' || c = '\u2028' || c = '\u2029'

/-- char.rs:23-31. -/
def isEsWhitespace (c : Char) : Bool :=
  c = '\u0009' || c = '\u000b' || c = '\u000c' || c = '\u0020' || c = '\u00a0'
  || c = '\u1680' || c = '\u2000' || c = '\u2001' || c = '\u2002' || c = '\u2003'
  || c = '\u2004' || c = '\u2005' || c = '\u2006' || c = '\u2009' || c = '\u200a'
  || c = '\u202f' || c = '\u205f' || c = '\u3000' || c = '\ufeff'

/-- char.rs:33-38. -/
def isEsIdentifierStart (c : Char) : Bool :=
  if c = '$' || c = '_' then true else Env.idStart c

/-- char.rs:40-45. -/
def isEsIdentifierContinue (c : Char) : Bool :=
  if c = '$' || c = '_' || c = '\u200c' || c = '\u200d' then true else Env.idContinue c

/-- char.rs:47-57. -/
def unescape (c : Char) : Char :=
  if c = 'n' then '\n'
  else if c = 'r' then '\r'
  else if c = 't' then '\t'
  else if c = 'b' then '\x08'
  else if c = 'v' then '\x0b'
  else if c = 'f' then '\x0c'
  else c

/-- char.rs:68-73. -/
def isEsDecDigit (c : Char) : Bool := '0' ≤ c && c ≤ '9'

/-- char.rs:59-66. -/
def isEsHexDigit (c : Char) : Bool :=
  ('0' ≤ c && c ≤ '9') || ('a' ≤ c && c ≤ 'f') || ('A' ≤ c && c ≤ 'F')

/-- char.rs:75-80. -/
def isEsOctDigit (c : Char) : Bool := '0' ≤ c && c ≤ '7'

/-- char.rs:82-84. -/
def isEsBinDigit (c : Char) : Bool := c = '0' || c = '1'

/-- Rust std `char::to_digit(radix)` for radix ≤ 16. -/
def toDigit (c : Char) (radix : Nat) : Option Nat :=
  let v :=
    if '0' ≤ c && c ≤ '9' then some (c.toNat - '0'.toNat)
    else if 'a' ≤ c && c ≤ 'z' then some (c.toNat - 'a'.toNat + 10)
    else if 'A' ≤ c && c ≤ 'Z' then some (c.toNat - 'A'.toNat + 10)
    else none
  match v with
  | some d => if d < radix then some d else none
  | none => none

/-- Rust std `char::from_u32`: `None` for surrogates and values above
U+10FFFF. -/
def charFromU32 (n : Nat) : Option Char :=
  if h : n < 0xd800 ∨ (0xdfff < n ∧ n < 0x110000) then
    some ⟨n.toUInt32, by
      rcases h with h | ⟨h1, h2⟩
      · left
        show n.toUInt32.toNat < _
        simp only [Nat.toUInt32, UInt32.toNat_ofNat']
        omega
      · right
        constructor
        · show _ < n.toUInt32.toNat
          simp only [Nat.toUInt32, UInt32.toNat_ofNat']
          omega
        · show n.toUInt32.toNat < _
          simp only [Nat.toUInt32, UInt32.toNat_ofNat']
          omega⟩
  else none

end Esprit
