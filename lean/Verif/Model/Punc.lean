import Verif.Model.Token

/-! Model of `crates/easter/src/punc.rs`. -/

namespace Esprit

/-- punc.rs:9-12 `Semi`. -/
inductive Semi where
  | inserted
  | explicit (p : Option Posn)
  deriving DecidableEq, Repr

/-- punc.rs:49-52 `Op<T>`. -/
structure Op (T : Type) where
  location : Option Span
  tag : T
  deriving DecidableEq, Repr

/-- punc.rs:21-29 `UnopTag`. -/
inductive UnopTag where
  | minus
  | plus
  | not
  | bitNot
  | typeof
  | void
  | delete
  deriving DecidableEq, Repr

/-- punc.rs:31-46 `FromStr for UnopTag`; `none` is `Err(())`. -/
def UnopTag.fromStr (s : Str) : Option UnopTag :=
  if s = c!"-" then some .minus
  else if s = c!"+" then some .plus
  else if s = c!"!" then some .not
  else if s = c!"~" then some .bitNot
  else if s = c!"typeof" then some .typeof
  else if s = c!"void" then some .void
  else if s = c!"delete" then some .delete
  else none

/-- punc.rs:98-120 `BinopTag`. -/
inductive BinopTag where
  | eq
  | nEq
  | strictEq
  | strictNEq
  | lt
  | lEq
  | gt
  | gEq
  | lShift
  | rShift
  | uRShift
  | plus
  | minus
  | times
  | div
  | mod
  | bitOr
  | bitXor
  | bitAnd
  | «in»
  | instanceof
  deriving DecidableEq, Repr

/-- punc.rs:122-151 `FromStr for BinopTag`; `none` is `Err(())`. -/
def BinopTag.fromStr (s : Str) : Option BinopTag :=
  if s = c!"==" then some .eq
  else if s = c!"!=" then some .nEq
  else if s = c!"===" then some .strictEq
  else if s = c!"!==" then some .strictNEq
  else if s = c!"<" then some .lt
  else if s = c!"<=" then some .lEq
  else if s = c!">" then some .gt
  else if s = c!">=" then some .gEq
  else if s = c!"<<" then some .lShift
  else if s = c!">>" then some .rShift
  else if s = c!">>>" then some .uRShift
  else if s = c!"+" then some .plus
  else if s = c!"-" then some .minus
  else if s = c!"*" then some .times
  else if s = c!"/" then some .div
  else if s = c!"%" then some .mod
  else if s = c!"|" then some .bitOr
  else if s = c!"^" then some .bitXor
  else if s = c!"&" then some .bitAnd
  else if s = c!"in" then some .«in»
  else if s = c!"instanceof" then some .instanceof
  else none

/-- punc.rs:153-179 `Precedence for BinopTag`. -/
def BinopTag.precedence : BinopTag → Nat
  | .eq => 7
  | .nEq => 7
  | .strictEq => 7
  | .strictNEq => 7
  | .lt => 8
  | .lEq => 8
  | .gt => 8
  | .gEq => 8
  | .lShift => 9
  | .rShift => 9
  | .uRShift => 9
  | .plus => 10
  | .minus => 10
  | .times => 11
  | .div => 11
  | .mod => 11
  | .bitOr => 4
  | .bitXor => 5
  | .bitAnd => 6
  | .«in» => 8
  | .instanceof => 8

/-- punc.rs:183-209 `Display for BinopTag`. -/
def BinopTag.display : BinopTag → Str
  | .eq => c!"=="
  | .nEq => c!"!="
  | .strictEq => c!"==="
  | .strictNEq => c!"!=="
  | .lt => c!"<"
  | .lEq => c!"<="
  | .gt => c!">"
  | .gEq => c!">="
  | .lShift => c!"<<"
  | .rShift => c!">>"
  | .uRShift => c!">>>"
  | .plus => c!"+"
  | .minus => c!"-"
  | .times => c!"*"
  | .div => c!"/"
  | .mod => c!"%"
  | .bitOr => c!"|"
  | .bitXor => c!"^"
  | .bitAnd => c!"&"
  | .«in» => c!"in"
  | .instanceof => c!"instanceof"

/-- punc.rs:212-215 `LogopTag`. -/
inductive LogopTag where
  | or
  | and
  deriving DecidableEq, Repr

/-- punc.rs:217-227 `FromStr for LogopTag`; `none` is `Err(())`. -/
def LogopTag.fromStr (s : Str) : Option LogopTag :=
  if s = c!"||" then some .or
  else if s = c!"&&" then some .and
  else none

/-- punc.rs:229-236 `Precedence for LogopTag`. -/
def LogopTag.precedence : LogopTag → Nat
  | .or => 2
  | .and => 3

/-- punc.rs:240-247 `Display for LogopTag`. -/
def LogopTag.display : LogopTag → Str
  | .or => c!"||"
  | .and => c!"&&"

/-- punc.rs:250-262 `AssopTag`. -/
inductive AssopTag where
  | plusEq
  | minusEq
  | timesEq
  | divEq
  | modEq
  | lShiftEq
  | rShiftEq
  | uRShiftEq
  | bitOrEq
  | bitXorEq
  | bitAndEq
  deriving DecidableEq, Repr

/-- punc.rs:264-283 `FromStr for AssopTag`; `none` is `Err(())`. -/
def AssopTag.fromStr (s : Str) : Option AssopTag :=
  if s = c!"+=" then some .plusEq
  else if s = c!"-=" then some .minusEq
  else if s = c!"*=" then some .timesEq
  else if s = c!"/=" then some .divEq
  else if s = c!"%=" then some .modEq
  else if s = c!"<<=" then some .lShiftEq
  else if s = c!">>=" then some .rShiftEq
  else if s = c!">>>=" then some .uRShiftEq
  else if s = c!"|=" then some .bitOrEq
  else if s = c!"^=" then some .bitXorEq
  else if s = c!"&=" then some .bitAndEq
  else none

/-- punc.rs:291-307 `Display for AssopTag`. -/
def AssopTag.display : AssopTag → Str
  | .plusEq => c!"+="
  | .minusEq => c!"-="
  | .timesEq => c!"*="
  | .divEq => c!"/="
  | .modEq => c!"%="
  | .lShiftEq => c!"<<="
  | .rShiftEq => c!">>="
  | .uRShiftEq => c!">>>="
  | .bitOrEq => c!"|="
  | .bitXorEq => c!"^="
  | .bitAndEq => c!"&="

/-- punc.rs:319-342: the tag part of `Token::to_binop`. -/
def TokenData.toBinopTag (allowIn : Bool) : TokenData → Option BinopTag
  | .star => some .times
  | .slash => some .div
  | .mod => some .mod
  | .plus => some .plus
  | .minus => some .minus
  | .lShift => some .lShift
  | .rShift => some .rShift
  | .uRShift => some .uRShift
  | .lAngle => some .lt
  | .rAngle => some .gt
  | .lEq => some .lEq
  | .gEq => some .gEq
  | .reserved .instanceof => some .instanceof
  | .reserved .«in» => if allowIn then some .«in» else none
  | .eq => some .eq
  | .nEq => some .nEq
  | .strictEq => some .strictEq
  | .strictNEq => some .strictNEq
  | .bitAnd => some .bitAnd
  | .bitXor => some .bitXor
  | .bitOr => some .bitOr
  | _ => none

/-- punc.rs:316-344 `Token::to_binop`. -/
def Token.toBinop (t : Token) (allowIn : Bool) : Option (Op BinopTag) :=
  (t.value.toBinopTag allowIn).map fun tag => ⟨some t.location, tag⟩

/-- punc.rs:349-353: the tag part of `Token::to_logop`. -/
def TokenData.toLogopTag : TokenData → Option LogopTag
  | .logicalAnd => some .and
  | .logicalOr => some .or
  | _ => none

/-- punc.rs:346-355 `Token::to_logop`. -/
def Token.toLogop (t : Token) : Option (Op LogopTag) :=
  t.value.toLogopTag.map fun tag => ⟨some t.location, tag⟩

/-- punc.rs:360-373: the tag part of `Token::to_assop`. -/
def TokenData.toAssopTag : TokenData → Option AssopTag
  | .plusAssign => some .plusEq
  | .minusAssign => some .minusEq
  | .starAssign => some .timesEq
  | .slashAssign => some .divEq
  | .modAssign => some .modEq
  | .lShiftAssign => some .lShiftEq
  | .rShiftAssign => some .rShiftEq
  | .uRShiftAssign => some .uRShiftEq
  | .bitAndAssign => some .bitAndEq
  | .bitOrAssign => some .bitOrEq
  | .bitXorAssign => some .bitXorEq
  | _ => none

/-- punc.rs:357-375 `Token::to_assop`. -/
def Token.toAssop (t : Token) : Option (Op AssopTag) :=
  t.value.toAssopTag.map fun tag => ⟨some t.location, tag⟩

end Esprit
