import Verif.Model.Char

/-!
Model of the IEEE-754 double precision values (`f64`) that numeric literals
denote.  A finite value is its sign and its exact rational magnitude.
-/

namespace Esprit

/-- Rust `f64`, up to NaN payloads. -/
inductive F64 where
  | nan
  | inf (neg : Bool)
  | num (neg : Bool) (mag : Rat)
  deriving DecidableEq, Repr

namespace F64

/-- `⌊log2 (n / d)⌋` for positive `n`, `d`. -/
def ilog2 (n d : Nat) : Int :=
  let e : Int := (n.log2 : Int) - (d.log2 : Int)
  -- `n / d` lies in `[2^(e-1), 2^(e+1))`
  if 0 ≤ e then
    if d * 2 ^ e.toNat ≤ n then e else e - 1
  else
    if d ≤ n * 2 ^ (-e).toNat then e else e - 1

/-- Quotient rounded to the nearest integer, ties to even. -/
def divRoundEven (n d : Nat) : Nat :=
  let q := n / d
  let r := n % d
  if 2 * r < d then q
  else if d < 2 * r then q + 1
  else if q % 2 = 0 then q else q + 1

/-- IEEE-754 binary64 rounding (round to nearest, ties to even) of the
nonnegative rational `n / d`. -/
def roundNat (n d : Nat) : F64 :=
  if n = 0 then .num false 0
  else
    -- exponent of the least significant bit of the result
    let e : Int := max (ilog2 n d - 52) (-1074)
    let m := if 0 ≤ e then divRoundEven n (d * 2 ^ e.toNat)
             else divRoundEven (n * 2 ^ (-e).toNat) d
    -- overflow threshold: results of magnitude at least 2^1024
    if 0 ≤ e then
      if 2 ^ 1024 ≤ m * 2 ^ e.toNat then .inf false
      else .num false ((m * 2 ^ e.toNat : Nat) : Rat)
    else .num false (mkRat m (2 ^ (-e).toNat))

/-- Rounding of an arbitrary rational. -/
def ofRat (q : Rat) : F64 :=
  match roundNat q.num.natAbs q.den with
  | .num _ m => .num (decide (q < 0)) m
  | .inf _ => .inf (decide (q < 0))
  | .nan => .nan

/-- Exact value, for finite doubles. -/
def toRat? : F64 → Option Rat
  | .num neg m => some (if neg then -m else m)
  | _ => none

/-- IEEE `==` on doubles (Rust `PartialEq for f64`). -/
def feq : F64 → F64 → Bool
  | .inf a, .inf b => a = b
  | .num na a, .num nb b => (if na then -a else a) = (if nb then -b else b)
  | _, _ => false

/-- Rust std `f64::mul_add`: fused multiply-add, one rounding.  Only finite
nonnegative operands and `+inf` occur in the modelled code. -/
def mulAdd (x y z : F64) : F64 :=
  match x, y, z with
  | .num _ _, .num _ _, .num _ _ =>
    match x.toRat?, y.toRat?, z.toRat? with
    | some a, some b, some c => ofRat (a * b + c)
    | _, _, _ => .nan
  | .inf false, .num false b, .num _ _ => if b = 0 then .nan else .inf false
  | _, _, _ => .nan

end F64

end Esprit
