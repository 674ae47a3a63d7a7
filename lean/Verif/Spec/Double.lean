import Verif.Model.F64

/-!
Specification of the IEEE-754 binary64 format, for nonnegative numbers: which
rationals are doubles, and which double is the nearest to a rational.
-/

namespace Esprit

/-- A finite nonnegative double: a significand of 53 bits, times a power of two between
`2^-1074` and `2^971`. -/
def IsDouble (v : Rat) : Prop :=
  ∃ m a b : Nat, m < 2 ^ 53 ∧ a ≤ 971 ∧ b ≤ 1074 ∧ v = m * 2 ^ a / 2 ^ b

/-- A double whose significand is even.  (The significand is normalized: it has 53 bits,
unless the number is subnormal.) -/
def EvenDouble (v : Rat) : Prop :=
  ∃ m a b : Nat, m < 2 ^ 53 ∧ a ≤ 971 ∧ b ≤ 1074 ∧ v = m * 2 ^ a / 2 ^ b ∧ m % 2 = 0 ∧
    (2 ^ 52 ≤ m ∨ (a = 0 ∧ b = 1074))

/-- The distance between two rationals. -/
def ratDist (p q : Rat) : Rat := if p ≤ q then q - p else p - q

/-- `Nearest q x`: the double `x` is the nearest to the nonnegative rational `q`; of two that
are equally near, the one with the even significand.  From half a unit in the last
place beyond the largest double on, it is infinity. -/
def Nearest (q : Rat) : F64 → Prop
  | .num neg v => neg = false ∧ q < 2 ^ 1024 - 2 ^ 970 ∧ IsDouble v ∧
      ∀ w, IsDouble w → w ≠ v → ratDist q v < ratDist q w ∨
        (ratDist q v = ratDist q w ∧ EvenDouble v)
  | .inf neg => neg = false ∧ 2 ^ 1024 - 2 ^ 970 ≤ q
  | .nan => False

/-- `Adjacent q x`: the double `x` is the largest that is at most `q`, or the smallest that is
at least `q`; it is infinity only if `q` is above all doubles.  In particular `x` is `q`
itself if `q` is a double. -/
def Adjacent (q : Rat) : F64 → Prop
  | .num neg v => neg = false ∧ IsDouble v ∧
      ((v ≤ q ∧ ∀ w, IsDouble w → v < w → q < w) ∨ (q ≤ v ∧ ∀ w, IsDouble w → w < v → w < q))
  | .inf neg => neg = false ∧ ∀ w, IsDouble w → w < q
  | .nan => False

end Esprit
