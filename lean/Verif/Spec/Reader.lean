import Verif.Model.Reader

/-!
Specification of the character reader (properties C01 and C02), independent of
how the reader is implemented: an index into the input.
-/

namespace Esprit

/-- A call made on a character reader. -/
inductive ReaderOp where
  /-- `reader.peek(n)` -/
  | peek (n : Nat)
  /-- `reader.next()` -/
  | read
  deriving DecidableEq, Repr

/-- The results of a sequence of calls on the reader as written
(reader.rs:19-58), and the reader afterwards. -/
def BufReader.run : List ReaderOp → BufReader → List (Option Char) × BufReader
  | [], r => ([], r)
  | .peek n :: ops, r =>
    let (c, r) := r.peek n
    let (cs, r) := BufReader.run ops r
    (c :: cs, r)
  | .read :: ops, r =>
    let (c, r) := r.next
    let (cs, r) := BufReader.run ops r
    (c :: cs, r)

namespace ReaderSpec

/-- What a sequence of calls must return after `k` characters of `s` have been
read: `peek n` is the character `n` places ahead, `read` is the next one. -/
def results (s : Str) : (k : Nat) → List ReaderOp → List (Option Char)
  | _, [] => []
  | k, .peek n :: ops => s[k + n]? :: results s k ops
  | k, .read :: ops => s[k]? :: results s (k + 1) ops

/-- The number of reads in a sequence of calls. -/
def reads : List ReaderOp → Nat
  | [] => 0
  | .peek _ :: ops => reads ops
  | .read :: ops => reads ops + 1

/-- The `i`-th character of `s` completes a line: LF, LS, PS, or a CR that no
LF follows. -/
def endsLine (s : Str) (i : Nat) : Bool :=
  match s[i]? with
  | none => false
  | some c =>
    c = '\n' || c = '\u2028' || c = '\u2029' || (c = '\r' && s[i + 1]? ≠ some '\n')

/-- `p` is the position after the first `k` characters of `s`. -/
structure PosnAt (s : Str) (k : Nat) (p : Posn) : Prop where
  /-- the offset counts characters -/
  offset : p.offset = k
  /-- the line counts completed lines -/
  line : p.line = (List.range k).countP (endsLine s)
  /-- the column counts characters since the current line began, at `j` -/
  column : ∃ j ≤ k, p.column = k - j ∧
    (j = 0 ∨ endsLine s (j - 1) = true) ∧ ∀ i, j ≤ i → i < k → endsLine s i = false

end ReaderSpec

end Esprit
