import Verif.Model.Track

/-!
Model of `crates/joker/src/reader.rs`.

`BufReader` is the reader as written: an underlying character iterator and a
lookahead buffer.  `Reader` is the flat cursor (remaining characters and
position) used by the lexer model; theorem `Esprit.reader_refinement`
(`Verif/Props/Reader.lean`) shows that every sequence of operations behaves
identically on both.
-/

namespace Esprit

/-- reader.rs:4-8 `Reader`: underlying iterator (`str::chars`, which is
fused), lookahead deque, current position. -/
structure BufReader where
  chars : List Char
  ahead : List Char
  currPosn : Posn
  deriving DecidableEq, Repr

/-- reader.rs:11-17. -/
def BufReader.new (chars : List Char) : BufReader := ⟨chars, [], Posn.origin⟩

/-- reader.rs:21-30: the fill loop, `k` iterations left; `false` is the early
`return None`. -/
def BufReader.fill : Nat → BufReader → Bool × BufReader
  | 0, r => (true, r)
  | k + 1, r =>
    match r.chars with
    | c :: cs => BufReader.fill k { r with chars := cs, ahead := r.ahead ++ [c] }
    | [] => (false, r)

/-- reader.rs:19-32 `Reader::peek`.  (The capacity assertion of line 20 holds
for the offsets 0-3 used by the lexer.) -/
def BufReader.peek (r : BufReader) (n : Nat) : Option Char × BufReader :=
  match r.fill (n + 1 - r.ahead.length) with
  | (true, r') => (r'.ahead[n]?, r')
  | (false, r') => (none, r')

/-- The character `next` is about to return (reader.rs:41-43) and the reader
without it. -/
def BufReader.pop (r : BufReader) : Option Char × BufReader :=
  match r.ahead with
  | c :: cs => (some c, { r with ahead := cs })
  | [] =>
    match r.chars with
    | c :: cs => (some c, { r with chars := cs })
    | [] => (none, r)

/-- reader.rs:40-58 `Iterator::next`. -/
def BufReader.next (r : BufReader) : Option Char × BufReader :=
  let (c, r) := r.pop
  -- `curr_char == Some('\r') && self.peek(0) != Some('\n')` peeks only after '\r'
  let (bare, r) :=
    if c = some '\r' then
      let (p, r) := r.peek 0
      (decide (p ≠ some '\n'), r)
    else (false, r)
  let p := r.currPosn
  let p :=
    if bare ∨ c = some '\n' ∨ c = some '\u2028' ∨ c = some '\u2029' then
      { p with line := p.line + 1, column := 0 }
    else { p with column := p.column + 1 }
  (c, { r with currPosn := { p with offset := p.offset + 1 } })

/-- Flat cursor: the characters not yet read, and the position. -/
structure Reader where
  rest : List Char
  posn : Posn
  deriving Repr, DecidableEq

/-- reader.rs:11-17 on the flat cursor. -/
def Reader.new (chars : List Char) : Reader := ⟨chars, Posn.origin⟩

/-- reader.rs:45-55: effect of reading character `c`, when `rest` follows, on
the position. -/
def Posn.step (p : Posn) (c : Char) (rest : List Char) : Posn :=
  if (c = '\r' ∧ rest.head? ≠ some '\n') ∨ c = '\n' ∨ c = '\u2028' ∨ c = '\u2029' then
    ⟨p.offset + 1, p.line + 1, 0⟩
  else ⟨p.offset + 1, p.line, p.column + 1⟩

/-- reader.rs:19-32 on the flat cursor: pure. -/
def Reader.peek (r : Reader) (n : Nat) : Option Char := r.rest[n]?

/-- reader.rs:40-58 on the flat cursor, when a character is left.  (At the end
of input the Rust reader returns `None`, which every caller unwraps.) -/
def Reader.next? (r : Reader) : Option (Char × Reader) :=
  match r.rest with
  | [] => none
  | c :: cs => some (c, ⟨cs, r.posn.step c cs⟩)

end Esprit
