/-!
# Base vocabulary of the model

Rust `String`/`&str`/`Vec<char>` values are modelled as lists of characters
(`Str`).  Outcomes of Rust functions are values of `Res`.
-/

namespace Esprit

/-- Rust `String`, `&str`, `Vec<char>`: the list of their characters. -/
abbrev Str := List Char

/-- `c!"abc"` is the explicit character list `['a', 'b', 'c']`. -/
syntax:max (name := charListLit) "c!" noWs str : term

open Lean in
macro_rules
  | `(c!$s:str) => do
    let cs := s.getString.toList
    let elems := cs.toArray.map fun c => Syntax.mkCharLit c
    `(([ $elems,* ] : List Char))

/-- Why a Rust execution panics. -/
inductive Panic where
  /-- `Option::unwrap` on `None` in `Lexer::read` (lexer.rs:102-104), i.e. a
  read past the end of the input (in debug builds the preceding
  `debug_assert!` of `reread`, lexer.rs:107, fires first). -/
  | readPastEnd
  /-- a `debug_assert!` whose failure is not also a `readPastEnd`. -/
  | debugAssert
  /-- `u32` overflow with overflow checks enabled (debug builds). -/
  | overflow
  /-- `unwrap()` on `None`/`Err` elsewhere. -/
  | unwrapNone
  /-- `unreachable!()`. -/
  | unreachable
  /-- `unimplemented!()` (parser.rs:304, 306). -/
  | unimplemented
  deriving DecidableEq, Repr

/-- Outcome of a Rust function returning `Result<α, ε>`: `Ok`, `Err`, a
panic, or (model only) exhaustion of the recursion budget. -/
inductive Res (ε α : Type) where
  | ok (a : α)
  | err (e : ε)
  | panic (p : Panic)
  | fuel
  deriving DecidableEq, Repr

namespace Res

/-- Sequencing of outcomes (Rust `?`; panics propagate). -/
def bind {ε α β : Type} (x : Res ε α) (f : α → Res ε β) : Res ε β :=
  match x with
  | ok a => f a
  | err e => err e
  | panic p => panic p
  | fuel => fuel

instance {ε : Type} : Monad (Res ε) where
  pure := ok
  bind := bind

/-- Rust `Result::map_err`. -/
def mapErr {ε ε' α : Type} (f : ε → ε') : Res ε α → Res ε' α
  | ok a => ok a
  | err e => err (f e)
  | panic p => panic p
  | fuel => fuel

/-- Rust `Result::map`. -/
def map {ε α β : Type} (f : α → β) : Res ε α → Res ε β
  | ok a => ok (f a)
  | err e => err e
  | panic p => panic p
  | fuel => fuel

end Res

end Esprit
