import Verif.Model.Base

/-! Model of `crates/joker/src/track.rs`. -/

namespace Esprit

/-- joker track.rs:3-8 `Posn`.  Rust uses `u32` fields; the model uses `Nat`,
which agrees as long as the input has fewer than 2^32 characters. -/
structure Posn where
  offset : Nat
  line : Nat
  column : Nat
  deriving DecidableEq, Repr

/-- joker track.rs:11-17 `Posn::origin`. -/
def Posn.origin : Posn := ⟨0, 0, 0⟩

/-- joker track.rs:26-30 `Span`. -/
structure Span where
  start : Posn
  «end» : Posn
  deriving DecidableEq, Repr

/-- joker track.rs:38-44 `TrackingRef`/`TrackingMut`: access to the location
slot of a node. -/
class Tracking (α : Type) where
  loc : α → Option Span
  setLoc : Option Span → α → α

/-- joker track.rs:101-109 `span`, on the two location slots. -/
def spanLoc (l r : Option Span) : Option Span :=
  match l, r with
  | some l, some r => some ⟨l.start, r.end⟩
  | _, _ => none

end Esprit
