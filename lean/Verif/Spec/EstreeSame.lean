import Verif.Model.Unjson

/-!
Specification: two JSON values are the same to the ESTree conversion when they agree
on the fields that ESTree gives a meaning to here, at every depth.  Positions (`loc`,
`range`, `start`, `end`), `raw`, `sourceType` and any other fields may differ, be
missing, and be in any order.
-/

namespace Esprit

namespace Estree

/-- The names of the fields with a meaning. -/
def readFields : List Str := [
  c!"type", c!"name", c!"value", c!"regex", c!"pattern", c!"flags", c!"expression", c!"elements",
  c!"properties", c!"id", c!"expressions", c!"operator", c!"argument", c!"left", c!"right",
  c!"prefix", c!"test", c!"consequent", c!"alternate", c!"callee", c!"arguments", c!"object",
  c!"computed", c!"property", c!"meta", c!"kind", c!"method", c!"shorthand", c!"key", c!"body",
  c!"generator", c!"params", c!"declarations", c!"init", c!"label", c!"discriminant", c!"cases",
  c!"block", c!"handler", c!"finalizer", c!"update", c!"param"]

mutual

/-- The values agree on the fields with a meaning. -/
inductive Alike : Json → Json → Prop where
  | null : Alike .null .null
  | bool {b : Bool} : Alike (.bool b) (.bool b)
  | i64 {i : Int} : Alike (.i64 i) (.i64 i)
  | u64 {n : Nat} : Alike (.u64 n) (.u64 n)
  | f64 {x : F64} : Alike (.f64 x) (.f64 x)
  | string {s : Str} : Alike (.string s) (.string s)
  | array {js js' : List Json} : AlikeList js js' → Alike (.array js) (.array js')
  | object {o o' : Object} : (∀ name ∈ readFields, AlikeField (o.get name) (o'.get name)) →
      Alike (.object o) (.object o')

/-- Element by element. -/
inductive AlikeList : List Json → List Json → Prop where
  | nil : AlikeList [] []
  | cons {j j' : Json} {js js' : List Json} : Alike j j' → AlikeList js js' →
      AlikeList (j :: js) (j' :: js')

/-- Both fields are missing, or the values agree. -/
inductive AlikeField : Option Json → Option Json → Prop where
  | none : AlikeField none none
  | some {j j' : Json} : Alike j j' → AlikeField (some j) (some j')

end

mutual

/-- The value without the fields that have no meaning, at every depth. -/
def strip : Json → Json
  | .array js => .array (stripList js)
  | .object o => .object (stripFields o)
  | j => j

/-- Element by element. -/
def stripList : List Json → List Json
  | [] => []
  | j :: js => strip j :: stripList js

/-- Keep the fields with a meaning. -/
def stripFields : List (Str × Json) → List (Str × Json)
  | [] => []
  | (name, j) :: o =>
    if name ∈ readFields then (name, strip j) :: stripFields o else stripFields o

end

end Estree

end Esprit
