import Verif.Model.Estree

/-!
Model of the texts of the errors of `crates/unjson` and `crates/estree`, and of the
deserialization of scripts in `crates/estree/src/lib.rs`.  The text of a string,
`{:?}`, is code of Rust's standard library and a parameter here.
-/

namespace Esprit

namespace Estree

/-- Rust's `{:?}` for strings: in double quotes. -/
class DebugStr where
  text : Str → Str
  quoted : ∀ s, (text s).head? = some '"'
  injective : ∀ s t, text s = text t → s = t

end Estree

/-- ty.rs:38-49 `Display for Ty`. -/
def Ty.display : Ty → Str
  | .null => c!"null"
  | .string => c!"string"
  | .object => c!"object"
  | .number => c!"number"
  | .array => c!"array"
  | .boolean => c!"boolean"

/-- unjson error.rs:15-35 `Display for Error`. -/
def JsonError.display [Estree.DebugStr] : JsonError → Str
  | .typeMismatch expected ty => c!"expected " ++ expected ++ c!", got " ++ ty.display
  | .missingField name => c!"missing object field '" ++ name ++ c!"'"
  | .indexOutOfBounds len index =>
    c!"array index " ++ Nat.toDigits 10 index ++ c!" out of bounds (length " ++ Nat.toDigits 10 len ++ c!")"
  | .wrongArrayLength expected actual =>
    c!"expected array of length " ++ Nat.toDigits 10 expected ++ c!", got array of length " ++
      Nat.toDigits 10 actual
  | .illegalString expected actual =>
    c!"expected " ++ expected ++ c!", got " ++ Estree.DebugStr.text actual

namespace Estree

/-- error.rs:22-51 `Display for Error`. -/
def EError.display [DebugStr] : EError → Str
  | .json err => err.display
  | .invalidTypeTag actual => c!"expected node type tag, got " ++ actual
  | .nodeTypeMismatch expected actual => c!"expected " ++ expected ++ c!" node, got " ++ actual.debug
  | .unexpectedInitializer _ => c!"unexpected initializer in for-in loop"
  | .invalidLHS _ => c!"invalid left-hand side of assignment"
  | .uninitializedPattern patt =>
    let ty := match patt with
      | .pCompound (.cArr _ _ _) => c!"array"
      | .pCompound (.cObj _ _) => c!"object"
      | .pSimple _ => c!"constant"
    c!"uninitialized " ++ ty ++ c!" pattern in declarator"

/-- The outcome of deserialization: a script, a message (`D::Error::custom`), or another
error of the deserializer (`serde`'s own, for values that are not objects). -/
inductive Deserialized where
  | script (x : Script)
  | custom (message : Str)
  | other

/-- lib.rs:27-35 `Deserialize for ESTreeScript`, from a JSON value.  (Conversions do not
panic, by C43; a panic would be one here.) -/
def deserialize [DebugStr] : Json → Result Deserialized
  | .object json =>
    match intoScript json with
    | .ok script => .ok (.script script)
    | .err err => .ok (.custom err.display)
    | .panic p => .panic p
    | .fuel => .fuel
  | _ => .ok .other

end Estree

end Esprit
