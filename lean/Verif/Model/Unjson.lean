import Verif.Model.F64

/-!
Model of `crates/unjson/src`: typed access to the fields of JSON objects.
-/

namespace Esprit

/-- serde_json's `Value`.  An object, a Rust `BTreeMap`, is a list of fields; if a
name occurs more than once, only its first occurrence counts.  (No modelled code
iterates over an object.)  The ranges of `i64` and `u64` are not enforced: the code
does no arithmetic with them. -/
inductive Json where
  | null
  | bool (b : Bool)
  | i64 (i : Int)
  | u64 (n : Nat)
  | f64 (x : F64)
  | string (s : Str)
  | array (xs : List Json)
  | object (fields : List (Str × Json))

/-- ty.rs:17 `Object`. -/
abbrev Object := List (Str × Json)

/-- ty.rs:6-14 `Ty`. -/
inductive Ty where
  | null | boolean | string | number | object | array
  deriving DecidableEq, Repr

/-- ty.rs:23-36 `TyOf for Value`. -/
def Json.ty : Json → Ty
  | .null => .null
  | .string _ => .string
  | .object _ => .object
  | .i64 _ => .number
  | .u64 _ => .number
  | .f64 _ => .number
  | .array _ => .array
  | .bool _ => .boolean

/-- error.rs:6-13 `Error`. -/
inductive JsonError where
  | typeMismatch (expected : Str) (actual : Ty)
  | missingField (name : Str)
  | indexOutOfBounds (len index : Nat)
  | wrongArrayLength (expected actual : Nat)
  | illegalString (expected actual : Str)
  deriving DecidableEq, Repr

/-- unjson.rs, `Result<T>` (result.rs:4). -/
abbrev JsonResult := Except JsonError

/-- error.rs:37-39 `type_error`. -/
def typeError {α : Type} (expected : Str) (actual : Ty) : JsonResult α :=
  .error (.typeMismatch expected actual)

/-- Rust `i as f64`: rounding to nearest. -/
def F64.ofInt (i : Int) : F64 := .ofRat i

namespace Object

/-- `BTreeMap::get`. -/
def get (o : Object) (name : Str) : Option Json := (o.find? fun e => e.1 = name).map (·.2)

/-- The object without the field. -/
def without (o : Object) (name : Str) : Object := o.filter fun e => e.1 ≠ name

/-- `BTreeMap::remove`: the value that the field had, and the object without it. -/
def remove (o : Object) (name : Str) : Option Json × Object := (o.get name, o.without name)

/-- `BTreeMap::contains_key`. -/
def containsKey (o : Object) (name : Str) : Bool := (o.get name).isSome

end Object

namespace Json

/-! ### `Unjson for Value` -/

/-- unjson.rs:130-135 `into_array`. -/
def intoArray : Json → JsonResult (List Json)
  | .array a => .ok a
  | v => typeError c!"array" v.ty

/-- unjson.rs:137-143 `into_array_opt`. -/
def intoArrayOpt : Json → JsonResult (Option (List Json))
  | .array a => .ok (some a)
  | .null => .ok none
  | v => typeError c!"array or null" v.ty

/-- unjson.rs:145-150 `into_string`. -/
def intoString : Json → JsonResult Str
  | .string s => .ok s
  | v => typeError c!"string" v.ty

/-- unjson.rs:152-158 `into_string_opt`. -/
def intoStringOpt : Json → JsonResult (Option Str)
  | .string s => .ok (some s)
  | .null => .ok none
  | v => typeError c!"string or null" v.ty

/-- unjson.rs:160-165 `into_object`. -/
def intoObject : Json → JsonResult Object
  | .object o => .ok o
  | v => typeError c!"object" v.ty

/-- unjson.rs:167-173 `into_object_opt`. -/
def intoObjectOpt : Json → JsonResult (Option Object)
  | .object o => .ok (some o)
  | .null => .ok none
  | v => typeError c!"object or null" v.ty

/-- unjson.rs:175-180 `to_bool`. -/
def toBool : Json → JsonResult Bool
  | .bool b => .ok b
  | v => typeError c!"boolean" v.ty

/-- unjson.rs:182-188 `to_bool_opt`. -/
def toBoolOpt : Json → JsonResult (Option Bool)
  | .bool b => .ok (some b)
  | .null => .ok none
  | v => typeError c!"boolean" v.ty

/-- unjson.rs:190-195 `to_i64`. -/
def toI64 : Json → JsonResult Int
  | .i64 i => .ok i
  | v => typeError c!"i64" v.ty

/-- unjson.rs:197-203 `to_i64_opt`. -/
def toI64Opt : Json → JsonResult (Option Int)
  | .i64 i => .ok (some i)
  | .null => .ok none
  | v => typeError c!"i64" v.ty

/-- unjson.rs:205-210 `to_u64`. -/
def toU64 : Json → JsonResult Nat
  | .u64 u => .ok u
  | v => typeError c!"u64" v.ty

/-- unjson.rs:212-218 `to_u64_opt`. -/
def toU64Opt : Json → JsonResult (Option Nat)
  | .u64 u => .ok (some u)
  | .null => .ok none
  | v => typeError c!"u64" v.ty

/-- unjson.rs:220-225 `to_f64`. -/
def toF64 : Json → JsonResult F64
  | .f64 x => .ok x
  | v => typeError c!"f64" v.ty

/-- unjson.rs:227-233 `to_f64_opt`. -/
def toF64Opt : Json → JsonResult (Option F64)
  | .f64 x => .ok (some x)
  | .null => .ok none
  | v => typeError c!"f64" v.ty

/-- unjson.rs:235-242 `to_number`. -/
def toNumber : Json → JsonResult F64
  | .i64 i => .ok (.ofInt i)
  | .u64 u => .ok (.ofInt u)
  | .f64 x => .ok x
  | v => typeError c!"number" v.ty

/-- unjson.rs:244-252 `to_number_opt`. -/
def toNumberOpt : Json → JsonResult (Option F64)
  | .i64 i => .ok (some (.ofInt i))
  | .u64 u => .ok (some (.ofInt u))
  | .f64 x => .ok (some x)
  | .null => .ok none
  | v => typeError c!"number" v.ty

/-! ### `ValueEx for Value` -/

/-- unjson.rs:33-40 `as_number`. -/
def asNumber : Json → JsonResult F64
  | .i64 i => .ok (.ofInt i)
  | .u64 u => .ok (.ofInt u)
  | .f64 x => .ok x
  | v => typeError c!"number" v.ty

/-- unjson.rs:42-48 `as_str_opt`. -/
def asStrOpt : Json → JsonResult (Option Str)
  | .null => .ok none
  | .string s => .ok (some s)
  | v => typeError c!"string or null" v.ty

/-- unjson.rs:50-56 `as_array_opt`. -/
def asArrayOpt : Json → JsonResult (Option (List Json))
  | .null => .ok none
  | .array a => .ok (some a)
  | v => typeError c!"array or null" v.ty

/-- unjson.rs:58-64 `as_object_opt`. -/
def asObjectOpt : Json → JsonResult (Option Object)
  | .null => .ok none
  | .object o => .ok (some o)
  | v => typeError c!"object or null" v.ty

/-- unjson.rs:66-72 `as_bool_opt`. -/
def asBoolOpt : Json → JsonResult (Option Bool)
  | .null => .ok none
  | .bool b => .ok (some b)
  | v => typeError c!"boolean or null" v.ty

/-- unjson.rs:74-80 `as_i64_opt`. -/
def asI64Opt : Json → JsonResult (Option Int)
  | .null => .ok none
  | .i64 i => .ok (some i)
  | v => typeError c!"i64 or null" v.ty

/-- unjson.rs:82-88 `as_u64_opt`. -/
def asU64Opt : Json → JsonResult (Option Nat)
  | .null => .ok none
  | .u64 u => .ok (some u)
  | v => typeError c!"u64 or null" v.ty

/-- unjson.rs:90-96 `as_f64_opt`. -/
def asF64Opt : Json → JsonResult (Option F64)
  | .null => .ok none
  | .f64 x => .ok (some x)
  | v => typeError c!"f64 or null" v.ty

/-- unjson.rs:98-106 `as_number_opt`. -/
def asNumberOpt : Json → JsonResult (Option F64)
  | .null => .ok none
  | .i64 i => .ok (some (.ofInt i))
  | .u64 u => .ok (some (.ofInt u))
  | .f64 x => .ok (some x)
  | v => typeError c!"number or null" v.ty

/-- serde_json's `Value::as_str`. -/
def asStr : Json → Option Str
  | .string s => some s
  | _ => none

/-- serde_json's `Value::as_array`. -/
def asArray : Json → Option (List Json)
  | .array a => some a
  | _ => none

/-- serde_json's `Value::as_object`. -/
def asObject : Json → Option Object
  | .object o => some o
  | _ => none

/-- serde_json's `Value::as_bool`. -/
def asBool : Json → Option Bool
  | .bool b => some b
  | _ => none

/-- serde_json 0.8's `Value::as_i64`: the integers that fit.  (The crate is not in the
repository.) -/
def asI64 : Json → Option Int
  | .i64 i => some i
  | .u64 n => if n < 2 ^ 63 then some n else none
  | _ => none

/-- serde_json 0.8's `Value::as_u64`: the integers that are not negative. -/
def asU64 : Json → Option Nat
  | .i64 i => if 0 ≤ i then some i.toNat else none
  | .u64 n => some n
  | _ => none

/-- serde_json 0.8's `Value::as_f64`: integers are rounded. -/
def asF64 : Json → Option F64
  | .i64 i => some (.ofInt i)
  | .u64 n => some (.ofInt n)
  | .f64 x => some x
  | _ => none

/-- unjson.rs:6-17 `OkType::ok_type`. -/
def okType {α : Type} (x : Option α) (expected : Str) (actual : Ty) : JsonResult α :=
  match x with
  | some v => .ok v
  | none => .error (.typeMismatch expected actual)

end Json

namespace Object

/-! ### `GetField for Object` -/

/-- unjson.rs:288-293 `get_field`. -/
def getField (name : Str) (o : Object) : JsonResult Json :=
  match o.get name with
  | some json => .ok json
  | none => .error (.missingField name)

/-- unjson.rs:295-297 `get_string`. -/
def getString (name : Str) (o : Object) : JsonResult Str :=
  (o.getField name).bind fun v => Json.okType v.asStr c!"string" v.ty

/-- unjson.rs:299-301 `get_string_opt`. -/
def getStringOpt (name : Str) (o : Object) : JsonResult (Option Str) :=
  (o.getField name).bind fun v => v.asStrOpt

/-- unjson.rs:303-305 `get_array`. -/
def getArray (name : Str) (o : Object) : JsonResult (List Json) :=
  (o.getField name).bind fun v => Json.okType v.asArray c!"array" v.ty

/-- unjson.rs:307-309 `get_array_opt`. -/
def getArrayOpt (name : Str) (o : Object) : JsonResult (Option (List Json)) :=
  (o.getField name).bind fun v => v.asArrayOpt

/-- unjson.rs:311-313 `get_object`. -/
def getObject (name : Str) (o : Object) : JsonResult Object :=
  (o.getField name).bind fun v => Json.okType v.asObject c!"object" v.ty

/-- unjson.rs:315-317 `get_object_opt`. -/
def getObjectOpt (name : Str) (o : Object) : JsonResult (Option Object) :=
  (o.getField name).bind fun v => v.asObjectOpt

/-- unjson.rs:319-321 `get_bool`. -/
def getBool (name : Str) (o : Object) : JsonResult Bool :=
  (o.getField name).bind fun v => Json.okType v.asBool c!"boolean" v.ty

/-- unjson.rs:323-325 `get_bool_opt`. -/
def getBoolOpt (name : Str) (o : Object) : JsonResult (Option Bool) :=
  (o.getField name).bind fun v => v.asBoolOpt

/-- unjson.rs:327-329 `get_i64`. -/
def getI64 (name : Str) (o : Object) : JsonResult Int :=
  (o.getField name).bind fun v => Json.okType v.asI64 c!"i64" v.ty

/-- unjson.rs:331-333 `get_i64_opt`. -/
def getI64Opt (name : Str) (o : Object) : JsonResult (Option Int) :=
  (o.getField name).bind fun v => v.asI64Opt

/-- unjson.rs:335-337 `get_u64`. -/
def getU64 (name : Str) (o : Object) : JsonResult Nat :=
  (o.getField name).bind fun v => Json.okType v.asU64 c!"u64" v.ty

/-- unjson.rs:339-341 `get_u64_opt`. -/
def getU64Opt (name : Str) (o : Object) : JsonResult (Option Nat) :=
  (o.getField name).bind fun v => v.asU64Opt

/-- unjson.rs:343-345 `get_f64`. -/
def getF64 (name : Str) (o : Object) : JsonResult F64 :=
  (o.getField name).bind fun v => Json.okType v.asF64 c!"f64" v.ty

/-- unjson.rs:347-349 `get_f64_opt`. -/
def getF64Opt (name : Str) (o : Object) : JsonResult (Option F64) :=
  (o.getField name).bind fun v => v.asF64Opt

/-- unjson.rs:351-353 `get_number`. -/
def getNumber (name : Str) (o : Object) : JsonResult F64 :=
  (o.getField name).bind fun v => v.asNumber

/-- unjson.rs:355-357 `get_number_opt`. -/
def getNumberOpt (name : Str) (o : Object) : JsonResult (Option F64) :=
  (o.getField name).bind fun v => v.asNumberOpt

/-! ### `ExtractField for Object`

A function with a `&mut self` receiver: the result, and the object afterwards. -/

/-- unjson.rs:393-398 `extract_field`. -/
def extractField (name : Str) (o : Object) : JsonResult Json × Object :=
  match o.remove name with
  | (some json, o') => (.ok json, o')
  | (none, o') => (.error (.missingField name), o')

/-- `self.extract_field(name).and_then(f)`. -/
def extractWith {α : Type} (f : Json → JsonResult α) (name : Str) (o : Object) :
    JsonResult α × Object :=
  ((o.extractField name).1.bind f, (o.extractField name).2)

/-- unjson.rs:400-402 `extract_string`. -/
def extractString : Str → Object → JsonResult Str × Object := extractWith Json.intoString

/-- unjson.rs:404-406 `extract_string_opt`. -/
def extractStringOpt : Str → Object → JsonResult (Option Str) × Object :=
  extractWith Json.intoStringOpt

/-- unjson.rs:408-410 `extract_array`. -/
def extractArray : Str → Object → JsonResult (List Json) × Object := extractWith Json.intoArray

/-- unjson.rs:412-414 `extract_array_opt`. -/
def extractArrayOpt : Str → Object → JsonResult (Option (List Json)) × Object :=
  extractWith Json.intoArrayOpt

/-- unjson.rs:416-418 `extract_object`. -/
def extractObject : Str → Object → JsonResult Object × Object := extractWith Json.intoObject

/-- unjson.rs:420-422 `extract_object_opt`. -/
def extractObjectOpt : Str → Object → JsonResult (Option Object) × Object :=
  extractWith Json.intoObjectOpt

/-- unjson.rs:424-426 `extract_bool`. -/
def extractBool : Str → Object → JsonResult Bool × Object := extractWith Json.toBool

/-- unjson.rs:428-430 `extract_bool_opt`. -/
def extractBoolOpt : Str → Object → JsonResult (Option Bool) × Object :=
  extractWith Json.toBoolOpt

/-- unjson.rs:432-434 `extract_i64`. -/
def extractI64 : Str → Object → JsonResult Int × Object := extractWith Json.toI64

/-- unjson.rs:436-438 `extract_i64_opt`. -/
def extractI64Opt : Str → Object → JsonResult (Option Int) × Object := extractWith Json.toI64Opt

/-- unjson.rs:440-442 `extract_u64`. -/
def extractU64 : Str → Object → JsonResult Nat × Object := extractWith Json.toU64

/-- unjson.rs:444-446 `extract_u64_opt`. -/
def extractU64Opt : Str → Object → JsonResult (Option Nat) × Object := extractWith Json.toU64Opt

/-- unjson.rs:448-450 `extract_f64`. -/
def extractF64 : Str → Object → JsonResult F64 × Object := extractWith Json.toF64

/-- unjson.rs:452-454 `extract_f64_opt`. -/
def extractF64Opt : Str → Object → JsonResult (Option F64) × Object := extractWith Json.toF64Opt

/-- unjson.rs:456-458 `extract_number`. -/
def extractNumber : Str → Object → JsonResult F64 × Object := extractWith Json.toNumber

/-- unjson.rs:460-462 `extract_number_opt`. -/
def extractNumberOpt : Str → Object → JsonResult (Option F64) × Object :=
  extractWith Json.toNumberOpt

end Object

end Esprit
