import Verif.Model.Derive

/-! Specification of the derived implementations: C65. -/

namespace Esprit.Derive

variable {T α : Type}

/-- The constructors of a declared type: their paths and fields. -/
def MacroInput.constructors (d : MacroInput T) : List (Path × VariantData T) :=
  match d.body with
  | .struct data => [([d.ident], data)]
  | .enum variants => variants.map fun v => ([d.ident, v.ident], v.data)

/-- The fields are those that are declared. -/
def VariantData.Has : VariantData T → Fields α → Prop
  | .struct fields, .named fs => fields.map Field.ident = fs.map fun f => some f.1
  | .tuple fields, .positional fs => fields.length = fs.length
  | .unit, .unit => True
  | _, _ => False

/-- The value is one of the declared type, with a constructor with the given fields. -/
def MacroInput.Built (d : MacroInput T) (v : Value α) (data : VariantData T) : Prop :=
  (v.path, data) ∈ d.constructors ∧ data.Has v.fields

/-- The fields have distinct names if they have names. -/
def VariantData.Legal : VariantData T → Prop
  | .struct fields => (∀ f ∈ fields, f.ident ≠ none) ∧ (fields.map Field.ident).Nodup
  | .tuple _ => True
  | .unit => True

/-- What Rust requires of a declaration: distinct constructors and fields. -/
def MacroInput.Legal (d : MacroInput T) : Prop :=
  (d.constructors.map (·.1)).Nodup ∧ ∀ c ∈ d.constructors, c.2.Legal

/-- Apply a function to every field. -/
def Fields.map (f : α → α) : Fields α → Fields α
  | .named fs => .named (fs.map fun x => (x.1, f x.2))
  | .positional fs => .positional (fs.map f)
  | .unit => .unit

/-- The variables of a pattern for the fields of a value; whether they are bound as `ref mut`. -/
def Pat.vars : Pat → List (Bool × Str)
  | .struct _ fields _ => fields.flatMap fun f => var f.2
  | .tupleStruct _ pats => pats.flatMap var
  | _ => []
where
  /-- The variable of a pattern for a field. -/
  var : Pat → List (Bool × Str)
    | .ident m x => [(m, x)]
    | _ => []

/-- Where the location is, of a value that is built with the given fields: in the field
named `location`, or in the first field if that is of the type of locations, or in the
location of the first field. -/
inductive LocatedAt (locationType : T) (method : Str) : VariantData T → Place → Prop where
  | struct {fields : List (Field T)} {i : Nat} :
      fields[i]? = some ⟨some c!"location", locationType⟩ →
      LocatedAt locationType method (.struct fields) (.field i)
  | first {f : Field T} {fs : List (Field T)} : f.ty = locationType →
      LocatedAt locationType method (.tuple (f :: fs)) (.field 0)
  | inside {f : Field T} {fs : List (Field T)} : f.ty ≠ locationType →
      LocatedAt locationType method (.tuple (f :: fs)) (.via method 0)

end Esprit.Derive
