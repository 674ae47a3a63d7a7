import Verif.Model.Track

/-!
Model of `crates/derive/src/lib.rs`: the procedural macros that generate the
implementations of `TrackingRef`, `TrackingMut` and `Untrack`.

The input of a macro is a type declaration (syn's `MacroInput`), its output an `impl`
whose method is a `match` on `*self`.  Types are a parameter `T` with decidable equality;
lifetimes, `where` clauses, visibility and attributes do not matter and are left out.
Parsing the declaration and printing the `impl` (`syn`, `quote`) are not modelled.
-/

namespace Esprit.Derive

/-- syn's `Field`. -/
structure Field (T : Type) where
  ident : Option Str
  ty : T

/-- syn's `VariantData`: the fields of a struct or of a variant of an enum. -/
inductive VariantData (T : Type) where
  | struct (fields : List (Field T))
  | tuple (fields : List (Field T))
  | unit

/-- syn's `Variant`. -/
structure Variant (T : Type) where
  ident : Str
  data : VariantData T

/-- syn's `Body`. -/
inductive Body (T : Type) where
  | struct (data : VariantData T)
  | enum (variants : List (Variant T))

/-- syn's `MacroInput`; `params` are the type parameters and their bounds. -/
structure MacroInput (T : Type) where
  ident : Str
  params : List (Str × List Str)
  body : Body T

/-- syn's `Path`: its segments. -/
abbrev Path := List Str

/-- syn's `Pat`, as far as the macros generate it. -/
inductive Pat where
  /-- `ref name` or `ref mut name`. -/
  | ident (mutable : Bool) (name : Str)
  /-- `_` -/
  | wild
  /-- `Path { field: pattern, … }`, followed by `..` if `rest`. -/
  | struct (path : Path) (fields : List (Str × Pat)) (rest : Bool)
  /-- `Path(pattern, …)` -/
  | tupleStruct (path : Path) (pats : List Pat)
  /-- `Path` -/
  | path (path : Path)

/-- syn's `Expr`, as far as the macros generate it. -/
inductive Code where
  /-- A variable. -/
  | var (name : Str)
  /-- `receiver.method()` for a variable `receiver`. -/
  | method (name receiver : Str)
  /-- `{ s; … }` -/
  | block (stmts : List Code)

/-- syn's `Arm`. -/
structure Arm where
  pat : Pat
  body : Code

/-- The generated `impl`: its trait, its type, the bounds of the type parameters, the
method, and the arms of the method's `match *self`. -/
structure Impl where
  traitName : Str
  method : Str
  ident : Str
  params : List (Str × List Str)
  arms : List Arm

/-- Rust's `collect`, where the function may panic. -/
def collect {α β : Type} (f : α → Option β) : List α → Option (List β)
  | [] => some []
  | a :: as => (f a).bind fun b => (collect f as).map (b :: ·)

section Macros

variable {T : Type} [DecidableEq T] (locationType : T)

/-- lib.rs:46-88 `expand_tracking_data`; `none` is a panic.  (For a tuple without fields
`fields.len() - 1` underflows and `data.fields()[0]` is out of bounds.) -/
def expandTrackingData (path : Path) (data : VariantData T) (mutable : Bool) : Option Arm :=
  match data with
  | .struct fields =>
    if fields.any fun f => f.ident = some c!"location" ∧ f.ty = locationType then
      some ⟨.struct path [(c!"location", .ident mutable c!"location")] true, .var c!"location"⟩
    else none
  | .tuple (f :: fs) =>
    some ⟨.tupleStruct path (.ident mutable c!"location" :: fs.map fun _ => .wild),
      if f.ty = locationType then .var c!"location"
      else .method (if mutable then c!"tracking_mut" else c!"tracking_ref") c!"location"⟩
  | .tuple [] => none
  | .unit => none

/-- lib.rs:92-137 `expand_tracking`. -/
def expandTracking (ast : MacroInput T) (mutable : Bool) : Option Impl :=
  let arms := match ast.body with
    | .struct data => collect (expandTrackingData locationType [ast.ident] · mutable) [data]
    | .enum variants => collect (fun var : Variant T =>
        expandTrackingData locationType [ast.ident, var.ident] var.data mutable) variants
  arms.map fun arms =>
    { traitName := if mutable then c!"TrackingMut" else c!"TrackingRef",
      method := if mutable then c!"tracking_mut" else c!"tracking_ref",
      ident := ast.ident, params := ast.params, arms := arms }

/-- lib.rs:197-199 `expand_tracking_ref`. -/
def expandTrackingRef (ast : MacroInput T) : Option Impl := expandTracking locationType ast false

/-- lib.rs:201-203 `expand_tracking_mut`. -/
def expandTrackingMut (ast : MacroInput T) : Option Impl := expandTracking locationType ast true

end Macros

section Untrack

variable {T : Type}

/-- lib.rs:165 the name of the variable for field `i` of a tuple. -/
def tupleIdent (i : Nat) : Str := c!"_f" ++ Nat.toDigits 10 i

/-- lib.rs:139-195 `expand_untrack_data`; `none` is a panic (`unwrap` of the name of a
field). -/
def expandUntrackData (path : Path) (data : VariantData T) : Option Arm :=
  let arm (pat : Pat) (idents : List Str) : Arm :=
    ⟨pat, .block (idents.map fun x => .method c!"untrack" x)⟩
  match data with
  | .struct fields => (collect Field.ident fields).map fun idents =>
      arm (.struct path (idents.map fun x => (x, .ident true x)) false) idents
  | .tuple fields =>
    let idents := (List.range fields.length).map tupleIdent
    some (arm (.tupleStruct path (idents.map fun x => .ident true x)) idents)
  | .unit => some (arm (.path path) [])

/-- lib.rs:205-251 `expand_untrack`. -/
def expandUntrack (ast : MacroInput T) : Option Impl :=
  let arms := match ast.body with
    | .struct data => collect (expandUntrackData [ast.ident]) [data]
    | .enum variants => collect (fun var : Variant T =>
        expandUntrackData [ast.ident, var.ident] var.data) variants
  arms.map fun arms =>
    { traitName := c!"Untrack", method := c!"untrack", ident := ast.ident,
      params := ast.params.map fun p : Str × List Str => (p.1, p.2 ++ [c!"Untrack"]), arms := arms }

end Untrack

/-! ### What the generated code does (semantics of Rust) -/

/-- The fields of a value, by name or by position. -/
inductive Fields (α : Type) where
  | named (fields : List (Str × α))
  | positional (fields : List α)
  | unit

/-- A value of a declared type: its constructor and its fields. -/
structure Value (α : Type) where
  path : Path
  fields : Fields α

/-- The contents of the fields, in the order of the declaration. -/
def Fields.values {α : Type} : Fields α → List α
  | .named fs => fs.map (·.2)
  | .positional fs => fs
  | .unit => []

/-- Change the contents of field `i`. -/
def Fields.modify {α : Type} (f : α → α) (i : Nat) : Fields α → Fields α
  | .named fs => .named (fs.modify i fun x => (x.1, f x.2))
  | .positional fs => .positional (fs.modify i f)
  | .unit => .unit

/-- Which field each variable refers to: the variables bound by a tuple of patterns, the
first of which is matched with field `i`. -/
def bindTuple : List Pat → Nat → Option (List (Str × Nat))
  | [], _ => some []
  | .ident _ x :: ps, i => (bindTuple ps (i + 1)).map ((x, i) :: ·)
  | .wild :: ps, i => bindTuple ps (i + 1)
  | _ :: _, _ => none

/-- The variables bound by the fields of a struct pattern. -/
def bindStruct (names : List Str) : List (Str × Pat) → Option (List (Str × Nat))
  | [] => some []
  | (f, .ident _ x) :: ps => (names.findIdx? fun n => n = f).bind fun i =>
      (bindStruct names ps).map ((x, i) :: ·)
  | (_, .wild) :: ps => bindStruct names ps
  | _ :: _ => none

/-- Pattern matching: which field of the value each variable refers to, or `none` if the
pattern does not match (or does not fit the type, which the compiler rejects). -/
def Pat.bind {α : Type} (p : Pat) (v : Value α) : Option (List (Str × Nat)) :=
  match p, v.fields with
  | .struct p ps rest, .named fs =>
    if p = v.path ∧ (rest ∨ ∀ f ∈ fs, f.1 ∈ ps.map (·.1)) then bindStruct (fs.map (·.1)) ps
    else none
  | .tupleStruct p ps, .positional fs =>
    if p = v.path ∧ ps.length = fs.length then bindTuple ps 0 else none
  | .path p, .unit => if p = v.path then some [] else none
  | _, _ => none

/-- The value of a variable: the field that it refers to (the innermost binding). -/
def lookup (env : List (Str × Nat)) (x : Str) : Option Nat :=
  (env.find? fun e => e.1 = x).map (·.2)

/-- The first arm that matches the value, with the variables that it binds. -/
def select {α : Type} (v : Value α) : List Arm → Option (Code × List (Str × Nat))
  | [] => none
  | a :: as => match a.pat.bind v with
    | some env => some (a.body, env)
    | none => select v as

/-- A reference to a part of a value. -/
inductive Place where
  /-- Field `i`. -/
  | field (i : Nat)
  /-- What the given method of field `i` refers to. -/
  | via (method : Str) (i : Nat)
  deriving DecidableEq, Repr

/-- The reference that the generated method returns. -/
def Impl.refer {α : Type} (impl : Impl) (v : Value α) : Option Place :=
  (select v impl.arms).bind fun s => match s.1 with
    | .var x => (lookup s.2 x).map .field
    | .method m x => (lookup s.2 x).map (.via m)
    | .block _ => none

/-- Run the statements of a block: each calls a method of a field; `call m` is what the
method `m` does to its receiver. -/
def runBlock {α : Type} (call : Str → α → α) (env : List (Str × Nat)) :
    List Code → Fields α → Option (Fields α)
  | [], fs => some fs
  | .method m x :: ss, fs => (lookup env x).bind fun i => runBlock call env ss (fs.modify (call m) i)
  | _ :: _, _ => none

/-- What the generated method does to the value. -/
def Impl.run {α : Type} (call : Str → α → α) (impl : Impl) (v : Value α) : Option (Value α) :=
  (select v impl.arms).bind fun s => match s.1 with
    | .block ss => (runBlock call s.2 ss v.fields).map fun fs => ⟨v.path, fs⟩
    | _ => none

end Esprit.Derive
