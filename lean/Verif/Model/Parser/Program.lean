import Verif.Model.Parser.Grammar

/-! Model of the entry points: `src/parser.rs:39-314` and `src/lib.rs`. -/

namespace Esprit

/-- parser.rs:44-48 `Program`. -/
inductive Program where
  | ambiguous (checks : List Check) (script : Script)
  | moduleCode (m : Module)

/-- parser.rs:50-66 `TrackingRef`/`TrackingMut` for `Program`. -/
instance : Tracking Program where
  loc
    | .ambiguous _ script => script.loc
    | .moduleCode m => m.loc
  setLoc l
    | .ambiguous checks script => .ambiguous checks (script.setLoc l)
    | .moduleCode m => .moduleCode (m.setLoc l)

/-- parser.rs:39-42 `ProgramItems`. -/
inductive ProgramItems where
  | script (items : List StmtListItem)
  | module (items : List (Ast .modItem))

namespace P

/-- parser.rs:158-160 `take_deferred`. -/
def takeDeferred : P (List Check) := fun s => .ok (s.deferred, { s with deferred := [] })

/-- The loops `for check in checks { check.perform(module)?; }`, parser.rs:112-114,
125-127, 267-269: the first failing check. -/
def firstFailing (module : Bool) (checks : List Check) : Option PError :=
  checks.findSome? (Check.perform module)

/-- parser.rs:260-272 `force_deferred_module_validation`. -/
def forceDeferredModuleValidation : P Unit := do
  let s ← get
  if !s.validate then pure ()
  else do
    let deferred ← takeDeferred
    match firstFailing true deferred with
    | some e => throw e
    | none => pure ()

variable [Env]

/-- parser.rs:300-311: one iteration of the loop of `more_module_items`. -/
def moduleItemsStep (r : Rec) (items : List (Ast .modItem)) :
    P (List (Ast .modItem) ⊕ List (Ast .modItem)) := do
  let t ← peek
  match t.value with
  | .eof => pure (.inr items)
  | .reserved .import => panic .unimplemented
  | .reserved .export => panic .unimplemented
  | _ => do
    let i ← r.item true
    pure (.inl (items ++ [.miItem i]))

/-- parser.rs:299-314 `more_module_items`. -/
def moreModuleItems (r : Rec) (items : List (Ast .modItem)) : P (List (Ast .modItem)) :=
  loop (moduleItemsStep r) items

/-- parser.rs:277-290: one iteration of the loop of `program_items`. -/
def programItemsStep (r : Rec) (stmts : List StmtListItem) :
    P (List StmtListItem ⊕ ProgramItems) := do
  let t ← peek
  match t.value with
  | .eof => pure (.inr (.script stmts))
  | .reserved .import => do
    forceDeferredModuleValidation
    let items ← moreModuleItems r (stmts.map .miItem)
    pure (.inr (.module items))
  | .reserved .export => do
    forceDeferredModuleValidation
    let items ← moreModuleItems r (stmts.map .miItem)
    pure (.inr (.module items))
  | _ => do
    let i ← r.item true
    pure (.inl (stmts ++ [i]))

/-- parser.rs:274-293 `program_items`. -/
def programItems (r : Rec) : P ProgramItems := loop (programItemsStep r) []

/-- `debug_assert_eq!(self.goal, Goal::Unknown)`. -/
def assertGoalUnknown : P Unit := do
  let s ← get
  if s.goal = .unknown then pure () else panic .debugAssert

/-- parser.rs:189-199 `Parser::module`. -/
def parseModule (r : Rec) : P Module := do
  assertGoalUnknown
  setModule
  span do
    let dirs ← bodyDirectives
    let items ← moreModuleItems r []
    pure (.body none dirs (.ofList items))

/-- parser.rs:201-222 `Parser::program`. -/
def parseProgram (r : Rec) : P Program := do
  assertGoalUnknown
  span do
    let dirs ← bodyDirectives
    match ← programItems r with
    | .script items => do
      let checks ← takeDeferred
      pure (Program.ambiguous checks (.body none dirs (.ofList items)))
    | .module items => pure (Program.moduleCode (.body none dirs (.ofList items)))

/-- parser.rs:224-229 `Parser::script`. -/
def parseScript (r : Rec) (strict : Bool) : P Script := do
  assertGoalUnknown
  modify fun s => { s with goal := .script, ctx := { s.ctx with strict := .ofBool strict } }
  scriptBody r

end P

/-- parser.rs:148-156 `Parser::new`. -/
def PState.new (validate : Bool) (lexer : Lexer) : PState :=
  { goal := .unknown, validate := validate, deferred := [], lexer := lexer, ctx := Ctx.new }

/-- parser.rs:143-146 `Parser::from_chars`. -/
def PState.fromChars (chars : List Char) : PState := .new true (Lexer.new chars)

/-- The recursion budget used for an input: never exhausted, see
`Verif/Props/Parser.lean`. -/
def recFuel (chars : List Char) : Nat := 2 * chars.length + 4

/-- Forget the parser state. -/
def outcome {α : Type} : Res PError (α × PState) → Res PError α
  | .ok (a, _) => .ok a
  | .err e => .err e
  | .panic p => .panic p
  | .fuel => .fuel

section Api

variable [Env]

/-- lib.rs:37-39 `script`. -/
def script (s : Str) : Res PError Script :=
  outcome (P.parseScript (P.recOf (recFuel s)) false (.fromChars s))

/-- lib.rs:41-43 `strict`. -/
def strict (s : Str) : Res PError Script :=
  outcome (P.parseScript (P.recOf (recFuel s)) true (.fromChars s))

/-- lib.rs:45-47 `module`. -/
def parseModule (s : Str) : Res PError Module :=
  outcome (P.parseModule (P.recOf (recFuel s)) (.fromChars s))

/-- lib.rs:49-51 `program`. -/
def program (s : Str) : Res PError Program :=
  outcome (P.parseProgram (P.recOf (recFuel s)) (.fromChars s))

end Api

/-- easter stmt.rs:174-176 `StmtListItem::into_mod_item`. -/
def intoModItem (i : StmtListItem) : Ast .modItem := .miItem i

/-- parser.rs:86-92: the first import or export of a module. -/
def firstImportExport : List (Ast .modItem) → Option PError
  | [] => none
  | .miImport i :: _ => some (.importInScript i)
  | .miExport e :: _ => some (.exportInScript e)
  | .miItem _ :: items => firstImportExport items

/-- parser.rs:77-99 `unexpected_module`. -/
def unexpectedModule (m : Module) : PError :=
  match m with
  | .body location dirs items =>
    match dirs.find? fun d => d.pragma = c!"use module" with
    | some d => .unexpectedDirective d.location d.string
    | none =>
      match firstImportExport items.toList with
      | some e => e
      | none => .unexpectedModule location

namespace Program

/-- parser.rs:102-107 `Program::script`. -/
def script : Program → Res PError Script
  | .ambiguous _ script => .ok script
  | .moduleCode m => .err (unexpectedModule m)

/-- parser.rs:109-120 `Program::strict`. -/
def strict : Program → Res PError Script
  | .ambiguous checks script =>
    match P.firstFailing false checks with
    | some e => .err e
    | none => .ok script
  | .moduleCode m => .err (unexpectedModule m)

/-- The items of a module made of the items of a script, parser.rs:129-135. -/
def scriptToModule (s : Script) : Module :=
  match s with
  | .body location dirs items => .body location dirs (.ofList (items.toList.map intoModItem))

/-- parser.rs:122-139 `Program::module`. -/
def module : Program → Res PError Module
  | .ambiguous checks script =>
    match P.firstFailing true checks with
    | some e => .err e
    | none => .ok (scriptToModule script)
  | .moduleCode m => .ok m

end Program

end Esprit
