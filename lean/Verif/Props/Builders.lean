import Verif.Model.Builders
import Verif.Model.Untrack

/-! C59: the helper methods of the AST. -/

namespace Esprit

/-- The target and the initializer of a declarator. -/
def Dtor.parts : Ast .dtor → PattId × Option Expr
  | .dtSimple _ i .none => (.pSimple (.ident i), none)
  | .dtSimple _ i (.some e) => (.pSimple (.ident i), some e)
  | .dtCompound _ p e => (.pCompound p, some e)

/-- The target and the initializer of a constant declarator. -/
def ConstDtor.parts : Ast .constDtor → PattId × Expr
  | .constDtor _ p e => (p, e)

/-- A declarator can be built from every target and initializer except from a compound
pattern without initializer, which is given back; it has this target and this
initializer. -/
theorem C59_declarator (p : PattId) (init : Option Expr) :
    match Dtor.fromInitOpt p init with
    | .ok d => Dtor.parts d = (p, init) ∧ (Patt.isSimple p = true ∨ init ≠ none)
    | .error q => q = p ∧ Patt.isSimple p = false ∧ init = none := by
  cases p with
  | pSimple x =>
    cases x with
    | ident i => cases init <;> exact ⟨rfl, .inl rfl⟩
  | pCompound p =>
    cases init with
    | none => exact ⟨rfl, rfl, rfl⟩
    | some e => exact ⟨rfl, .inr nofun⟩

/-- A declarator built from a target and an initializer has them as parts, and spans
them. -/
theorem C59_initialized (p : PattId) (e : Expr) :
    Dtor.parts (Dtor.fromInit p e) = (p, some e) ∧ (Dtor.fromInit p e).loc = spanLoc p.loc e.loc := by
  cases p with
  | pSimple x => cases x; exact ⟨rfl, rfl⟩
  | pCompound p => exact ⟨rfl, rfl⟩

/-- A constant declarator is built exactly if there is an initializer; it has the given
parts and spans them. -/
theorem C59_constant (p : PattId) (init : Option Expr) :
    match ConstDtor.fromInitOpt p init with
    | .ok d => ∃ e, init = some e ∧ ConstDtor.parts d = (p, e) ∧ d.loc = spanLoc p.loc e.loc
    | .error q => q = p ∧ init = none := by
  cases init with
  | none => exact ⟨rfl, rfl⟩
  | some e => exact ⟨e, rfl, rfl, rfl⟩

/-- The two ways to build an initialized declarator agree up to the location: both
succeed, and untracking makes the results the same; for compound patterns they are the
same.  Missing: `from_init_opt` gives a simple declarator the location of its name only
(see `C59_span_fails`). -/
theorem C59_agree_partial (p : PattId) (e : Expr) :
    ∃ d, Dtor.fromInitOpt p (some e) = .ok d ∧ d.untrack = (Dtor.fromInit p e).untrack ∧
      (Patt.isSimple p = false → d = Dtor.fromInit p e) := by
  cases p with
  | pSimple x =>
    cases x with
    | ident i => exact ⟨_, rfl, rfl, nofun⟩
  | pCompound p => exact ⟨_, rfl, rfl, fun _ => rfl⟩

/-- `from_init_opt` does not span the initializer: the declarator `x = 1` at 0 to 5 gets
the location of `x`. -/
theorem C59_span_fails : ∃ p e d, Dtor.fromInitOpt p (some e) = .ok d ∧
    d.loc ≠ spanLoc p.loc e.loc ∧ d.loc ≠ (Dtor.fromInit p e).loc :=
  ⟨.pSimple (.ident ⟨some ⟨⟨0, 0, 0⟩, ⟨1, 0, 1⟩⟩, .string c!"x"⟩),
    .eNull (some ⟨⟨4, 0, 4⟩, ⟨8, 0, 8⟩⟩), _, rfl, by decide +kernel, by decide +kernel⟩

/-- An identifier as a declarator, pattern and expression keeps its name and location. -/
theorem C59_identifier (i : Id) :
    Dtor.parts i.intoDtor = (i.intoPatt, none) ∧ Dtor.fromInitOpt i.intoPatt none = .ok i.intoDtor ∧
    i.intoDtor.loc = i.location ∧ i.intoPatt.loc = i.location ∧ i.intoExpr.loc = i.location ∧
    i.intoExpr = .eId i :=
  ⟨rfl, rfl, rfl, rfl, rfl, rfl⟩

/-- The three methods that tell whether a statement is a directive agree: `into_directive`
succeeds exactly if `is_directive`, with the result of `to_directive`, and otherwise gives
the item back; a directive has the string, the location and the semicolon of the
statement. -/
theorem C59_directive (x : StmtListItem) :
    match StmtListItem.intoDirective x with
    | .ok d => Estree.isDirective x = true ∧ Estree.toDirective x = some d ∧
        ∃ l, x = .siStmt (.sExpr d.location (.eString l d.string) d.semi)
    | .error y => y = x ∧ Estree.isDirective x = false ∧ Estree.toDirective x = none := by
  cases x with
  | siDecl d => exact ⟨rfl, rfl, rfl⟩
  | siStmt s =>
    cases s with
    | sExpr l e semi =>
      cases e with
      | eString l' x => exact ⟨rfl, rfl, l', rfl⟩
      | _ => exact ⟨rfl, rfl, rfl⟩
    | _ => exact ⟨rfl, rfl, rfl⟩

/-- The methods of list items are those of statements. -/
theorem C59_directive_stmt (x : Stmt) :
    Estree.isDirective (.siStmt x) = x.isDirective ∧ Estree.toDirective (.siStmt x) = x.toDirective := by
  cases x with
  | sExpr l e semi => cases e <;> exact ⟨rfl, rfl⟩
  | _ => exact ⟨rfl, rfl⟩

/-- The conversion of ESTree declarators uses `from_init_opt`. -/
theorem Estree.dtorFromInitOpt_eq (p : PattId) (init : Option Expr) :
    (Estree.dtorFromInitOpt p init) = (Dtor.fromInitOpt p init).toOption := by
  cases p with
  | pSimple x => cases x; cases init <;> rfl
  | pCompound p => cases init <;> rfl

/-- All cases of `C59_declarator` occur. -/
example : (∃ d, Dtor.fromInitOpt (.pSimple (.ident ⟨none, .string c!"x"⟩)) none = .ok d) ∧
    (∃ d, Dtor.fromInitOpt (.pCompound (.cObj none .nil)) (some (.eNull none)) = .ok d) ∧
    ∃ q, Dtor.fromInitOpt (.pCompound (.cObj none .nil)) none = .error q :=
  ⟨⟨_, rfl⟩, ⟨_, rfl⟩, ⟨_, rfl⟩⟩

end Esprit
