import Verif.Model.Estree

/-!
Model of the helper methods of the AST crate that the parser does not call:
`crates/easter/src/decl.rs`, `id.rs`, `patt.rs`, `stmt.rs`.
-/

namespace Esprit

/-- id.rs:33-35 `into_patt`. -/
def Id.intoPatt (i : Id) : PattId := .pSimple (.ident i)

/-- id.rs:37-39 `into_expr`. -/
def Id.intoExpr (i : Id) : Expr := .eId i

/-- id.rs:41-43 `into_dtor`. -/
def Id.intoDtor (i : Id) : Ast .dtor := .dtSimple i.location i .none

/-- patt.rs:32-37 `Patt::is_simple`. -/
def Patt.isSimple {c : Cat} : Ast (.patt c) → Bool
  | .pSimple _ => true
  | .pCompound _ => false

/-- decl.rs:66-76 `Dtor::from_init_opt`. -/
def Dtor.fromInitOpt (lhs : PattId) (rhs : Option Expr) : Except PattId (Ast .dtor) :=
  match lhs, rhs with
  | .pSimple (.ident i), .some e => .ok (.dtSimple i.location i (.some e))
  | .pSimple (.ident i), .none => .ok (.dtSimple i.location i .none)
  | .pCompound p, .none => .error (.pCompound p)
  | .pCompound p, .some e => .ok (Dtor.fromCompoundInit p e)

/-- decl.rs:80-82 `ConstDtor::from_compound_init`. -/
def ConstDtor.fromCompoundInit (lhs : Ast (.comp .id)) (rhs : Expr) : Ast .constDtor :=
  ConstDtor.fromInit (.pCompound lhs) rhs

/-- decl.rs:84-86 `ConstDtor::from_simple_init`. -/
def ConstDtor.fromSimpleInit (lhs : Id) (rhs : Expr) : Ast .constDtor :=
  ConstDtor.fromInit (.pSimple (.ident lhs)) rhs

/-- decl.rs:96-101 `ConstDtor::from_init_opt`. -/
def ConstDtor.fromInitOpt (lhs : PattId) (rhs : Option Expr) : Except PattId (Ast .constDtor) :=
  match rhs with
  | some e => .ok (ConstDtor.fromInit lhs e)
  | none => .error lhs

/-- stmt.rs:51-56 `Stmt::is_directive`. -/
def Stmt.isDirective : Stmt → Bool
  | .sExpr _ (.eString _ _) _ => true
  | _ => false

/-- stmt.rs:58-67 `Stmt::to_directive`. -/
def Stmt.toDirective : Stmt → Option Dir
  | .sExpr location (.eString _ s) semi => some ⟨location, s, semi⟩
  | _ => none

/-- stmt.rs:69-80 `Stmt::into_directive`. -/
def Stmt.intoDirective : Stmt → Except Stmt Dir
  | .sExpr location (.eString _ s) semi => .ok ⟨location, s, semi⟩
  | x => .error x

/-- stmt.rs:167-172 `StmtListItem::into_directive`. -/
def StmtListItem.intoDirective : StmtListItem → Except StmtListItem Dir
  | .siStmt x => match Stmt.intoDirective x with
    | .ok d => .ok d
    | .error x => .error (.siStmt x)
  | .siDecl d => .error (.siDecl d)

/-- stmt.rs:174-176 `StmtListItem::into_mod_item`. -/
def StmtListItem.intoModItem (x : StmtListItem) : Ast .modItem := .miItem x

end Esprit
