import Verif.Model.Derive
import Verif.Model.Untrack

/-!
The type declarations of the syntax tree (`crates/easter/src`) as inputs of the derive
macros, and the nodes of the model's syntax tree as values of these types.
-/

namespace Esprit.Derive

/-- The types of the fields: a name, applied to at most one type.  (The type aliases
`Unop`, `Binop`, `Logop`, `Assop` and `Script` are expanded.) -/
inductive Ty where
  | name (s : Str)
  | app (f : Str) (arg : Ty)
  deriving DecidableEq, Repr

/-- lib.rs:27-37 `location_type`: `Option<Span>`. -/
def locationTy : Ty := .app c!"Option" (.name c!"Span")

/-- `Box` does not matter to values. -/
def Ty.unbox : Ty → Ty
  | .name s => .name s
  | .app f t => if f = c!"Box" then t.unbox else .app f t.unbox

/-- Replace a type parameter. -/
def Ty.subst (x : Str) (u : Ty) : Ty → Ty
  | .name s => if s = x then u else .name s
  | .app f t => .app f (Ty.subst x u t)

/-- A variant with a tuple of fields. -/
def tup (name : Str) (tys : List Ty) : Variant Ty := ⟨name, .tuple (tys.map fun t => ⟨none, t⟩)⟩

/-- A struct with named fields. -/
def rec (fields : List (Str × Ty)) : Body Ty :=
  .struct (.struct (fields.map fun f => ⟨some f.1, f.2⟩))

/-- `Vec<t>`. -/
abbrev vecTy (t : Ty) : Ty := .app c!"Vec" t

/-- `Option<t>`. -/
abbrev optTy (t : Ty) : Ty := .app c!"Option" t

/-- `Box<t>`. -/
abbrev boxTy (t : Ty) : Ty := .app c!"Box" t

/-- `Fun<t>`. -/
abbrev funTy (t : Ty) : Ty := .app c!"Fun" t

/-- The script type, easter stmt.rs:46. -/
def scriptTy : Ty := .app c!"Body" (.name c!"StmtListItem")

/-- easter patt.rs:7-11 `RestPatt`. -/
def restPattDecl : MacroInput Ty := ⟨c!"RestPatt", [(c!"T", [])],
  rec [(c!"location", locationTy), (c!"patt", .app c!"Patt" (.name c!"T"))]⟩

/-- easter patt.rs:13-17 `CompoundPatt`. -/
def compoundPattDecl : MacroInput Ty := ⟨c!"CompoundPatt", [(c!"T", [])], .enum [
  tup c!"Arr" [locationTy, vecTy (optTy (.app c!"Patt" (.name c!"T"))), optTy (boxTy (.app c!"RestPatt" (.name c!"T")))],
  tup c!"Obj" [locationTy, vecTy (.app c!"PropPatt" (.name c!"T"))]]⟩

/-- easter patt.rs:19-23 `PropPatt`. -/
def propPattDecl : MacroInput Ty := ⟨c!"PropPatt", [(c!"T", [])], .enum [
  tup c!"Regular" [locationTy, .name c!"PropKey", .app c!"Patt" (.name c!"T")],
  tup c!"Shorthand" [.name c!"Id"]]⟩

/-- easter patt.rs:25-29 `Patt` (only `Untrack` is derived; `TrackingRef` and
`TrackingMut`, patt.rs:40-56, are what the macros would generate). -/
def pattDecl : MacroInput Ty := ⟨c!"Patt", [(c!"T", [])], .enum [
  tup c!"Simple" [.name c!"T"], tup c!"Compound" [.app c!"CompoundPatt" (.name c!"T")]]⟩

/-- easter patt.rs:58-63 `AssignTarget`. -/
def targetDecl : MacroInput Ty := ⟨c!"AssignTarget", [], .enum [
  tup c!"Id" [.name c!"Id"], tup c!"Dot" [locationTy, boxTy (.name c!"Expr"), .name c!"DotKey"],
  tup c!"Brack" [locationTy, boxTy (.name c!"Expr"), boxTy (.name c!"Expr")]]⟩

/-- easter decl.rs:10-14 `Import`. -/
def importDecl : MacroInput Ty := ⟨c!"Import", [], .enum [
  tup c!"ForEffect" [locationTy, .name c!"StringLiteral"]]⟩

/-- easter decl.rs:16-21 `Export`. -/
def exportDecl : MacroInput Ty := ⟨c!"Export", [], .enum [
  tup c!"Var" [locationTy, vecTy (.name c!"Dtor"), .name c!"Semi"], tup c!"Decl" [.name c!"Decl"]]⟩

/-- easter decl.rs:23-28 `Decl`. -/
def declDecl : MacroInput Ty := ⟨c!"Decl", [], .enum [
  tup c!"Fun" [funTy (.name c!"Id")], tup c!"Let" [locationTy, vecTy (.name c!"Dtor"), .name c!"Semi"],
  tup c!"Const" [locationTy, vecTy (.name c!"ConstDtor"), .name c!"Semi"]]⟩

/-- easter decl.rs:30-34 `Dtor`. -/
def dtorDecl : MacroInput Ty := ⟨c!"Dtor", [], .enum [
  tup c!"Simple" [locationTy, .name c!"Id", optTy (.name c!"Expr")],
  tup c!"Compound" [locationTy, .app c!"CompoundPatt" (.name c!"Id"), .name c!"Expr"]]⟩

/-- easter decl.rs:36-41 `ConstDtor`. -/
def constDtorDecl : MacroInput Ty := ⟨c!"ConstDtor", [], rec [
  (c!"location", locationTy), (c!"patt", .app c!"Patt" (.name c!"Id")), (c!"value", .name c!"Expr")]⟩

/-- easter stmt.rs:10-31 `Stmt`. -/
def stmtDecl : MacroInput Ty := ⟨c!"Stmt", [], .enum [
  tup c!"Empty" [locationTy], tup c!"Block" [.name c!"Block"],
  tup c!"Var" [locationTy, vecTy (.name c!"Dtor"), .name c!"Semi"],
  tup c!"Expr" [locationTy, .name c!"Expr", .name c!"Semi"],
  tup c!"If" [locationTy, .name c!"Expr", boxTy (.name c!"Stmt"), optTy (boxTy (.name c!"Stmt"))],
  tup c!"Label" [locationTy, .name c!"Id", boxTy (.name c!"Stmt")],
  tup c!"Break" [locationTy, optTy (.name c!"Id"), .name c!"Semi"],
  tup c!"Cont" [locationTy, optTy (.name c!"Id"), .name c!"Semi"],
  tup c!"With" [locationTy, .name c!"Expr", boxTy (.name c!"Stmt")],
  tup c!"Switch" [locationTy, .name c!"Expr", vecTy (.name c!"Case")],
  tup c!"Return" [locationTy, optTy (.name c!"Expr"), .name c!"Semi"],
  tup c!"Throw" [locationTy, .name c!"Expr", .name c!"Semi"],
  tup c!"Try" [locationTy, .name c!"Block", optTy (boxTy (.name c!"Catch")), optTy (.name c!"Block")],
  tup c!"While" [locationTy, .name c!"Expr", boxTy (.name c!"Stmt")],
  tup c!"DoWhile" [locationTy, boxTy (.name c!"Stmt"), .name c!"Expr", .name c!"Semi"],
  tup c!"For" [locationTy, optTy (boxTy (.name c!"ForHead")), optTy (.name c!"Expr"), optTy (.name c!"Expr"),
    boxTy (.name c!"Stmt")],
  tup c!"ForIn" [locationTy, boxTy (.name c!"ForInHead"), .name c!"Expr", boxTy (.name c!"Stmt")],
  tup c!"ForOf" [locationTy, boxTy (.name c!"ForOfHead"), .name c!"Expr", boxTy (.name c!"Stmt")],
  tup c!"Debugger" [locationTy, .name c!"Semi"]]⟩

/-- easter stmt.rs:33-38 `Body`. -/
def bodyDecl : MacroInput Ty := ⟨c!"Body", [(c!"Item", [])], rec [
  (c!"location", locationTy), (c!"dirs", vecTy (.name c!"Dir")), (c!"items", vecTy (.name c!"Item"))]⟩

/-- easter stmt.rs:40-44 `Block`. -/
def blockDecl : MacroInput Ty := ⟨c!"Block", [], rec [
  (c!"location", locationTy), (c!"items", vecTy (.name c!"StmtListItem"))]⟩

/-- easter stmt.rs:83-89 `ForHead`. -/
def forHeadDecl : MacroInput Ty := ⟨c!"ForHead", [], .enum [
  tup c!"Var" [locationTy, vecTy (.name c!"Dtor")], tup c!"Let" [locationTy, vecTy (.name c!"Dtor")],
  tup c!"Const" [locationTy, vecTy (.name c!"ConstDtor")], tup c!"Expr" [locationTy, .name c!"Expr"]]⟩

/-- easter stmt.rs:91-98 `ForInHead`. -/
def forInHeadDecl : MacroInput Ty := ⟨c!"ForInHead", [], .enum [
  tup c!"VarInit" [locationTy, .name c!"Id", .name c!"Expr"],
  tup c!"Var" [locationTy, .app c!"Patt" (.name c!"Id")], tup c!"Let" [locationTy, .app c!"Patt" (.name c!"Id")],
  tup c!"Const" [locationTy, .app c!"Patt" (.name c!"Id")],
  tup c!"Patt" [.app c!"Patt" (.name c!"AssignTarget")]]⟩

/-- easter stmt.rs:100-106 `ForOfHead`. -/
def forOfHeadDecl : MacroInput Ty := ⟨c!"ForOfHead", [], .enum [
  tup c!"Var" [locationTy, .app c!"Patt" (.name c!"Id")], tup c!"Let" [locationTy, .app c!"Patt" (.name c!"Id")],
  tup c!"Const" [locationTy, .app c!"Patt" (.name c!"Id")],
  tup c!"Patt" [.app c!"Patt" (.name c!"AssignTarget")]]⟩

/-- easter stmt.rs:108-113 `Catch`. -/
def catchDecl : MacroInput Ty := ⟨c!"Catch", [], rec [
  (c!"location", locationTy), (c!"param", .app c!"Patt" (.name c!"Id")), (c!"body", .name c!"Block")]⟩

/-- easter stmt.rs:115-120 `Case`. -/
def caseDecl : MacroInput Ty := ⟨c!"Case", [], rec [
  (c!"location", locationTy), (c!"test", optTy (.name c!"Expr")), (c!"body", vecTy (.name c!"StmtListItem"))]⟩

/-- easter stmt.rs:122-127 `Dir`. -/
def dirDecl : MacroInput Ty := ⟨c!"Dir", [], rec [
  (c!"location", locationTy), (c!"string", .name c!"StringLiteral"), (c!"semi", .name c!"Semi")]⟩

/-- easter stmt.rs:139-144 `ModItem`. -/
def modItemDecl : MacroInput Ty := ⟨c!"ModItem", [], .enum [
  tup c!"Import" [.name c!"Import"], tup c!"Export" [.name c!"Export"],
  tup c!"StmtListItem" [.name c!"StmtListItem"]]⟩

/-- easter stmt.rs:146-150 `StmtListItem`. -/
def stmtListItemDecl : MacroInput Ty := ⟨c!"StmtListItem", [], .enum [
  tup c!"Decl" [.name c!"Decl"], tup c!"Stmt" [.name c!"Stmt"]]⟩

/-- easter expr.rs:12-16 `ExprListItem`. -/
def exprListItemDecl : MacroInput Ty := ⟨c!"ExprListItem", [], .enum [
  tup c!"Expr" [.name c!"Expr"], tup c!"Spread" [locationTy, .name c!"Expr"]]⟩

/-- easter expr.rs:18-47 `Expr`. -/
def exprDecl : MacroInput Ty := ⟨c!"Expr", [], .enum [
  tup c!"This" [locationTy], tup c!"Id" [.name c!"Id"],
  tup c!"Arr" [locationTy, vecTy (optTy (.name c!"ExprListItem"))],
  tup c!"Obj" [locationTy, vecTy (.name c!"Prop")],
  tup c!"Fun" [funTy (optTy (.name c!"Id"))],
  tup c!"Seq" [locationTy, vecTy (.name c!"Expr")],
  tup c!"Unop" [locationTy, .app c!"Op" (.name c!"UnopTag"), boxTy (.name c!"Expr")],
  tup c!"Binop" [locationTy, .app c!"Op" (.name c!"BinopTag"), boxTy (.name c!"Expr"), boxTy (.name c!"Expr")],
  tup c!"Logop" [locationTy, .app c!"Op" (.name c!"LogopTag"), boxTy (.name c!"Expr"), boxTy (.name c!"Expr")],
  tup c!"PreInc" [locationTy, boxTy (.name c!"AssignTarget")],
  tup c!"PostInc" [locationTy, boxTy (.name c!"AssignTarget")],
  tup c!"PreDec" [locationTy, boxTy (.name c!"AssignTarget")],
  tup c!"PostDec" [locationTy, boxTy (.name c!"AssignTarget")],
  tup c!"Assign" [locationTy, .app c!"Patt" (.name c!"AssignTarget"), boxTy (.name c!"Expr")],
  tup c!"BinAssign" [locationTy, .app c!"Op" (.name c!"AssopTag"), .name c!"AssignTarget", boxTy (.name c!"Expr")],
  tup c!"Cond" [locationTy, boxTy (.name c!"Expr"), boxTy (.name c!"Expr"), boxTy (.name c!"Expr")],
  tup c!"Call" [locationTy, boxTy (.name c!"Expr"), vecTy (.name c!"ExprListItem")],
  tup c!"New" [locationTy, boxTy (.name c!"Expr"), optTy (vecTy (.name c!"ExprListItem"))],
  tup c!"Dot" [locationTy, boxTy (.name c!"Expr"), .name c!"DotKey"],
  tup c!"Brack" [locationTy, boxTy (.name c!"Expr"), boxTy (.name c!"Expr")],
  tup c!"NewTarget" [locationTy], tup c!"True" [locationTy], tup c!"False" [locationTy], tup c!"Null" [locationTy],
  tup c!"Number" [locationTy, .name c!"NumberLiteral"], tup c!"RegExp" [locationTy, .name c!"RegExpLiteral"],
  tup c!"String" [locationTy, .name c!"StringLiteral"]]⟩

/-- easter obj.rs:20-25 `Prop`. -/
def propDecl : MacroInput Ty := ⟨c!"Prop", [], .enum [
  tup c!"Regular" [locationTy, .name c!"PropKey", .name c!"PropVal"],
  tup c!"Method" [funTy (.name c!"PropKey")], tup c!"Shorthand" [.name c!"Id"]]⟩

/-- easter obj.rs:40-45 `PropVal`. -/
def propValDecl : MacroInput Ty := ⟨c!"PropVal", [], .enum [
  tup c!"Init" [.name c!"Expr"], tup c!"Get" [locationTy, scriptTy],
  tup c!"Set" [locationTy, .app c!"Patt" (.name c!"Id"), scriptTy]]⟩

/-- easter fun.rs:7-12 `Params`. -/
def paramsDecl : MacroInput Ty := ⟨c!"Params", [], rec [
  (c!"location", locationTy), (c!"list", vecTy (.app c!"Patt" (.name c!"Id"))),
  (c!"rest", optTy (.app c!"RestPatt" (.name c!"Id")))]⟩

/-- easter fun.rs:14-21 `Fun`, whose type parameter is called `Id`. -/
def funDecl : MacroInput Ty := ⟨c!"Fun", [(c!"Id", [])], rec [
  (c!"location", locationTy), (c!"id", .name c!"Id"), (c!"params", .name c!"Params"), (c!"body", scriptTy),
  (c!"generator", .name c!"bool")]⟩

/-- easter id.rs:8-12 `Id` (`Untrack`, id.rs:14-16, is not derived). -/
def idDecl : MacroInput Ty := ⟨c!"Id", [], rec [(c!"location", locationTy), (c!"name", .name c!"Name")]⟩

/-- easter obj.rs:10-14 `DotKey` (`Untrack`, obj.rs:16-18, is not derived). -/
def dotKeyDecl : MacroInput Ty := ⟨c!"DotKey", [], rec [(c!"location", locationTy), (c!"value", .name c!"String")]⟩

/-- easter obj.rs:27-32 `PropKey` (`Untrack`, obj.rs:34-38, is not derived). -/
def propKeyDecl : MacroInput Ty := ⟨c!"PropKey", [], .enum [
  tup c!"Id" [locationTy, .name c!"String"], tup c!"String" [locationTy, .name c!"StringLiteral"],
  tup c!"Number" [locationTy, .name c!"NumberLiteral"]]⟩

/-- easter punc.rs:48-52 `Op` (`Untrack`, punc.rs:81-85, is not derived). -/
def opDecl : MacroInput Ty := ⟨c!"Op", [(c!"T", [])], rec [(c!"location", locationTy), (c!"tag", .name c!"T")]⟩

/-! ### Nodes as values -/

/-- The Rust type of a category. -/
def ofCat : Cat → Ty
  | .list c => vecTy (ofCat c)
  | .opt c => optTy (ofCat c)
  | .id => .name c!"Id"
  | .propKey => .name c!"PropKey"
  | .expr => .name c!"Expr"
  | .item => .name c!"ExprListItem"
  | .target => .name c!"AssignTarget"
  | .patt c => .app c!"Patt" (ofCat c)
  | .comp c => .app c!"CompoundPatt" (ofCat c)
  | .rest c => .app c!"RestPatt" (ofCat c)
  | .propPatt c => .app c!"PropPatt" (ofCat c)
  | .prop => .name c!"Prop"
  | .propVal => .name c!"PropVal"
  | .func c => funTy (ofCat c)
  | .params => .name c!"Params"
  | .body c => .app c!"Body" (ofCat c)
  | .sitem => .name c!"StmtListItem"
  | .modItem => .name c!"ModItem"
  | .«import» => .name c!"Import"
  | .«export» => .name c!"Export"
  | .decl => .name c!"Decl"
  | .dtor => .name c!"Dtor"
  | .constDtor => .name c!"ConstDtor"
  | .block => .name c!"Block"
  | .stmt => .name c!"Stmt"
  | .forHead => .name c!"ForHead"
  | .forInHead => .name c!"ForInHead"
  | .forOfHead => .name c!"ForOfHead"
  | .«catch» => .name c!"Catch"
  | .case => .name c!"Case"

/-- The declaration of the type of a category, and its type argument.  (`Vec` and `Option`
belong to Rust; `Id` and `PropKey` do not derive `Untrack`.) -/
def declOf : Cat → Option (MacroInput Ty × Option Cat)
  | .expr => some (exprDecl, none)
  | .item => some (exprListItemDecl, none)
  | .target => some (targetDecl, none)
  | .patt c => some (pattDecl, some c)
  | .comp c => some (compoundPattDecl, some c)
  | .rest c => some (restPattDecl, some c)
  | .propPatt c => some (propPattDecl, some c)
  | .prop => some (propDecl, none)
  | .propVal => some (propValDecl, none)
  | .func c => some (funDecl, some c)
  | .params => some (paramsDecl, none)
  | .body c => some (bodyDecl, some c)
  | .sitem => some (stmtListItemDecl, none)
  | .modItem => some (modItemDecl, none)
  | .«import» => some (importDecl, none)
  | .«export» => some (exportDecl, none)
  | .decl => some (declDecl, none)
  | .dtor => some (dtorDecl, none)
  | .constDtor => some (constDtorDecl, none)
  | .block => some (blockDecl, none)
  | .stmt => some (stmtDecl, none)
  | .forHead => some (forHeadDecl, none)
  | .forInHead => some (forInHeadDecl, none)
  | .forOfHead => some (forOfHeadDecl, none)
  | .«catch» => some (catchDecl, none)
  | .case => some (caseDecl, none)
  | .list _ | .opt _ | .id | .propKey => none

/-- The contents of a field of a node. -/
inductive Part where
  | loc (l : Loc)
  | node (c : Cat) (x : Ast c)
  | id (i : Id)
  | idOpt (i : Option Id)
  | propKey (k : PropKey)
  | dotKey (k : DotKey)
  | unop (o : Op UnopTag)
  | binop (o : Op BinopTag)
  | logop (o : Op LogopTag)
  | assop (o : Op AssopTag)
  | semi (s : Semi)
  | str (s : StringLiteral)
  | num (n : NumberLiteral)
  | regexp (r : RegExpLiteral)
  | dirs (ds : List Dir)
  | bool (b : Bool)

/-- The Rust type of the contents of a field. -/
def Part.ty : Part → Ty
  | .loc _ => locationTy
  | .node c _ => ofCat c
  | .id _ => .name c!"Id"
  | .idOpt _ => optTy (.name c!"Id")
  | .propKey _ => .name c!"PropKey"
  | .dotKey _ => .name c!"DotKey"
  | .unop _ => .app c!"Op" (.name c!"UnopTag")
  | .binop _ => .app c!"Op" (.name c!"BinopTag")
  | .logop _ => .app c!"Op" (.name c!"LogopTag")
  | .assop _ => .app c!"Op" (.name c!"AssopTag")
  | .semi _ => .name c!"Semi"
  | .str _ => .name c!"StringLiteral"
  | .num _ => .name c!"NumberLiteral"
  | .regexp _ => .name c!"RegExpLiteral"
  | .dirs _ => vecTy (.name c!"Dir")
  | .bool _ => .name c!"bool"

/-- The `untrack` methods of the fields: those of `Id`, `PropKey`, `DotKey`, `Op`, `Semi`
(easter), `Option<Span>`, `Option`, `Vec`, `bool` (joker track.rs:62-99) and of literals
(token.rs:103, 141, 165), and that of nodes. -/
def Part.untrack : Part → Part
  | .loc _ => .loc none
  | .node c x => .node c x.untrack
  | .id i => .id i.untrack
  | .idOpt i => .idOpt (i.map Id.untrack)
  | .propKey k => .propKey k.untrack
  | .dotKey k => .dotKey k.untrack
  | .unop o => .unop o.untrack
  | .binop o => .binop o.untrack
  | .logop o => .logop o.untrack
  | .assop o => .assop o.untrack
  | .semi s => .semi s.untrack
  | .str s => .str s
  | .num n => .num n
  | .regexp r => .regexp r
  | .dirs ds => .dirs (ds.map Dir.untrack)
  | .bool b => .bool b

/-- The location of the contents of a field, `tracking_ref`; `none` for types without
this method. -/
def Part.locOf : Part → Option Loc
  | .loc l => some l
  | .node _ x => some x.loc
  | .id i => some i.location
  | .propKey k => some k.loc
  | .dotKey k => some k.location
  | .unop o => some o.location
  | .binop o => some o.location
  | .logop o => some o.location
  | .assop o => some o.location
  | _ => none

/-- Assignment to the location, `tracking_mut`. -/
def Part.setLoc (l : Loc) : Part → Part
  | .loc _ => .loc l
  | .node c x => .node c (x.setLoc l)
  | .id i => .id { i with location := l }
  | .propKey k => .propKey (k.setLoc l)
  | .dotKey k => .dotKey { k with location := l }
  | .unop o => .unop { o with location := l }
  | .binop o => .binop { o with location := l }
  | .logop o => .logop { o with location := l }
  | .assop o => .assop { o with location := l }
  | p => p

/-- A value with a tuple of fields. -/
def tupVal (ty variant : Str) (fs : List Part) : Value Part := ⟨[ty, variant], .positional fs⟩

/-- A value of a struct. -/
def recVal (ty : Str) (fs : List (Str × Part)) : Value Part := ⟨[ty], .named fs⟩

/-- A node as a value of its Rust type.  (`Vec`, `Option`, `Id` and `PropKey` are not
needed, see `declOf`.) -/
def view : {c : Cat} → Ast c → Option (Value Part)
  | _, .nil => none
  | _, .cons _ _ => none
  | _, .none => none
  | _, .some _ => none
  | _, .ident _ => none
  | _, .key _ => none
  | _, .iExpr e => tupVal c!"ExprListItem" c!"Expr" [.node _ e]
  | _, .iSpread l e => tupVal c!"ExprListItem" c!"Spread" [.loc l, .node _ e]
  | _, .eThis l => tupVal c!"Expr" c!"This" [.loc l]
  | _, .eId i => tupVal c!"Expr" c!"Id" [.id i]
  | _, .eArr l es => tupVal c!"Expr" c!"Arr" [.loc l, .node _ es]
  | _, .eObj l ps => tupVal c!"Expr" c!"Obj" [.loc l, .node _ ps]
  | _, .eFun f => tupVal c!"Expr" c!"Fun" [.node _ f]
  | _, .eSeq l es => tupVal c!"Expr" c!"Seq" [.loc l, .node _ es]
  | _, .eUnop l op e => tupVal c!"Expr" c!"Unop" [.loc l, .unop op, .node _ e]
  | _, .eBinop l op a b => tupVal c!"Expr" c!"Binop" [.loc l, .binop op, .node _ a, .node _ b]
  | _, .eLogop l op a b => tupVal c!"Expr" c!"Logop" [.loc l, .logop op, .node _ a, .node _ b]
  | _, .ePreInc l t => tupVal c!"Expr" c!"PreInc" [.loc l, .node _ t]
  | _, .ePostInc l t => tupVal c!"Expr" c!"PostInc" [.loc l, .node _ t]
  | _, .ePreDec l t => tupVal c!"Expr" c!"PreDec" [.loc l, .node _ t]
  | _, .ePostDec l t => tupVal c!"Expr" c!"PostDec" [.loc l, .node _ t]
  | _, .eAssign l p e => tupVal c!"Expr" c!"Assign" [.loc l, .node _ p, .node _ e]
  | _, .eBinAssign l op t e => tupVal c!"Expr" c!"BinAssign" [.loc l, .assop op, .node _ t, .node _ e]
  | _, .eCond l test thn alt => tupVal c!"Expr" c!"Cond" [.loc l, .node _ test, .node _ thn, .node _ alt]
  | _, .eCall l callee args => tupVal c!"Expr" c!"Call" [.loc l, .node _ callee, .node _ args]
  | _, .eNew l callee args => tupVal c!"Expr" c!"New" [.loc l, .node _ callee, .node _ args]
  | _, .eDot l e k => tupVal c!"Expr" c!"Dot" [.loc l, .node _ e, .dotKey k]
  | _, .eBrack l e prop => tupVal c!"Expr" c!"Brack" [.loc l, .node _ e, .node _ prop]
  | _, .eNewTarget l => tupVal c!"Expr" c!"NewTarget" [.loc l]
  | _, .eTrue l => tupVal c!"Expr" c!"True" [.loc l]
  | _, .eFalse l => tupVal c!"Expr" c!"False" [.loc l]
  | _, .eNull l => tupVal c!"Expr" c!"Null" [.loc l]
  | _, .eNumber l n => tupVal c!"Expr" c!"Number" [.loc l, .num n]
  | _, .eRegExp l r => tupVal c!"Expr" c!"RegExp" [.loc l, .regexp r]
  | _, .eString l s => tupVal c!"Expr" c!"String" [.loc l, .str s]
  | _, .tId i => tupVal c!"AssignTarget" c!"Id" [.id i]
  | _, .tDot l e k => tupVal c!"AssignTarget" c!"Dot" [.loc l, .node _ e, .dotKey k]
  | _, .tBrack l e prop => tupVal c!"AssignTarget" c!"Brack" [.loc l, .node _ e, .node _ prop]
  | _, .pSimple t => tupVal c!"Patt" c!"Simple" [.node _ t]
  | _, .pCompound p => tupVal c!"Patt" c!"Compound" [.node _ p]
  | _, .cArr l es r => tupVal c!"CompoundPatt" c!"Arr" [.loc l, .node _ es, .node _ r]
  | _, .cObj l ps => tupVal c!"CompoundPatt" c!"Obj" [.loc l, .node _ ps]
  | _, .restPatt l p => recVal c!"RestPatt" [(c!"location", .loc l), (c!"patt", .node _ p)]
  | _, .ppRegular l k p => tupVal c!"PropPatt" c!"Regular" [.loc l, .propKey k, .node _ p]
  | _, .ppShorthand i => tupVal c!"PropPatt" c!"Shorthand" [.id i]
  | _, .prRegular l k v => tupVal c!"Prop" c!"Regular" [.loc l, .propKey k, .node _ v]
  | _, .prMethod f => tupVal c!"Prop" c!"Method" [.node _ f]
  | _, .prShorthand i => tupVal c!"Prop" c!"Shorthand" [.id i]
  | _, .vInit e => tupVal c!"PropVal" c!"Init" [.node _ e]
  | _, .vGet l b => tupVal c!"PropVal" c!"Get" [.loc l, .node _ b]
  | _, .vSet l p b => tupVal c!"PropVal" c!"Set" [.loc l, .node _ p, .node _ b]
  | _, .func l id ps b gen => recVal c!"Fun" [(c!"location", .loc l), (c!"id", .node _ id),
      (c!"params", .node _ ps), (c!"body", .node _ b), (c!"generator", .bool gen)]
  | _, .params l ps r => recVal c!"Params" [(c!"location", .loc l), (c!"list", .node _ ps), (c!"rest", .node _ r)]
  | _, .body l dirs items => recVal c!"Body" [(c!"location", .loc l), (c!"dirs", .dirs dirs),
      (c!"items", .node _ items)]
  | _, .siDecl d => tupVal c!"StmtListItem" c!"Decl" [.node _ d]
  | _, .siStmt s => tupVal c!"StmtListItem" c!"Stmt" [.node _ s]
  | _, .miImport i => tupVal c!"ModItem" c!"Import" [.node _ i]
  | _, .miExport e => tupVal c!"ModItem" c!"Export" [.node _ e]
  | _, .miItem i => tupVal c!"ModItem" c!"StmtListItem" [.node _ i]
  | _, .importForEffect l s => tupVal c!"Import" c!"ForEffect" [.loc l, .str s]
  | _, .exportVar l ds semi => tupVal c!"Export" c!"Var" [.loc l, .node _ ds, .semi semi]
  | _, .exportDecl d => tupVal c!"Export" c!"Decl" [.node _ d]
  | _, .dFun f => tupVal c!"Decl" c!"Fun" [.node _ f]
  | _, .dLet l ds semi => tupVal c!"Decl" c!"Let" [.loc l, .node _ ds, .semi semi]
  | _, .dConst l ds semi => tupVal c!"Decl" c!"Const" [.loc l, .node _ ds, .semi semi]
  | _, .dtSimple l i init => tupVal c!"Dtor" c!"Simple" [.loc l, .id i, .node _ init]
  | _, .dtCompound l p init => tupVal c!"Dtor" c!"Compound" [.loc l, .node _ p, .node _ init]
  | _, .constDtor l p value => recVal c!"ConstDtor" [(c!"location", .loc l), (c!"patt", .node _ p),
      (c!"value", .node _ value)]
  | _, .block l items => recVal c!"Block" [(c!"location", .loc l), (c!"items", .node _ items)]
  | _, .sEmpty l => tupVal c!"Stmt" c!"Empty" [.loc l]
  | _, .sBlock b => tupVal c!"Stmt" c!"Block" [.node _ b]
  | _, .sVar l ds semi => tupVal c!"Stmt" c!"Var" [.loc l, .node _ ds, .semi semi]
  | _, .sExpr l e semi => tupVal c!"Stmt" c!"Expr" [.loc l, .node _ e, .semi semi]
  | _, .sIf l test thn alt => tupVal c!"Stmt" c!"If" [.loc l, .node _ test, .node _ thn, .node _ alt]
  | _, .sLabel l i s => tupVal c!"Stmt" c!"Label" [.loc l, .id i, .node _ s]
  | _, .sBreak l i semi => tupVal c!"Stmt" c!"Break" [.loc l, .idOpt i, .semi semi]
  | _, .sCont l i semi => tupVal c!"Stmt" c!"Cont" [.loc l, .idOpt i, .semi semi]
  | _, .sWith l obj s => tupVal c!"Stmt" c!"With" [.loc l, .node _ obj, .node _ s]
  | _, .sSwitch l disc cases => tupVal c!"Stmt" c!"Switch" [.loc l, .node _ disc, .node _ cases]
  | _, .sReturn l arg semi => tupVal c!"Stmt" c!"Return" [.loc l, .node _ arg, .semi semi]
  | _, .sThrow l arg semi => tupVal c!"Stmt" c!"Throw" [.loc l, .node _ arg, .semi semi]
  | _, .sTry l b c f => tupVal c!"Stmt" c!"Try" [.loc l, .node _ b, .node _ c, .node _ f]
  | _, .sWhile l test s => tupVal c!"Stmt" c!"While" [.loc l, .node _ test, .node _ s]
  | _, .sDoWhile l s test semi => tupVal c!"Stmt" c!"DoWhile" [.loc l, .node _ s, .node _ test, .semi semi]
  | _, .sFor l head test update s => tupVal c!"Stmt" c!"For" [.loc l, .node _ head, .node _ test,
      .node _ update, .node _ s]
  | _, .sForIn l head obj s => tupVal c!"Stmt" c!"ForIn" [.loc l, .node _ head, .node _ obj, .node _ s]
  | _, .sForOf l head obj s => tupVal c!"Stmt" c!"ForOf" [.loc l, .node _ head, .node _ obj, .node _ s]
  | _, .sDebugger l semi => tupVal c!"Stmt" c!"Debugger" [.loc l, .semi semi]
  | _, .fhVar l ds => tupVal c!"ForHead" c!"Var" [.loc l, .node _ ds]
  | _, .fhLet l ds => tupVal c!"ForHead" c!"Let" [.loc l, .node _ ds]
  | _, .fhConst l ds => tupVal c!"ForHead" c!"Const" [.loc l, .node _ ds]
  | _, .fhExpr l e => tupVal c!"ForHead" c!"Expr" [.loc l, .node _ e]
  | _, .fiVarInit l i init => tupVal c!"ForInHead" c!"VarInit" [.loc l, .id i, .node _ init]
  | _, .fiVar l p => tupVal c!"ForInHead" c!"Var" [.loc l, .node _ p]
  | _, .fiLet l p => tupVal c!"ForInHead" c!"Let" [.loc l, .node _ p]
  | _, .fiConst l p => tupVal c!"ForInHead" c!"Const" [.loc l, .node _ p]
  | _, .fiPatt p => tupVal c!"ForInHead" c!"Patt" [.node _ p]
  | _, .foVar l p => tupVal c!"ForOfHead" c!"Var" [.loc l, .node _ p]
  | _, .foLet l p => tupVal c!"ForOfHead" c!"Let" [.loc l, .node _ p]
  | _, .foConst l p => tupVal c!"ForOfHead" c!"Const" [.loc l, .node _ p]
  | _, .foPatt p => tupVal c!"ForOfHead" c!"Patt" [.node _ p]
  | _, .catchClause l p b => recVal c!"Catch" [(c!"location", .loc l), (c!"param", .node _ p),
      (c!"body", .node _ b)]
  | _, .caseClause l test items => recVal c!"Case" [(c!"location", .loc l), (c!"test", .node _ test),
      (c!"body", .node _ items)]

end Esprit.Derive
