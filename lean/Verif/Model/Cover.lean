import Verif.Model.Ast

/-! Model of `crates/easter/src/cover.rs`. -/

namespace Esprit

/-- cover.rs:10-13 `Error`. -/
inductive CoverError where
  | invalidAssignTarget (l : Loc)
  | invalidPropPatt (l : Loc)
  deriving DecidableEq, Repr

namespace Cover

/-- cover.rs:38-47 `Expr::into_assign_target`. -/
def intoAssignTarget : Expr → Except CoverError AssignTarget
  | .eId i => .ok (.tId i)
  | .eDot l e k => .ok (.tDot l e k)
  | .eBrack l e p => .ok (.tBrack l e p)
  | e => .error (.invalidAssignTarget e.loc)

/-- The conversion of an array element: an expression, or a spread with its
location and argument. -/
inductive ItemResult where
  | expr (r : Except CoverError PattTarget)
  | spread (l : Loc) (r : Except CoverError PattTarget)

/-- What the conversion produces for the parts of an expression that it
descends into. -/
def Result : Cat → Type
  | .expr => Except CoverError PattTarget
  | .prop => Except CoverError (Ast (.propPatt .target))
  | .propVal => Option (Except CoverError PattTarget)
  | .item => ItemResult
  | .list c => List (Result c)
  | .opt c => Option (Result c)
  | _ => Unit

/-- cover.rs:57-62: the loop over the properties of an object, stopping at the
first error. -/
def props : List (Except CoverError (Ast (.propPatt .target))) →
    Except CoverError (Ast (.list (.propPatt .target)))
  | [] => .ok .nil
  | p :: ps => do return .cons (← p) (← props ps)

/-- cover.rs:74-80: the loop over the elements of an array (after the removal of
a trailing rest element), stopping at the first error. -/
def elements : List (Option ItemResult) → Except CoverError (Ast (.list (.opt (.patt .target))))
  | [] => .ok .nil
  | Option.some (.expr r) :: es => do return .cons (.some (← r)) (← elements es)
  | Option.some (.spread l _) :: _ => .error (.invalidAssignTarget l)
  | Option.none :: es => do return .cons .none (← elements es)

/-- cover.rs:65-73: split off the last element if it is `Spread(None, _)`. -/
def splitRest (es : List (Option ItemResult)) :
    List (Option ItemResult) × Option (Except CoverError PattTarget) :=
  match es.getLast? with
  | Option.some (Option.some (.spread Option.none r)) => (es.dropLast, Option.some r)
  | _ => (es, Option.none)

/-- cover.rs:64-82: the conversion of an array; the rest element is converted
before the other elements. -/
def array (l : Loc) (es : List (Option ItemResult)) : Except CoverError PattTarget :=
  match splitRest es with
  | (es, Option.some r) => do
    let rest ← r
    return .pCompound (.cArr l (← elements es) (.some (.restPatt Option.none rest)))
  | (es, Option.none) => do
    return .pCompound (.cArr l (← elements es) .none)

/-- cover.rs:53-87 `Expr::into_assign_patt` and cover.rs:94-108
`Prop::into_assign_prop`, as one structural recursion over the tree: the results
for the elements of a vector are collected in a list, which the equations for
`Arr` and `Obj` then traverse in the order of the Rust code.  (Conversions are
pure, so computing the result of an element that the Rust code does not
reach has no effect.) -/
def convert : {c : Cat} → Ast c → Result c
  | .expr, .eObj l ps => (do return .pCompound (.cObj l (← props (convert ps))) : Except CoverError PattTarget)
  | .expr, .eArr l es => array l (convert es)
  | .expr, e => (do return .pSimple (← intoAssignTarget e) : Except CoverError PattTarget)
  | .prop, .prRegular l k v => match (convert v : Option (Except CoverError PattTarget)) with
    | Option.some r => (do return .ppRegular l k (← r) : Except CoverError (Ast (.propPatt .target)))
    | Option.none => (.error (.invalidPropPatt l) : Except CoverError (Ast (.propPatt .target)))
  | .prop, .prShorthand i => (.ok (.ppShorthand i) : Except CoverError (Ast (.propPatt .target)))
  | .prop, .prMethod f => (.error (.invalidPropPatt f.loc) : Except CoverError (Ast (.propPatt .target)))
  | .propVal, .vInit e => Option.some (convert e)
  | .propVal, _ => (Option.none : Option (Except CoverError PattTarget))
  | .item, .iExpr e => ItemResult.expr (convert e)
  | .item, .iSpread l e => ItemResult.spread l (convert e)
  | .list _, .cons h t => (convert h :: convert t : List _)
  | .list c, .nil => ([] : List (Result c))
  | .opt _, .some x => Option.some (convert x)
  | .opt c, .none => (Option.none : Option (Result c))
  | .id, _ | .propKey, _ | .target, _ | .patt _, _ | .comp _, _
  | .rest _, _ | .propPatt _, _ | .func _, _ | .params, _ | .body _, _
  | .sitem, _ | .modItem, _ | .«import», _ | .«export», _ | .decl, _ | .dtor, _ | .constDtor, _
  | .block, _ | .stmt, _ | .forHead, _ | .forInHead, _ | .forOfHead, _ | .«catch», _ | .case, _ => ()

/-- cover.rs:53-87 `Expr::into_assign_patt`. -/
def intoAssignPatt (e : Expr) : Except CoverError PattTarget := convert e

end Cover

end Esprit
