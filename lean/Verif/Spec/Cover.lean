import Verif.Model.Cover

/-!
Specification of the cover grammar: which expressions are assignment patterns,
and the expression that a pattern was written as.
-/

namespace Esprit

namespace Patt

/-- The category of source text that a pattern category is written as. -/
def Source : Cat → Type
  | .target => Expr
  | .patt _ => Expr
  | .comp _ => Expr
  | .propPatt _ => Ast .prop
  | .rest _ => Ast .item
  | .list c => List (Source c)
  | .opt c => Option (Source c)
  | _ => Unit

/-- An array element that is not a rest element. -/
def arrayItem : Option Expr → Ast (.opt .item)
  | Option.none => .none
  | Option.some e => .some (.iExpr e)

/-- The expression that denotes the same source text as an assignment pattern:
identifiers and member accesses stand for themselves, array and object patterns
are array and object literals, and a rest element is a spread element. -/
def source : {c : Cat} → Ast c → Source c
  | .target, .tId i => (.eId i : Expr)
  | .target, .tDot l e k => (.eDot l e k : Expr)
  | .target, .tBrack l e p => (.eBrack l e p : Expr)
  | .patt .target, .pSimple t => (source t : Expr)
  | .patt .target, .pCompound p => (source p : Expr)
  | .comp .target, .cArr l es r =>
    (.eArr l (.ofList ((source es).map arrayItem ++
      ((source r : Option (Ast .item)).toList.map Ast.some))) : Expr)
  | .comp .target, .cObj l ps => (.eObj l (.ofList (source ps)) : Expr)
  | .rest .target, .restPatt l p => (.iSpread l (source p) : Ast .item)
  | .propPatt .target, .ppRegular l k p => (.prRegular l k (.vInit (source p)) : Ast .prop)
  | .propPatt .target, .ppShorthand i => (.prShorthand i : Ast .prop)
  | .list _, .cons h t => (source h :: source t : List _)
  | .list c, .nil => ([] : List (Source c))
  | .opt _, .some x => Option.some (source x)
  | .opt c, .none => (Option.none : Option (Source c))
  -- the other categories have no assignment patterns
  | .patt c, _ | .comp c, _ => (.eNull Option.none : Expr)
  | .rest c, _ => (.iExpr (.eNull Option.none) : Ast .item)
  | .propPatt c, _ => (.prRegular Option.none (.id Option.none []) (.vInit (.eNull Option.none)) : Ast .prop)
  | .expr, _ | .prop, _ | .propVal, _ | .item, _ | .id, _ | .propKey, _ | .func _, _ | .params, _
  | .body _, _ | .sitem, _ | .modItem, _ | .«import», _ | .«export», _ | .decl, _ | .dtor, _
  | .constDtor, _ | .block, _ | .stmt, _ | .forHead, _ | .forInHead, _ | .forOfHead, _
  | .«catch», _ | .case, _ => ()

/-- The expression of an assignment pattern. -/
def sourceExpr (p : PattTarget) : Expr := source p

/-- The expression of an assignment target. -/
def sourceTarget (t : AssignTarget) : Expr := source t

/-- The pattern has no rest element. -/
def restFree : {c : Cat} → Ast c → Prop
  | .patt _, .pCompound p => restFree p
  | .comp _, .cArr _ es .none => restFree es
  | .comp _, .cArr _ _ (.some _) => False
  | .comp _, .cObj _ ps => restFree ps
  | .propPatt _, .ppRegular _ _ p => restFree p
  | .list _, .cons h t => restFree h ∧ restFree t
  | .opt _, .some x => restFree x
  | _, _ => True

/-- The expressions that are assignment patterns: identifiers, member accesses,
and array and object literals built from them, with at most one spread element,
which comes last (and carries no location, see C20). -/
inductive Assignable : Expr → Prop where
  | id {i : Id} : Assignable (.eId i)
  | dot {l : Loc} {e : Expr} {k : DotKey} : Assignable (.eDot l e k)
  | brack {l : Loc} {e p : Expr} : Assignable (.eBrack l e p)
  | arr {l : Loc} {es : List (Option Expr)} :
      (∀ e, some e ∈ es → Assignable e) →
      Assignable (.eArr l (.ofList (es.map arrayItem)))
  | arrRest {l : Loc} {es : List (Option Expr)} {r : Expr} :
      (∀ e, some e ∈ es → Assignable e) → Assignable r →
      Assignable (.eArr l (.ofList (es.map arrayItem ++ [.some (.iSpread none r)])))
  | obj {l : Loc} {ps : List (Id ⊕ (Loc × PropKey × Expr))} :
      (∀ l k e, Sum.inr (l, k, e) ∈ ps → Assignable e) →
      Assignable (.eObj l (.ofList (ps.map fun
        | .inl i => .prShorthand i
        | .inr (l, k, e) => .prRegular l k (.vInit e))))

end Patt

end Esprit
